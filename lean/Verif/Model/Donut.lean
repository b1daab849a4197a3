import Mathlib.Analysis.SpecialFunctions.Trigonometric.Basic
import Mathlib.Analysis.SpecialFunctions.Sqrt
import Verif.Model.Orbit
/-
pySC/correction/orbit_trajectory.py: the pattern of the search for transmission.
-/
namespace PySC

/-- pySC/correction/orbit_trajectory.py:366 -/
noncomputable def goldenAngle : ℝ := 2 * Real.pi / ((1 + √5) / 2)

/-- pySC/correction/orbit_trajectory.py:364-367: column `k` of `pos_2d` -/
noncomputable def donutPosition (r0 r1 : ℝ) (n k : ℕ) : ℝ × ℝ :=
  (√(r0 ^ 2 + (r1 ^ 2 - r0 ^ 2) * k / ((n : ℝ) - 1)) * Real.cos (k * goldenAngle),
   √(r0 ^ 2 + (r1 ^ 2 - r0 ^ 2) * k / ((n : ℝ) - 1)) * Real.sin (k * goldenAngle))

/-- `np.diff` along the rows -/
def diffs (l : List (ℝ × ℝ)) : List (ℝ × ℝ) := List.zipWith (fun a b => (b.1 - a.1, b.2 - a.2)) l l.tail

/-- pySC/correction/orbit_trajectory.py:363-368 `_golden_donut_diffs` (for one point the code divides by zero; here as everywhere at
least two are used) -/
noncomputable def goldenDonutDiffs (r0 r1 : ℝ) (n : ℕ) : List (ℝ × ℝ) :=
  diffs ((0, 0) :: (List.range n).map (donutPosition r0 r1 n))

/-- pySC/correction/orbit_trajectory.py:21-22, 379: the steps of the search, 32 points between 0.5 and 1 mrad -/
noncomputable def wigglePattern : List (ℝ × ℝ) := goldenDonutDiffs (500 / 10 ^ 6) (1000 / 10 ^ 6) 32

end PySC
