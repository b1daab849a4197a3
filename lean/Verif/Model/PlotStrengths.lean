import Verif.Model.Setpoints
import Verif.Model.Supports
/-
pySC/plotting/plot_lattice.py: what `plot_cm_strengths` draws.
-/
namespace PySC
variable {K : Type} [Field K] [LinearOrder K]
open Py

/-- smallest and largest value -/
def minOf (x : K) (v : List K) : K := v.foldl min x
def maxOf (x : K) (v : List K) : K := v.foldl max x

/-- `np.histogram(v, bins=m)`: the range of the bins, `v` not being empty; a range without extension is widened -/
def histogramRange (x : K) (v : List K) : K × K :=
  let lo := minOf x v
  let hi := maxOf x v
  if lo = hi then (lo - 1 / 2, hi + 1 / 2) else (lo, hi)

/-- edges of the bins: `np.linspace(lo, hi, m + 1)` -/
def binEdge (lo hi : K) (m j : Nat) : K := lo + (j : K) * ((hi - lo) / (m : K))

/-- number of values in bin `j` of `m`: bins do not contain their upper edge, except for the last one -/
def binCount (lo hi : K) (m : Nat) (v : List K) (j : Nat) : Nat :=
  v.countP (fun x => decide (binEdge lo hi m j ≤ x) && (decide (x < binEdge lo hi m (j + 1)) || (decide (j + 1 = m) && decide (x ≤ binEdge lo hi m (j + 1)))))

/-- `np.cumsum` -/
def runningSums (l : List K) : List K := (List.range l.length).map (fun j => (l.take (j + 1)).sum)

/-- pySC/plotting/plot_lattice.py:103, 105: the points of the curve of the distribution.  Without values `bins=0`, which is a `ValueError`. -/
def distributionCurve : List K → Except Err (List (K × K))
  | [] => .error .valueError
  | x :: v =>
    let m := (x :: v).length
    let lo := (histogramRange x v).1
    let hi := (histogramRange x v).2
    let count := (List.range m).map (binCount lo hi m (x :: v))
    let total := count.sum
    .ok ((((List.range m).map (fun j => binEdge lo hi m (j + 1)))).zip (runningSums (count.map (fun (c : Nat) => (c : K) / (total : K)))))

variable [FloorRing K]

/-- pySC/plotting/plot_lattice.py:102-105 for one plane: bars (position and height) and the points of the curve -/
def plotStrengths1 (ords : List Nat) (skew : Bool) : Py (SC K) (List (K × K) × List (K × K)) := do
  let vals ← getCMSetpoints ords skew
  let setpoints := vals.map (fun x => 10 ^ 6 * x)
  let curve ← lift (distributionCurve setpoints)
  let s ← get
  let pos ← lift (ords.mapM (idx (findspos s.RING)))
  Py.pure (pos.zip setpoints, curve)

/-- pySC/plotting/plot_lattice.py:96-115 `plot_cm_strengths`: horizontal and vertical plane -/
def plotStrengths : Py (SC K) ((List (K × K) × List (K × K)) × (List (K × K) × List (K × K))) := do
  let s ← get
  let h ← plotStrengths1 s.ORD.HCM false
  let v ← plotStrengths1 s.ORD.VCM true
  Py.pure (h, v)

end PySC
