import Verif.Model.Apertures
import Mathlib.Analysis.SpecialFunctions.Arcosh
import Mathlib.Analysis.SpecialFunctions.Complex.Arg
/-
pySC/lattice_properties/apertures.py: polar coordinates, centring on the orbit and the choice of the angles.
-/
namespace PySC

/-- pySC/lattice_properties/apertures.py:134-137 `cart2pol`, for one point.  The argument of a complex number is `np.arctan2`, except that
there is one zero only (`np.arctan2(-0.0, -1.0)` is minus pi). -/
noncomputable def cart2pol (x y : ℝ) : ℝ × ℝ := (Real.sqrt (x ^ 2 + y ^ 2), Complex.arg ⟨x, y⟩)

/-- pySC/lattice_properties/apertures.py:139-142 `pol2cart`, for one point -/
noncomputable def pol2cart (rho phi : ℝ) : ℝ × ℝ := (rho * Real.cos phi, rho * Real.sin phi)

/-- pySC/lattice_properties/apertures.py:55-58: radii and angles seen from the closed orbit, whose first and third coordinates are `orbit` -/
noncomputable def centreOnOrbit (orbit : ℝ × ℝ) (points : List (ℝ × ℝ)) : List (ℝ × ℝ) :=
  points.map (fun p => cart2pol ((pol2cart p.1 p.2).1 - orbit.1) ((pol2cart p.1 p.2).2 - orbit.2))

/-- pySC/lattice_properties/apertures.py:45-60: what is returned, the area and the points; `orbit` is `none` if the points are not centred
or the closed orbit was not found -/
noncomputable def apertureResult (orbit : Option (ℝ × ℝ)) (points : List (ℝ × ℝ)) : ℝ × List (ℝ × ℝ) :=
  (apertureArea points, match orbit with
    | none => points
    | some o => centreOnOrbit o points)

/-- `np.linspace(0, stop, n)` -/
noncomputable def linspace0 (stop : ℝ) (n : Nat) : List ℝ :=
  (List.range n).map (fun (k : ℕ) => if n = 1 then 0 else (k : ℝ) * (stop / ((n : ℝ) - 1)))

/-- pySC/lattice_properties/apertures.py:125-132: `_autothetas`, from the four radii on.  Division by zero and the root of a negative number
(NaN in NumPy) are errors. -/
noncomputable def autoAngles (r0 r1 r2 r3 : ℝ) (nt : Nat) : Except Err (List (ℝ × ℝ)) :=
  let a := (r0 + r2) / 2
  let b := (r1 + r3) / 2
  if a = 0 then .error .nonFinite
  else if 1 - b ^ 2 / a ^ 2 < 0 then .error .nonFinite
  else
    let e := Real.sqrt (1 - b ^ 2 / a ^ 2)
    if e = 0 then .error .nonFinite
    else
      let mu := Real.arcosh (1 / e)
      .ok ((linspace0 (2 * Real.pi) nt).map (fun (nu : ℝ) =>
        (‖Complex.cosh ((mu : ℂ) + Complex.I * (nu : ℂ))‖, Complex.arg (Complex.cosh ((mu : ℂ) + Complex.I * (nu : ℂ))))))

end PySC
