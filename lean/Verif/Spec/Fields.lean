import Verif.Spec.Machine
/-
What field a magnet should have, given the set-points and errors stored in the lattice (used for C13, C04, C23).
-/
namespace PySC.Spec
variable {K : Type _} [Field K]

/-- calibrated set-point of multipole `k` of letter `ab` -/
def mainField (r : Ring K) (src : Nat) (ab : String) (k : Nat) : K :=
  coef (vecAt r src ("SetPoint" ++ ab)) k * (1 + coef (vecAt r src ("CalError" ++ ab)) k)

/-- systematic error of multipole `k` of letter `ab` induced by the fields of letter `source` -/
def systematicFrom (r : Ring K) (src tgt : Nat) (ab source : String) (k : Nat) : K :=
  ((tableAt r tgt ("SysPol" ++ ab ++ "From" ++ source)).map
    (fun ne => mainField r src source ne.1 * coef ne.2 k)).sum

/-- multipole `k` of letter `ab` of element `tgt` driven by magnet `src`, without dipole terms -/
def multipole (r : Ring K) (src tgt : Nat) (ab : String) (k : Nat) : K :=
  mainField r src ab k + coef (vecAt r tgt ("Polynom" ++ ab ++ "Offset")) k
    + systematicFrom r src tgt ab "A" k + systematicFrom r src tgt ab "B" k

/-- dipole field of a bending angle error -/
def bendTerm (r : Ring K) (src tgt : Nat) : K :=
  numAt r src "BendingAngleError" * numAt r tgt "BendingAngle" / numAt r tgt "Length"

/-- dipole field of a combined function magnet whose gradient is not nominal -/
def combinedTerm (r : Ring K) (src tgt : Nat) : K :=
  if (r.attr src "BendingAngle").isSome && flagAt r src "CombinedFunction" then
    (mainField r src "B" 1 / coef (vecAt r src "NomPolynomB") 1 - 1) * numAt r tgt "BendingAngle"
      / numAt r tgt "Length"
  else 0

/-- The element `tgt` of the lattice `r'` has the field that magnet `src` is meant to produce according to the
set-points and errors stored in `r`. -/
structure HasField (r : Ring K) (src tgt : Nat) (r' : Ring K) : Prop where
  polynomA : ∃ v, r'.attr tgt "PolynomA" = some (.vec v) ∧ ∀ k, coef v k = multipole r src tgt "A" k
  polynomB : ∃ v, r'.attr tgt "PolynomB" = some (.vec v) ∧
    (∀ k, coef v k = multipole r src tgt "B" k +
      if k = 0 then bendTerm r src tgt + combinedTerm r src tgt else 0) ∧
    r'.attr tgt "MaxOrder" = some (.int ((v.length : Int) - 1))
  kick : r.attr src "PassMethod" = some (.str "CorrectorPass") →
    r'.attr tgt "KickAngle" = some (.vec [coef (vecAt r' tgt "PolynomB") 0, coef (vecAt r' tgt "PolynomA") 0])

/-- A magnet has no more calibration errors than set-points. -/
def CalFits (r : Ring K) (i : Nat) : Prop :=
  ∀ ab ∈ ["A", "B"], (vecAt r i ("CalError" ++ ab)).length ≤ (vecAt r i ("SetPoint" ++ ab)).length

end PySC.Spec
