import Verif.Spec.Setpoints
import Verif.Spec.Errors
import Verif.Model.Chroma
/-
Vocabulary for chromaticity fits (C74).
-/
namespace PySC.Spec
variable {K : Type} [Field K] [LinearOrder K] [FloorRing K]

/-- the points a minimiser has asked for, with the values it got, starting after `hist`: each point is asked for in turn -/
inductive Asked (m : Minimiser K) (x0 : List K) : List (List K × Option K) → List (List K × Option K) → Prop
  | done {hist x} : m.next x0 hist = .inr x → Asked m x0 hist []
  | step {hist x y l} : m.next x0 hist = .inl x → Asked m x0 (hist ++ [(x, y)]) l → Asked m x0 hist ((x, y) :: l)

/-- the sextupole set-points of all families are those of the machine `s`, rounded towards zero, plus one number per family -/
def SextupolesAt (s s' : SC K) (fams : List (List Nat)) (x : List K) : Prop :=
  ∀ (n : Nat) (fam : List Nat), fams[n]? = some fam → ∃ xn, x[n]? = some xn ∧
    ∀ o ∈ fam, setpoint s'.RING o false 2 = xn + truncZ (setpoint s.RING o false 2)

/-- no other set-points differ, and nothing but the realised fields -/
structure OnlySextupoles (fams : List (List Nat)) (s s' : SC K) : Prop where
  setpoints : ∀ i skew k, ¬ (i ∈ fams.flatten ∧ skew = false ∧ k = 2) → setpoint s'.RING i skew k = setpoint s.RING i skew k
  rest : Frame (fun i a => (i ∈ fams.flatten ∧ a = "SetPointB") ∨ a ∈ ["PolynomA", "PolynomB", "KickAngle", "MaxOrder"]) s s'

end PySC.Spec
