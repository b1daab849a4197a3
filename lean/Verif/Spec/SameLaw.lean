import Verif.Spec.ErrorLaw
import Verif.Spec.Applicable
import Verif.Model.ApplyErrors
import Verif.Spec.Registrable
/-
The errors of `apply_errors` as random variables, to be compared between machines (C111).
-/
namespace PySC.Spec
open MeasureTheory

/-- component `k` of a number or an array which is stored in an element -/
def part : Option (Attr ℝ) → Nat → ℝ
  | some (.num x), _ => x
  | some (.vec v), k => coef v k
  | _, _ => 0

/-- component `k` of an uncertainty -/
def sizeOfPart : Attr ℝ → Nat → ℝ
  | .num x, _ => x
  | .vec v, k => coef v k
  | .pair (.num x) _, _ => x
  | .pair (.vec v) _, k => coef v k
  | _, _ => 0

/-- component `k` of the error with the given cause in the machine `t`, which `apply_errors` made from the machine `s`: the field of the element; the
deviation of the injected trajectory from the ideal one; the relative deviation of the circumference -/
noncomputable def errorOf (s t : SC ℝ) : Cause → Nat → ℝ
  | .cavity i name, k => part (t.RING.attr i name) k
  | .bpm i name, k => part (t.RING.attr i name) k
  | .magnet i name, k => part (t.RING.attr i (if name = "BendingAngle" then "BendingAngleError" else name)) k
  | .injection, k => coef t.INJ.Z0 k - coef s.INJ.Z0ideal k
  | .circumference, _ => circumference t.RING / circumference s.RING - 1

/-- the random variables `e` are the errors which `apply_errors(nsigmas)` gives to the machine `s` when the generator produces the numbers `X`: almost
surely the method comes to its end (given time for sufficiently many passes of its loops), and the errors of the machine are then `e` -/
def ErrorsOf {Ω : Type} [MeasurableSpace Ω] (P : Measure Ω) (E : Env ℝ) (X : ℕ → Ω → ℝ) (nsigmas : ℝ) (s : SC ℝ) (e : Cause → ℕ → Ω → ℝ) : Prop :=
  ∀ᵐ ω ∂P, ∃ passes t, (∀ f, passes ≤ f → applyErrors { E with randn := fun k => X k ω, fuel := f } nsigmas s = .ok () t) ∧
    ∀ c : Component s, e c.1.1 c.1.2 ω = errorOf s t c.1.1 c.1.2

/-- the ring has a drift and a circumference, which `apply_errors` can scale -/
def Scalable (s : SC ℝ) : Prop := (∃ i < s.RING.length, DriftAt s.RING i) ∧ circumference s.RING ≠ 0

/-- the same registration, with the keywords given in another order (supports: with any uncertainties, they are not drawn for a `Cause`) -/
inductive SameCall : RegCall ℝ → RegCall ℝ → Prop
  | bpms (o : List Nat) {kw kw' : Kwargs ℝ} (hk : kw.keys.Nodup) (hp : kw.Perm kw') : SameCall (.bpms o kw) (.bpms o kw')
  | cavities (o : List Nat) {kw kw' : Kwargs ℝ} (hk : kw.keys.Nodup) (hp : kw.Perm kw') : SameCall (.cavities o kw) (.cavities o kw')
  | magnets (o : List Nat) {kw kw' : Kwargs ℝ} (hk : kw.keys.Nodup) (hp : kw.Perm kw') : SameCall (.magnets o kw) (.magnets o kw')
  | supports (rows : List (List Nat)) (t : String) (kw kw' : Kwargs ℝ) : SameCall (.supports rows t kw) (.supports rows t kw')

end PySC.Spec
