import Verif.Spec.Draws
import Verif.Spec.Supports
import Verif.Spec.Truncated
/-
The random numbers behind the errors of `apply_errors` as random variables (C96).
-/
namespace PySC.Spec
open MeasureTheory

/-- what random numbers are drawn for by `apply_errors`: an uncertainty of a cavity, a BPM or a magnet, the injected
trajectory, the circumference -/
inductive Cause where
  | cavity (i : Nat) (name : String)
  | bpm (i : Nat) (name : String)
  | magnet (i : Nat) (name : String)
  | injection
  | circumference
deriving DecidableEq

/-- the uncertainty behind a cause, if there is one (BPM noise levels are not drawn but stored as they are) -/
def uncertaintyOf (s : SC ℝ) : Cause → Option (Attr ℝ)
  | .cavity i name => if i ∈ s.ORD.RF then sigma s.SIG.RF i name else none
  | .bpm i name => if i ∈ s.ORD.BPM ∧ name ∉ ["Noise", "NoiseCO"] then sigma s.SIG.BPM i name else none
  | .magnet i name => if i ∈ s.ORD.Magnet then sigma s.SIG.Magnet i name else none
  | .injection => some (.vec s.SIG.staticInjectionZ)
  | .circumference => some (.num s.SIG.Circumference)

/-- the number of components of an uncertainty -/
def numbersFor : Attr ℝ → Nat
  | .num _ => 1
  | .vec v => v.length
  | .pair (.num _) _ => 1
  | .pair (.vec v) _ => v.length
  | _ => 0

/-- the cut-off of an uncertainty: its own, or the one given to `apply_errors` -/
def cutoffFor (nsigmas : ℝ) : Attr ℝ → ℝ
  | .pair _ c => c
  | _ => nsigmas

/-- the cut-off which applies to a cause -/
def cutoffOf (nsigmas : ℝ) (s : SC ℝ) (x : Cause) : ℝ :=
  match uncertaintyOf s x with
  | some sig => cutoffFor nsigmas sig
  | none => nsigmas

/-- the components of all uncertainties -/
def Component (s : SC ℝ) : Type := {p : Cause × Nat // ∃ sig, uncertaintyOf s p.1 = some sig ∧ p.2 < numbersFor sig}

/-- the error is the uncertainty times the numbers `z 0, z 1, …`, component by component -/
def MadeFrom (sig err : Attr ℝ) (z : Nat → ℝ) : Prop :=
  match sig, err with
  | .num x, .num e => e = x * z 0
  | .vec v, .vec e => e.length = v.length ∧ ∀ k < v.length, coef e k = coef v k * z k
  | .pair (.num x) _, .num e => e = x * z 0
  | .pair (.vec v) _, .vec e => e.length = v.length ∧ ∀ k < v.length, coef e k = coef v k * z k
  | _, _ => False

/-- all errors of the machine `s'` are made from the uncertainties of `s` and the numbers `z` -/
structure ErrorsMadeFrom (s s' : SC ℝ) (z : Cause → Nat → ℝ) : Prop where
  cavities : ∀ i ∈ s.ORD.RF, ∀ name sig, sigma s.SIG.RF i name = some sig →
    ∃ err, s'.RING.attr i name = some err ∧ MadeFrom sig err (z (.cavity i name))
  bpms : ∀ i ∈ s.ORD.BPM, ∀ name sig, sigma s.SIG.BPM i name = some sig → name ∉ ["Noise", "NoiseCO"] →
    ∃ err, s'.RING.attr i name = some err ∧ MadeFrom sig err (z (.bpm i name))
  magnets : ∀ i ∈ s.ORD.Magnet, ∀ name sig, sigma s.SIG.Magnet i name = some sig →
    ∃ err, s'.RING.attr i (if name = "BendingAngle" then "BendingAngleError" else name) = some err ∧
      MadeFrom sig err (z (.magnet i name))
  injection : ∀ k < 6, coef s'.INJ.Z0 k = coef s.INJ.Z0ideal k + coef s.SIG.staticInjectionZ k * z .injection k
  circumference : (∃ i < s.RING.length, DriftAt s.RING i) →
    circumference s'.RING = (1 + s.SIG.Circumference * z .circumference 0) * circumference s.RING

end PySC.Spec
