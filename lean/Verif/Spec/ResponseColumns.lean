import Verif.Spec.Restore
import Verif.Spec.Response
/-
Vocabulary for the columns of a measured response matrix (C54).
-/
namespace PySC.Spec
variable {K : Type} [Field K] [LinearOrder K]

/-- Apart from random numbers, the machine `t` is the machine `s` with one component of the corrector `o` at the kick `x`, and the
fields are up to date. -/
structure KickedTo (o : Nat) (skew : Bool) (x : K) (s t : SC K) : Prop where
  kick : kick t.RING o skew = x
  setpoints : ∀ i sk k, (i ≠ o ∨ sk ≠ skew ∨ k ≠ 0) → setpoint t.RING i sk k = setpoint s.RING i sk k
  attr : ∀ i a, a ∉ ["SetPointA", "SetPointB"] → ¬ FieldOf s.RING s.ORD.Magnet i a → t.RING.attr i a = s.RING.attr i a
  up : UpToDate t
  rest : t = { s with RING := t.RING, rng := t.rng }

/-- `d` is the largest change between two readings, none of which is missing -/
def LargestChange (r r0 : List (Option K)) (d : K) : Prop :=
  (∀ p ∈ r.zip r0, ∃ y y0, p = (some y, some y0) ∧ |y - y0| ≤ d) ∧ ∃ y y0, (some y, some y0) ∈ r.zip r0 ∧ |y - y0| = d

/-- the step with its sign changed if the corrector cannot do it -/
def inRange (l : Lim K) (start step : K) : K := if Within l (start + step) then step else -step

/-- The step `m` is scaled from the reading with another step `m'` such that the largest change would be `a`.  (The step is reversed if it
is beyond the limit.) -/
def Scaled (E : Env K) (B : BeamEnv K) (bpms : List Nat) (r0 : List (Option K)) (a : K) (o : Nat) (skew : Bool) (s : SC K) (m : K) : Prop :=
  ∃ step t r t' d, KickedTo o skew (clip (kickLimit s.RING o skew) (kick s.RING o skew + inRange (kickLimit s.RING o skew) (kick s.RING o skew) step)) s t ∧
    bpmReading E B (some bpms) false t = .ok r t' ∧ LargestChange (r.x ++ r.y) r0 d ∧ d ≠ 0 ∧
    m * d = inRange (kickLimit s.RING o skew) (kick s.RING o skew) step * a

end PySC.Spec
