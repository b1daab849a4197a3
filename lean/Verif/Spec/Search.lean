import Verif.Spec.Orbit
import Verif.Spec.Requests
import Verif.Spec.Response
/-
The kicks tried in a search for transmission (C115).
-/
namespace PySC.Spec
variable {K : Type} [Field K] [LinearOrder K]

/-- where one is after the first `k` steps of a list -/
def pointAfter (steps : List (K × K)) (k : Nat) : K × K :=
  (((steps.take k).map Prod.fst).sum, ((steps.take k).map Prod.snd).sum)

/-- `m` times the way along all steps, and the first `k` of them once more, in one plane -/
def rounds (steps : List (K × K)) (m k : Nat) (vert : Bool) : K :=
  m * inPlane vert (pointAfter steps steps.length) + inPlane vert (pointAfter steps k)

/-- the change of the kick of a corrector in one plane -/
def moved (s s' : SC K) (i : Nat) (vert : Bool) : K := kick s'.RING i vert - kick s.RING i vert

/-- the correctors have limits in order, and these leave room for eight rounds -/
def RoomFor (s : SC K) (cms : CMs) (steps : List (K × K)) : Prop :=
  ∀ vert, ∀ i ∈ inPlane vert cms, Lim.Nonneg (kickLimit s.RING i vert) ∧
    ∀ m ≤ 7, ∀ k ≤ steps.length, Within (kickLimit s.RING i vert) (kick s.RING i vert + rounds steps m k vert)

/-- a kick of a corrector with this limit can be changed by as much as `d` -/
def Slack (l : Lim K) (x d : K) : Prop :=
  match l with
  | .inf => True
  | .fin l => |x| + d ≤ l

instance (l : Lim K) (x d : K) : Decidable (Slack l x d) := by cases l <;> simp only [Slack] <;> infer_instance

/-- no point of a pattern is further than `r` from where it starts -/
def StaysWithin (r : K) (steps : List (K × K)) : Prop :=
  ∀ k ≤ steps.length, (pointAfter steps k).1 ^ 2 + (pointAfter steps k).2 ^ 2 ≤ r ^ 2

end PySC.Spec
