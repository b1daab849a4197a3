import Verif.Spec.Requests
/-
When the stored alignment of magnets and BPMs is the one implied by supports and alignment errors.
-/
namespace PySC.Spec
variable {K : Type} [Field K] [LinearOrder K] [FloorRing K]

/-- `update_supports()` would change nothing at all -/
def Aligned (E : Env K) (s : SC K) : Prop := updateSupports E true true s = .ok () s

/-- no BPM is a registered magnet or gets its alignment from one -/
def BpmsApart (s : SC K) : Prop := ∀ i ∈ s.ORD.Magnet, ∀ t ∈ s.ORD.BPM, ¬ Affects s.RING i t

/-- a sequence of operations (no registrations, no new errors), each with any outcome, exceptions included -/
inductive Operated (W : World K) : SC K → SC K → Prop
  | start (s : SC K) : Operated W s s
  | operation {s t : SC K} (h : Operated W s t) (c : Call K) (hc : c.IsOperation) : Operated W s (c.run W t).state

end PySC.Spec
