import Verif.Spec.History
/-
Calls which concern different elements of the machine (C91).
-/
namespace PySC.Spec
variable {K : Type} [Field K] [LinearOrder K] [FloorRing K]
open Py

/-- the elements named by a call which concerns only the elements it names (and, when it moves magnets, the children of
these); `none`: the call concerns the whole machine -/
def Call.named : Call K → Option (List Nat)
  | .register (.bpms o _) => some o
  | .register (.cavities o _) => some o
  | .register (.magnets o _) => some o
  | .systematicMultipoles o _ _ _ => some o
  | .updateCavities o => o
  | .updateMagnets o => o
  | .setCavity o _ _ _ => some o
  | .getCM o _ => some o
  | .setCM o _ _ _ => some o
  | .setMagnet o _ _ _ _ _ => some o
  | _ => none

/-- element `i` is one of the named ones or driven by one of them (`MasterOf`) -/
def Concerned (s : SC K) (named : List Nat) (i : Nat) : Prop :=
  i ∈ named ∨ ∃ m ∈ named, ∃ l, s.RING.attr m "MasterOf" = some (.ords l) ∧ i ∈ l

/-- two calls concern different elements -/
def Apart (s : SC K) (c d : Call K) : Prop :=
  ∃ o p, c.named = some o ∧ d.named = some p ∧ ∀ i, ¬ (Concerned s o i ∧ Concerned s p i)

/-- the calls of a sequence, each with the exception it raised, if any (the caller catches them) -/
def report (W : World K) : List (Call K) → SC K → List (Call K × Option Err)
  | [], _ => []
  | c :: cs, s => (c, (c.run W s).err?) :: report W cs (c.run W s).state

/-- everything that can be observed of two machines is equal; only the order in which the entries of the dictionaries of
uncertainties were made may differ -/
structure Alike (s t : SC K) : Prop where
  ring : s.RING = t.RING
  design : s.IDEALRING = t.IDEALRING
  injection : s.INJ = t.INJ
  ord : s.ORD = t.ORD
  rng : s.rng = t.rng
  bpm : ∀ i, s.SIG.BPM.get? i = t.SIG.BPM.get? i
  rf : ∀ i, s.SIG.RF.get? i = t.SIG.RF.get? i
  magnet : ∀ i, s.SIG.Magnet.get? i = t.SIG.Magnet.get? i
  support : s.SIG.Support = t.SIG.Support
  randomInjection : s.SIG.randomInjectionZ = t.SIG.randomInjectionZ
  staticInjection : s.SIG.staticInjectionZ = t.SIG.staticInjectionZ
  circumference : s.SIG.Circumference = t.SIG.Circumference

end PySC.Spec
