import Verif.Spec.Commute
import Verif.Spec.Pieces
import Verif.Spec.Instruments
/-
Machines which differ only in the order in which entries were made in the dictionaries of uncertainties (C112).
-/
namespace PySC.Spec
variable {K : Type}

/-- The machines are equal, except that the dictionaries of the registered elements may have been filled in another order: for
every element they hold the same uncertainties. -/
structure Equivalent (s t : SC K) : Prop where
  ring : s.RING = t.RING
  design : s.IDEALRING = t.IDEALRING
  injection : s.INJ = t.INJ
  ord : s.ORD = t.ORD
  rng : s.rng = t.rng
  bpm : ∀ i, s.SIG.BPM.get? i = t.SIG.BPM.get? i
  rf : ∀ i, s.SIG.RF.get? i = t.SIG.RF.get? i
  magnet : ∀ i, s.SIG.Magnet.get? i = t.SIG.Magnet.get? i
  support : ∀ i, s.SIG.Support.get? i = t.SIG.Support.get? i
  randomInjection : s.SIG.randomInjectionZ = t.SIG.randomInjectionZ
  staticInjection : s.SIG.staticInjectionZ = t.SIG.staticInjectionZ
  circumference : s.SIG.Circumference = t.SIG.Circumference

/-- the session raises the same exceptions on both machines and makes equivalent machines of them -/
def LikeOne [Field K] [LinearOrder K] [FloorRing K] (L : Lab K) (steps : List (Step K)) (u u' : SC K) : Prop :=
  outcomes L steps u = outcomes L steps u' ∧ Equivalent (sessionOf L steps u) (sessionOf L steps u')

end PySC.Spec
