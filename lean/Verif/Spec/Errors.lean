import Verif.Spec.Register
/-
Vocabulary for applied errors (C20-C24).
-/
namespace PySC
variable {K : Type _}

/-- like `Frame`, but random numbers may have been drawn -/
structure DrawFrame (W : Nat → String → Prop) (s s' : SC K) : Prop where
  ideal : s'.IDEALRING = s.IDEALRING
  inj : s'.INJ = s.INJ
  sig : s'.SIG = s.SIG
  ord : s'.ORD = s.ORD
  len : s'.RING.length = s.RING.length
  attr : ∀ i a, ¬ W i a → s'.RING.attr i a = s.RING.attr i a

/-- like `DrawFrame`, but also the injected trajectory and its jitter may have changed -/
structure ErrFrame (W : Nat → String → Prop) (s s' : SC K) : Prop where
  ideal : s'.IDEALRING = s.IDEALRING
  inj : ∃ z0 jitter, s'.INJ = { s.INJ with Z0 := z0, randomInjectionZ := jitter }
  sig : s'.SIG = s.SIG
  ord : s'.ORD = s.ORD
  len : s'.RING.length = s.RING.length
  attr : ∀ i a, ¬ W i a → s'.RING.attr i a = s.RING.attr i a

namespace Spec
variable [Field K] [LinearOrder K]

/-- the error `err` does not exceed `cut` times the uncertainty `sig`, component by component -/
def Truncated (cut : K) (sig err : Attr K) : Prop :=
  match sig, err with
  | .num s, .num e => |e| ≤ |cut| * |s|
  | .vec s, .vec e => e.length = s.length ∧ ∀ k, |coef e k| ≤ |cut| * |coef s k|
  | _, _ => False

/-- the same for an uncertainty which may bring its own cut-off -/
def ErrorFor (nsigmas : K) (sig err : Attr K) : Prop :=
  match sig with
  | .pair v c => Truncated c v err
  | v => Truncated nsigmas v err

/-- after errors were applied to the elements in `ords`, the attribute (named by `attrOf`) of every registered
uncertainty holds an error within its cut-off; values named in `raw` are stored as registered -/
def ErrorsStored (r : Ring K) (ords : List Nat) (d : Dict Nat (Dict String (Attr K))) (raw : List String)
    (attrOf : String → String) (nsigmas : K) : Prop :=
  ∀ i ∈ ords, ∀ name sig, sigma d i name = some sig →
    ∃ err, r.attr i (attrOf name) = some err ∧ if name ∈ raw then err = sig else ErrorFor nsigmas sig err

/-- a number or array which is zero, or an uncertainty with cut-off whose value is zero -/
def IsZero : Attr K → Prop
  | .num x => x = 0
  | .vec v => ∀ k, coef v k = 0
  | .pair v _ => IsZero v
  | _ => False

/-- every registered uncertainty is zero -/
structure NoUncertainties (g : Sigs K) : Prop where
  bpm : ∀ i name sig, sigma g.BPM i name = some sig → IsZero sig
  magnet : ∀ i name sig, sigma g.Magnet i name = some sig → IsZero sig
  rf : ∀ i name sig, sigma g.RF i name = some sig → IsZero sig
  support : ∀ i name sig, sigma g.Support i name = some sig → IsZero sig
  injection : ∀ k, coef g.staticInjectionZ k = 0
  circumference : g.Circumference = 0

/-- the attribute is missing or zero -/
def ZeroAt (r : Ring K) (i : Nat) (a : String) : Prop := ∀ v, r.attr i a = some v → IsZero v

/-- the errors of BPMs, cavities and magnets by the names of the attributes which hold them -/
def bpmErrors : List String := ["Noise", "NoiseCO", "Offset", "Roll", "CalError", "SumError"]
def rfErrors : List String := ["VoltageOffset", "VoltageCalError", "FrequencyOffset", "FrequencyCalError",
  "TimeLagOffset", "TimeLagCalError"]
def magnetErrors : List String := ["MagnetOffset", "MagnetRoll", "CalErrorA", "CalErrorB", "BendingAngleError"]
def supportErrors : List String := ["SectionOffset", "SectionRoll", "PlinthOffset", "PlinthRoll", "GirderOffset", "GirderRoll"]

/-- no registered element has an error, random or systematic, and combined function magnets have their nominal gradient -/
structure ErrorFree (s : SC K) : Prop where
  bpm : ∀ i ∈ s.ORD.BPM, ∀ a ∈ bpmErrors, ZeroAt s.RING i a
  rf : ∀ i ∈ s.ORD.RF, ∀ a ∈ rfErrors, ZeroAt s.RING i a
  magnet : ∀ i ∈ s.ORD.Magnet, ∀ a ∈ magnetErrors, ZeroAt s.RING i a
  multipoles : ∀ i ∈ s.ORD.Magnet, ∀ a ∈ ["PolynomAOffset", "PolynomBOffset"], ZeroAt s.RING i a
  systematic : ∀ i ∈ s.ORD.Magnet, ∀ a ∈ ["SysPolAFromA", "SysPolAFromB", "SysPolBFromA", "SysPolBFromB"],
    s.RING.attr i a = none
  combined : ∀ i ∈ s.ORD.Magnet, flagAt s.RING i "CombinedFunction" = true →
    coef (vecAt s.RING i "SetPointB") 1 = coef (vecAt s.RING i "NomPolynomB") 1 ∧
    coef (vecAt s.RING i "NomPolynomB") 1 ≠ 0
  support : ∀ i, ∀ a ∈ supportErrors, ZeroAt s.RING i a

end Spec
end PySC
