import Verif.Spec.Errors
import Verif.Spec.Fields
import Verif.Spec.Supports
/-
A machine without errors (C23).
-/
namespace PySC.Spec
variable {K : Type} [Field K] [LinearOrder K]

/-- Magnet `i` produces exactly the field given by its set-points. -/
def FieldAsSet (r : Ring K) (i : Nat) : Prop :=
  ∃ a b, r.attr i "PolynomA" = some (.vec a) ∧ r.attr i "PolynomB" = some (.vec b) ∧
    (∀ k, coef a k = coef (vecAt r i "SetPointA") k) ∧ ∀ k, coef b k = coef (vecAt r i "SetPointB") k

/-- Magnet `i` stands where it was designed to stand: it carries the transformation which belongs to no offset and no
rotation. -/
def AsDesigned (E : Env K) (r : Ring K) (i : Nat) : Prop :=
  ∃ t, E.transform (numAt r i "Length") (numAt r i "BendingAngle") [0, 0, 0] [0, 0, 0] = .ok t ∧
    r.attr i "T1" = some (.vec t.1) ∧ r.attr i "T2" = some (.vec t.2.1) ∧
    r.attr i "R1" = some (.mat t.2.2.1) ∧ r.attr i "R2" = some (.mat t.2.2.2)

/-- `s'` is the machine `s` without any error. -/
structure PerfectMachine (E : Env K) (s s' : SC K) : Prop where
  /-- registered magnets which are not driven by another magnet have the field of their set-points -/
  field : ∀ i ∈ s.ORD.Magnet, (∀ j ∈ s.ORD.Magnet, Affects s.RING j i → j = i) → CalFits s'.RING i → FieldAsSet s'.RING i
  /-- they are not displaced or rotated -/
  placed : ∀ i ∈ s.ORD.Magnet, i ∉ s.ORD.BPM → (∀ j ∈ s.ORD.Magnet, j ≠ i → ¬ ChildOf s.RING j i) → AsDesigned E s'.RING i
  /-- cavities have the voltage, frequency and phase of their set-points -/
  cavity : s.SIG.RF ≠ [] → ∀ i ∈ s.ORD.RF, ∀ f ∈ ["Voltage", "Frequency", "TimeLag"], ∃ x,
    s'.RING.attr i f = some (.num x) ∧ s'.RING.attr i (f ++ "SetPoint") = some (.num x)
  /-- without any uncertainty registered for cavities they are not touched -/
  cavityUntouched : s.SIG.RF = [] → ∀ i, ∀ f ∈ ["Voltage", "Frequency", "TimeLag"], s'.RING.attr i f = s.RING.attr i f
  /-- BPMs have no error and are not displaced or rolled by supports -/
  bpm : ∀ i ∈ s.ORD.BPM, ∀ a ∈ bpmErrors ++ ["SupportOffset", "SupportRoll"], ZeroAt s'.RING i a
  /-- supports have no error -/
  support : ∀ i, ∀ a ∈ supportErrors, ZeroAt s'.RING i a
  /-- all elements have their length -/
  length : ∀ i, numAt s'.RING i "Length" = numAt s.RING i "Length"
  /-- the beam is injected as designed -/
  injection : ∀ k, coef s'.INJ.Z0 k = coef s.INJ.Z0ideal k
  /-- set-points are not touched -/
  setPoints : ∀ i, ∀ a ∈ ["SetPointA", "SetPointB", "VoltageSetPoint", "FrequencySetPoint", "TimeLagSetPoint"],
    s'.RING.attr i a = s.RING.attr i a

end PySC.Spec
