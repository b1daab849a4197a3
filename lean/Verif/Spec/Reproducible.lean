import Verif.Spec.Scaling
import Verif.Spec.Register
import Verif.Spec.History
/-
Errors of machines which were prepared in the same way but used differently (C108).
-/
namespace PySC.Spec
variable {K : Type} [Field K] [LinearOrder K] [FloorRing K]

/-- Errors which `apply_errors` does not leave as they are: those with an uncertainty, and what the misalignments of the supports amount
to at magnets and BPMs. -/
def Renewed (s : SC K) (i : Nat) (a : String) : Prop :=
  (i ∈ s.ORD.RF ∧ (sigma s.SIG.RF i a).isSome) ∨
  (i ∈ s.ORD.BPM ∧ (sigma s.SIG.BPM i a).isSome) ∨
  (i ∈ s.ORD.Magnet ∧ ∃ name, (sigma s.SIG.Magnet i name).isSome ∧ a = magnetErrorName name) ∨
  ((i ∈ s.ORD.Magnet ∨ i ∈ s.ORD.BPM) ∧ a ∈ ["SupportOffset", "SupportRoll"])

/-- The same elements are registered with the same uncertainties, in lattices of the same geometry, and errors without uncertainty are
the same.  Set-points, fields, pass methods, tracking, and errors which are going to be drawn anew may be different. -/
structure SamePreparation (s t : SC K) : Prop where
  ord : t.ORD = s.ORD
  sig : t.SIG = s.SIG
  ideal : t.INJ.Z0ideal = s.INJ.Z0ideal
  length : t.RING.length = s.RING.length
  geometry : ∀ i, ∀ a ∈ ["Length", "BendingAngle", "MasterOf"], t.RING.attr i a = s.RING.attr i a
  drifts : ∀ i, t.RING.attr i "PassMethod" = some (.str "DriftPass") ↔ s.RING.attr i "PassMethod" = some (.str "DriftPass")
  errors : ∀ i, ∀ a ∈ errorNames, ¬ Renewed s i a → t.RING.attr i a = s.RING.attr i a

/-- All errors are the same: of every element, of the circumference, and of the injected beam. -/
structure SameErrors (s t : SC K) : Prop where
  errors : ∀ i, ∀ a ∈ errorNames, t.RING.attr i a = s.RING.attr i a
  lengths : ∀ i, t.RING.attr i "Length" = s.RING.attr i "Length"
  alignment : ∀ i ∈ s.ORD.Magnet, ∀ a ∈ ["T1", "T2", "R1", "R2"], t.RING.attr i a = s.RING.attr i a
  injection : t.INJ.Z0 = s.INJ.Z0
  jitter : t.INJ.randomInjectionZ = s.INJ.randomInjectionZ
  rng : t.rng = s.rng

/-- calls which use the machine, but neither register elements nor draw errors -/
def Call.IsUse : Call K → Prop
  | .register _ => False
  | .applyErrors _ => False
  | .setInjection f => ∀ inj, (f inj).Z0ideal = inj.Z0ideal
  | _ => True

/-- calls in which no random numbers are used -/
def Call.IsQuiet : Call K → Prop
  | .randomMultipoles _ _ | .applyErrors _ | .bunches _ | .transmission _ _ | .reading _ _ | .firstTurn _ _ _ _ _ | .stitch _ _ _ _ _ _
  | .balance _ _ _ _ _ _ | .correct _ _ _ _ _ _ _ _ => False
  | _ => True

/-- no drift is a cavity -/
def NoDriftCavity (s : SC K) : Prop := ∀ i, i ∈ s.ORD.RF ∨ (s.RING.attr i "Frequency").isSome ∨ (s.RING.attr i "FrequencyOffset").isSome →
  s.RING.attr i "PassMethod" ≠ some (.str "DriftPass")

end PySC.Spec
