import Verif.Spec.Session
/-
What the control room of a machine shows, and machines which cannot be told apart by their instruments (C102).
-/
namespace PySC.Spec
variable {K : Type} [Field K] [LinearOrder K] [FloorRing K]
open Py

/-- the data of an element known in the control room: set-points, limits, and the design of the hardware -/
def panelNames : List String :=
  ["SetPointA", "SetPointB", "FrequencySetPoint", "VoltageSetPoint", "TimeLagSetPoint", "CMlimit", "SkewQuadLimit", "NomPolynomA",
   "NomPolynomB", "BendingAngle", "Length", "PassMethod", "FamName"]

/-- the control rooms of two machines show the same, except for the number of shots of a BPM reading -/
structure SameView (s t : SC K) : Prop where
  ords : s.ORD = t.ORD
  injection : s.INJ = { t.INJ with nShots := s.INJ.nShots }
  design : s.IDEALRING = t.IDEALRING
  length : s.RING.length = t.RING.length
  panel : ∀ i, ∀ a ∈ panelNames, s.RING.attr i a = t.RING.attr i a
  cavities : ∀ i, (s.RING.attr i "Frequency").isSome = (t.RING.attr i "Frequency").isSome

/-- on machines related by `R` the method returns the same value or raises the same exception, and they stay related -/
def SameRun {α : Type} (R : SC K → SC K → Prop) (m : Py (SC K) α) : Prop :=
  ∀ s t, R s t → (m s).value? = (m t).value? ∧ (m s).err? = (m t).err? ∧ R (m s).state (m t).state

/-- subtract `d` from the roll of a BPM -/
def changeRoll (i : Nat) (d : K) : Py (SC K) Unit := do
  let x ← rd (fun r => r.getNum i "Roll")
  setAttr i "Roll" (.num (x - d))

/-- changes of the injection settings which concern neither the size nor the jitter of the injected beam, nor the number of shots of a
BPM reading -/
def KeepsBeam (f : Inj K → Inj K) : Prop :=
  ∀ j, (f j).randomInjectionZ = j.randomInjectionZ ∧ (f j).beamSize = j.beamSize ∧ (f j).nShots = j.nShots ∧
    ∀ n, f { j with nShots := n } = { f j with nShots := n }

/-- Machines related by `R` show the same in their control rooms, give the same BPM readings and transmissions, accept or refuse the
same set-points, and this remains so when set-points, injection settings or the offsets, gains and rolls subtracted from BPM readings
are changed alike.  Their errors may differ.  (`allowed` are the changes of the size and the jitter of the injected beam and of the
number of shots which are considered, by default all.) -/
structure SameInstruments (E : Env K) (B : BeamEnv K) (R : SC K → SC K → Prop) (allowed : (Inj K → Inj K) → Prop := fun _ => True) : Prop where
  view : ∀ s t, R s t → SameView s t
  reading : ∀ bpms errors, SameRun R (bpmReading E B bpms errors)
  transmission : ∀ nParticles nTurns, SameRun R (beamTransmission E B nParticles nTurns)
  correctors : ∀ ords sp skewness method, SameRun R (setCMSetpoints ords sp skewness method)
  magnets : ∀ ords sp skewness order method dipComp, SameRun R (setMagnetSetpoints ords sp skewness order method dipComp)
  cavities : ∀ ords sp param method, SameRun R (setCavitySetpoints ords sp param method)
  refresh : ∀ ords, SameRun R (updateMagnets ords)
  injection : ∀ (f : Inj K → Inj K), KeepsBeam f ∨ allowed f → ∀ s t, R s t → R { s with INJ := f s.INJ } { t with INJ := f t.INJ }
  stored : ∀ i v, ∀ a ∈ ["SetPointA", "SetPointB"], SameRun R (setAttr i a (.vec v))
  bpmOffset : ∀ i p d, SameRun R (changeOffset i p (fun x => x + d))
  bpmGain : ∀ i p d, SameRun R (addCalError i p d)
  bpmRoll : ∀ i d, SameRun R (changeRoll i d)

/-- calls of a control room: set-points, injection settings, measurements and corrections -/
def Call.InControlRoom : Call K → Prop
  | .setCavity .. | .getCM .. | .setCM .. | .setMagnet .. | .trackMode _ | .setInjection _ | .transmission .. | .reading ..
  | .firstTurn .. | .stitch .. | .balance .. | .correct .. => True
  | _ => False

/-- steps of a control room.  Not among them are registrations, the generation of errors and switches of the simulation,
`bpm_reading` at all elements, `fake_bba`, `fit_tune` and `fit_chroma` (which compute with the machine itself), `ramp_up_errors`, and
`loco_measurement`. -/
def Step.InControlRoom : Step K → Prop
  | .call c => c.InControlRoom
  | .allElements | .fitTune .. | .fitChroma .. | .fakeBba .. | .locoMeasurement .. | .rampUp _ => False
  | _ => True

/-- the records of the alignment of supports, magnets and BPMs -/
def alignmentNames : List String :=
  ["Offset", "SupportOffset", "Roll", "SupportRoll", "MagnetOffset", "MagnetRoll", "GirderOffset", "GirderRoll", "PlinthOffset",
   "PlinthRoll", "SectionOffset", "SectionRoll"]

/-- the rings are equal up to the records of the alignment -/
structure SameButRecords (r r' : Ring K) : Prop where
  length : r.length = r'.length
  attr : ∀ i a, a ∉ alignmentNames → r.attr i a = r'.attr i a

/-- the own offset and the offset of the support of a BPM add up to the same, and so do the rolls -/
structure SameTotal (r r' : Ring K) (i : Nat) : Prop where
  offset : (r.attr i "Offset" = r'.attr i "Offset" ∧ r.attr i "SupportOffset" = r'.attr i "SupportOffset") ∨
    ∃ x y sx sy x' y' sx' sy' : K, r.attr i "Offset" = some (.vec [x, y]) ∧ r.attr i "SupportOffset" = some (.vec [sx, sy]) ∧
      r'.attr i "Offset" = some (.vec [x', y']) ∧ r'.attr i "SupportOffset" = some (.vec [sx', sy']) ∧ x + sx = x' + sx' ∧ y + sy = y' + sy'
  roll : (r.attr i "Roll" = r'.attr i "Roll" ∧ r.attr i "SupportRoll" = r'.attr i "SupportRoll") ∨
    ∃ a b a' b' : K, r.attr i "Roll" = some (.num a) ∧ r.attr i "SupportRoll" = some (.num b) ∧
      r'.attr i "Roll" = some (.num a') ∧ r'.attr i "SupportRoll" = some (.num b') ∧ a + b = a' + b'

/-- Two machines which differ in the registered uncertainties and in the records of the alignment, but not in anything that acts on
the beam or on the readings. -/
structure Indistinct (s t : SC K) : Prop where
  ords : s.ORD = t.ORD
  injection : s.INJ = t.INJ
  design : s.IDEALRING = t.IDEALRING
  rng : s.rng = t.rng
  ring : SameButRecords s.RING t.RING
  total : ∀ i, SameTotal s.RING t.RING i

/-- tracking does not look at the records of the alignment -/
def IgnoresRecords (B : BeamEnv K) : Prop :=
  ∀ r r' : Ring K, SameButRecords r r' → B.track r = B.track r' ∧ B.orbit r = B.orbit r'

/-- the exceptions raised by the steps of a session -/
def outcomes (L : Lab K) : List (Step K) → SC K → List (Option Err)
  | [], _ => []
  | c :: cs, s => (c.run L s).err? :: outcomes L cs (c.run L s).state

end PySC.Spec
