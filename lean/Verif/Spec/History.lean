import Verif.Spec.Register
import Verif.Spec.LatticeSetting
import Verif.Spec.Orbit
import Verif.Model.Structure
import Verif.Model.LatticeSetting
import Verif.Model.ApplyErrors
import Verif.Model.Orbit
/-
Histories: sequences of calls on one `SimulatedCommissioning` object (C07, C08, C62, C67, C68).
-/
namespace PySC.Spec
variable {K : Type} [Field K] [LinearOrder K] [FloorRing K]
open Py

/-- a method of the ring used on `SC.RING` -/
def onRing {α : Type} (m : Py (Ring K) α) : Py (SC K) α := fun s =>
  match m s.RING with
  | .ok a r => .ok a { s with RING := r }
  | .error e r => .error e { s with RING := r }

/-- a method of the injection settings used on `SC.INJ` -/
def onInj {α : Type} (m : Py (Inj K) α) : Py (SC K) α := fun s =>
  match m s.INJ with
  | .ok a i => .ok a { s with INJ := i }
  | .error e i => .error e { s with INJ := i }

/-- a call by the user, or an assignment to the injection settings -/
inductive Call (K : Type) where
  | register (c : RegCall K)
  | systematicMultipoles (ords : List Nat) (BA : List (K × K)) (order : Nat) (skewness : Bool)
  | randomMultipoles (ords : List Nat) (BA : List (K × K))
  | applyErrors (nsigmas : K)
  | updateCavities (ords : Option (List Nat))
  | updateMagnets (ords : Option (List Nat))
  | updateSupports (bpms magnets : Bool)
  | setCavity (ords : List Nat) (setpoints : NpArr K) (param method : String)
  | getCM (ords : List Nat) (skewness : Bool)
  | setCM (ords : List Nat) (setpoints : NpArr K) (skewness : Bool) (method : String)
  | setMagnet (ords : List Nat) (setpoints : NpArr K) (skewness : Bool) (order : Nat) (method : String) (dipComp : Bool)
  | veryDeepCopy
  | verify
  | switches (args : List String)
  | trackMode (mode : String)
  | setInjection (f : Inj K → Inj K)
  | bunches (n : Option Nat)
  | transmission (nParticles nTurns : Option Nat)
  | reading (bpms : Option (List Nat)) (calculateErrors : Bool)
  | firstTurn (rm : List (List K)) (reference : Option (List K)) (cms : Option CMs) (bpms : Option (List Nat)) (maxsteps : Nat)
  | stitch (rm : List (List K)) (reference : Option (List K)) (cms : Option CMs) (bpms : Option (List Nat)) (nBpms maxsteps : Nat)
  | balance (rm : List (List K)) (reference : Option (List K)) (cms : Option CMs) (bpms : Option (List Nat)) (eps : K) (maxsteps : Nat)
  | correct (rm : List (List K)) (reference : Option (List K)) (cms : Option CMs) (bpms : Option (List Nat)) (eps target : K)
      (maxsteps : Nat) (scaleDisp : K)

/-- the outside world: random numbers, tracking, pseudo-inverse -/
structure World (K : Type) where
  E : Env K
  B : BeamEnv K
  O : OrbitEnv K

/-- run a call; results other than the effect on the object are dropped -/
def Call.run (W : World K) : Call K → Py (SC K) Unit
  | .register c => c.run
  | .systematicMultipoles o ba k sk => do let _ ← PySC.setSystematicMultipoles o ba k sk; Py.pure ()
  | .randomMultipoles o ba => PySC.setRandomMultipoles W.E o ba
  | .applyErrors n => PySC.applyErrors W.E n
  | .updateCavities o => PySC.updateCavities o
  | .updateMagnets o => PySC.updateMagnets o
  | .updateSupports b m => PySC.updateSupports W.E b m
  | .setCavity o sp p m => PySC.setCavitySetpoints o sp p m
  | .getCM o sk => do let _ ← PySC.getCMSetpoints o sk; Py.pure ()
  | .setCM o sp sk m => PySC.setCMSetpoints o sp sk m
  | .setMagnet o sp sk k m d => PySC.setMagnetSetpoints o sp sk k m d
  | .veryDeepCopy => do let _ ← PySC.veryDeepCopy; Py.pure ()
  | .verify => PySC.verify
  | .switches a => onRing (switchCavityAndRadiation a)
  | .trackMode m => onInj (setTrackMode m)
  | .setInjection f => modify (fun s => { s with INJ := f s.INJ })
  | .bunches n => do let _ ← generateBunches W.E W.B n; Py.pure ()
  | .transmission n t => do let _ ← beamTransmission W.E W.B n t; Py.pure ()
  | .reading b c => do let _ ← bpmReading W.E W.B b c; Py.pure ()
  | .firstTurn rm r c b n => do let _ ← PySC.firstTurn W.E W.B W.O rm r c b n; Py.pure ()
  | .stitch rm r c b k n => do let _ ← PySC.stitch W.E W.B W.O rm r c b k n; Py.pure ()
  | .balance rm r c b e n => do let _ ← PySC.balance W.E W.B W.O rm r c b e n; Py.pure ()
  | .correct rm r c b e t n d => do let _ ← PySC.correct W.E W.B W.O rm r c b e t n d; Py.pure ()

/-- the state after a sequence of calls, the caller catching every exception -/
def history (W : World K) (calls : List (Call K)) (s : SC K) : SC K := calls.foldl (fun s c => (c.run W s).state) s

/-- every call of the sequence returns normally and leads from `s` to `s'` -/
def Runs (W : World K) : List (Call K) → SC K → SC K → Prop
  | [], s, s' => s' = s
  | c :: cs, s, s' => ∃ t, c.run W s = .ok () t ∧ Runs W cs t s'

/-- is it a registration? -/
def Call.IsRegistration : Call K → Prop
  | .register _ => True
  | _ => False

/-- the records of a machine agree with each other -/
structure Consistent (s : SC K) : Prop where
  tidy : Tidy s.ORD
  girders : SortedPairs s.ORD.Girder
  plinths : SortedPairs s.ORD.Plinth
  sections : SortedPairs s.ORD.Section
  hcm : ∀ i ∈ s.ORD.HCM, i ∈ s.ORD.Magnet
  vcm : ∀ i ∈ s.ORD.VCM, i ∈ s.ORD.Magnet
  skewQuad : ∀ i ∈ s.ORD.SkewQuad, i ∈ s.ORD.Magnet
  sigBpm : ∀ i ∈ s.SIG.BPM.keys, i ∈ s.ORD.BPM
  sigRf : ∀ i ∈ s.SIG.RF.keys, i ∈ s.ORD.RF
  sigMagnet : ∀ i ∈ s.SIG.Magnet.keys, i ∈ s.ORD.Magnet
  uncertainties : WellRegistered s.SIG

/-- the attributes every registered BPM has -/
def bpmNames : List String :=
  ["Noise", "NoiseCO", "Offset", "SupportOffset", "Roll", "SupportRoll", "CalError", "SumError"]
/-- the attributes every registered cavity has -/
def cavityNames : List String :=
  ["Voltage", "VoltageSetPoint", "VoltageOffset", "VoltageCalError", "Frequency", "FrequencySetPoint", "FrequencyOffset",
   "FrequencyCalError", "TimeLag", "TimeLagSetPoint", "TimeLagOffset", "TimeLagCalError"]
/-- the attributes every registered magnet has -/
def magnetNames : List String :=
  ["PolynomA", "NomPolynomA", "SetPointA", "CalErrorA", "PolynomB", "NomPolynomB", "SetPointB", "CalErrorB",
   "MagnetOffset", "SupportOffset", "MagnetRoll", "SupportRoll", "T1", "T2"]

/-- every registered element is in the ring, has an entry among the uncertainties and all attributes of its kind -/
structure FullyRegistered (s : SC K) : Prop where
  bpm : ∀ i ∈ s.ORD.BPM, i ∈ s.SIG.BPM.keys ∧ ∀ a ∈ bpmNames, (s.RING.attr i a).isSome
  rf : ∀ i ∈ s.ORD.RF, i ∈ s.SIG.RF.keys ∧ ∀ a ∈ cavityNames, (s.RING.attr i a).isSome
  magnet : ∀ i ∈ s.ORD.Magnet, i ∈ s.SIG.Magnet.keys ∧ ∀ a ∈ magnetNames, (s.RING.attr i a).isSome
  hcm : ∀ i ∈ s.ORD.HCM, (s.RING.attr i "CMlimit").isSome
  vcm : ∀ i ∈ s.ORD.VCM, (s.RING.attr i "CMlimit").isSome
  skewQuad : ∀ i ∈ s.ORD.SkewQuad, (s.RING.attr i "SkewQuadLimit").isSome
  girder : ∀ p ∈ s.ORD.Girder, ∀ i ∈ [p.1, p.2], ∀ a ∈ ["GirderOffset", "GirderRoll"], (s.RING.attr i a).isSome
  plinth : ∀ p ∈ s.ORD.Plinth, ∀ i ∈ [p.1, p.2], ∀ a ∈ ["PlinthOffset", "PlinthRoll"], (s.RING.attr i a).isSome
  sections : ∀ p ∈ s.ORD.Section, ∀ i ∈ [p.1, p.2], ∀ a ∈ ["SectionOffset", "SectionRoll"], (s.RING.attr i a).isSome

/-- data of magnets which describe the design and the hardware, not the state of the machine -/
def designNames : List String :=
  ["NomPolynomA", "NomPolynomB", "CMlimit", "SkewQuadLimit", "MasterOf", "CombinedFunction", "BendingAngle"]

/-- two attributes which are arrays of different lengths -/
def LengthsDiffer (r : Ring K) (i : Nat) (a b : String) : Prop :=
  ∃ v w, r.attr i a = some (.vec v) ∧ r.attr i b = some (.vec w) ∧ v.length ≠ w.length

/-- the inconsistencies `verify_structure` is written to find -/
inductive Inconsistent (s : SC K) : Prop where
  | noGirders (h : s.ORD.Girder = []) (h' : s.ORD.Plinth ≠ [] ∨ s.ORD.Section ≠ [])
  | polynoms (i : Nat) (hi : i ∈ s.ORD.Magnet) (h : LengthsDiffer s.RING i "PolynomB" "PolynomA")
  | calErrorB (i : Nat) (hi : i ∈ s.ORD.Magnet) (h : LengthsDiffer s.RING i "SetPointB" "CalErrorB")
  | calErrorA (i : Nat) (hi : i ∈ s.ORD.Magnet) (h : LengthsDiffer s.RING i "SetPointA" "CalErrorA")
  | offsets (i : Nat) (hi : i ∈ s.ORD.Magnet) (h : LengthsDiffer s.RING i "PolynomBOffset" "PolynomAOffset")
  | combined (i : Nat) (hi : i ∈ s.ORD.Magnet) (h : s.RING.attr i "CombinedFunction" = some (.flag true))
      (h' : s.RING.attr i "BendingAngle" = none)
  | beamSize (h : ¬ (s.INJ.beamSize.length = 6 ∧ ∀ row ∈ s.INJ.beamSize, row.length = 6))
  | randomInjection (h : s.SIG.randomInjectionZ.length ≠ 6)
  | staticInjection (h : s.SIG.staticInjectionZ.length ≠ 6)

/-- `a` is an array -/
def HasVec (r : Ring K) (i : Nat) (a : String) : Prop := ∃ v, r.attr i a = some (.vec v)

/-- what registration provides and `verify_structure` takes for granted -/
structure WellFormed (s : SC K) : Prop where
  hcm : ∀ i ∈ s.ORD.HCM, ∃ l, s.RING.attr i "CMlimit" = some (.lims l) ∧ 0 < l.length
  vcm : ∀ i ∈ s.ORD.VCM, ∃ l, s.RING.attr i "CMlimit" = some (.lims l) ∧ 1 < l.length
  arrays : ∀ i ∈ s.ORD.Magnet, ∀ a ∈ ["PolynomA", "PolynomB", "SetPointA", "SetPointB", "CalErrorA", "CalErrorB"], HasVec s.RING i a
  offsets : ∀ i ∈ s.ORD.Magnet, s.RING.attr i "PolynomBOffset" = none ∨
    (HasVec s.RING i "PolynomBOffset" ∧ HasVec s.RING i "PolynomAOffset")
  combined : ∀ i ∈ s.ORD.Magnet, s.RING.attr i "CombinedFunction" = none ∨ s.RING.attr i "CombinedFunction" = some (.flag false) ∨
    (s.RING.attr i "CombinedFunction" = some (.flag true) ∧ ∃ v, s.RING.attr i "NomPolynomB" = some (.vec v) ∧ 1 < v.length)
  children : ∀ i ∈ s.ORD.Magnet, s.RING.attr i "MasterOf" = none ∨
    ∃ l, s.RING.attr i "MasterOf" = some (.ords l) ∧ ∀ c ∈ l, c < s.RING.length
  magnetEntry : ∀ i ∈ s.ORD.Magnet, i ∈ s.SIG.Magnet.keys
  rfEntry : ∀ i ∈ s.ORD.RF, i ∈ s.SIG.RF.keys ∧ i < s.RING.length

end PySC.Spec
