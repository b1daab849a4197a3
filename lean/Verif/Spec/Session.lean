import Verif.Spec.History
import Verif.Model.Rf
import Verif.Model.Tune
import Verif.Model.Chroma
import Verif.Model.Injection
import Verif.Model.AllElements
import Verif.Model.Bba
import Verif.Model.Response
import Verif.Model.Loco
import Verif.Model.LocoWrapper
import Verif.Model.MatlabIndex
import Verif.Model.RampErrors
/-
Sessions: any sequence of calls on one machine, from registration over errors to every correction and measurement (C90).
-/
namespace PySC.Spec
variable {K : Type} [Field K] [LinearOrder K] [FloorRing K]
open Py

/-- everything the corrections and measurements obtain from other libraries -/
structure Lab (K : Type) extends World K where
  rf : RfEnv K
  tune : TuneEnv K
  injection : InjEnv K
  bba : BbaEnv K
  minimiser : Minimiser K
  fuel : Nat
  chromaMerit : K × K → Ring K → Option K
  chromaOf : Ring K → Option K × Option K
  tunesOf : Ring K → Except Err Unit

/-- one thing a user does -/
inductive Step (K : Type) where
  | call (c : Call K)
  | allElements
  | rfFrequency (cavs bpms : Option (List Nat)) (nSteps : Nat) (range : K × K)
  | rfPhase (cavs bpms : Option (List Nat)) (nSteps : Nat)
  | tuneScan (quads : List Nat × List Nat) (rel : List K × List K) (target : K) (nPoints : Nat) (nParticles nTurns : Option Nat)
      (fullScan : Bool)
  | fitTune (families : List (List Nat)) (given : Bool)
  | fitChroma (families : List (List Nat)) (target : Option (Option K × Option K)) (x0 : List K)
  | injectionDrift
  | injectionTrajectory (bpmInds : List Nat)
  | bpmOffsets (bpmOrds : List (List Nat)) (offsets errs : List (List (Option K)))
  | fakeBba (bpmOrds magOrds : List (List Nat)) (errors : Option (List (List Bool))) (fakeOffset : Option (List (Option K)))
  | trajectoryBba (bpmOrds magOrds : List (List Nat)) (par : BbaPar K)
  | orbitBba (bpmOrds magOrds : List (List Nat)) (fitOrder : Nat) (useReading : Bool) (rm : Option RMstruct)
  | modelRing
  | modelRM (bpms : List Nat) (cms : List Nat × List Nat) (mode : String) (Z0 : List K) (nTurns : Nat) (dkick : K) (useIdeal : Bool)
  | modelDispersion (bpms cavs : List Nat) (mode : String) (Z0 : List K) (nTurns : Nat) (rfStep : K) (useIdeal : Bool)
  | dispersion (isInt : Bool) (step : K) (bpms cavs : Option (List Nat)) (nSteps : Nat)
  | orbitResponse (bpms : List Nat) (cms : List Nat × List Nat) (isInt : Bool) (dkick : K)
  | responseMatrix (amp : List K × List K) (bpms : List Nat) (cms : List Nat × List Nat) (mode : String) (nSteps : Nat)
  | jacobian (rows : Nat) (C : List (List (Option K))) (bpms : List Nat) (cms : List Nat × List Nat) (chunks : List (List Nat))
      (dkick dk : K) (mode : String) (useIdeal skew : Bool) (order : Nat) (method : String) (disp : Option (List Nat × K)) (full : Bool)
  | setCorrection (r : NpArr K) (ords : List Nat) (skew : Bool) (order : Nat) (method : String) (comp : Bool)
  | setCorrectionFamilies (r : NpArr K) (families : List (List Nat)) (skew : Bool) (order : Nat) (method : String) (comp : Bool)
  | latticeCorrection (fp : FitParameters K) (dipComp : Bool) (damping : K)
  | diagnosticCorrection (c : CmData K) (d : BpmData K) (meanToZero : Bool) (out : Outliers K)
  | locoMeasurement (amp : List K × List K) (deltaRF : K) (bpms : List Nat) (cms : List Nat × List Nat)
  | synchEnergy (nTurns : Nat)
  | synchPhase (cavs : Option (List Nat)) (nSteps nTurns : Nat)
  | rampUp (nSteps : Nat)

/-- the result is not looked at -/
def dropped {σ α : Type} (m : Py σ α) : Py σ Unit := do let _ ← m; Py.pure ()

/-- do it -/
def Step.run (L : Lab K) : Step K → Py (SC K) Unit
  | .call c => c.run L.toWorld
  | .allElements => dropped (PySC.allElementsReading L.E L.B)
  | .rfFrequency c b n r => PySC.correctRfFrequency L.E L.B c b n r
  | .rfPhase c b n => PySC.correctRfPhase L.E L.B L.rf c b n
  | .tuneScan q r t n p u f => dropped (PySC.tuneScan L.E L.B L.tune q r t n p u f)
  | .fitTune f g => PySC.fitTune L.tunesOf f g
  | .fitChroma f t x => PySC.fitChroma L.minimiser L.fuel L.chromaMerit L.chromaOf f t x
  | .injectionDrift => dropped (PySC.fitInjectionDrift L.E L.B)
  | .injectionTrajectory b => dropped (PySC.fitInjectionTrajectory L.E L.B L.injection b)
  | .bpmOffsets b o e => PySC.applyBpmOffsets b o e
  | .fakeBba b m e f => PySC.fakeBba L.E L.bba.stats b m e f
  | .trajectoryBba b m p => dropped (PySC.trajectoryBba L.E L.B L.bba b m p)
  | .orbitBba b m f u r => PySC.orbitBba L.E L.B b m f u r
  | .modelRing => dropped PySC.modelRing
  | .modelRM b c m z n d u => dropped (PySC.modelRM L.B b c m z n d u)
  | .modelDispersion b c m z n d u => dropped (PySC.modelDispersion L.B b c m z n d u)
  | .dispersion i s b c n => dropped (PySC.dispersion L.E L.B i s b c n)
  | .orbitResponse b c i d => dropped (PySC.measureOrbitResponse L.E L.B b c i d)
  | .responseMatrix a b c m n => dropped (PySC.responseMatrix L.E L.B a b c m n)
  | .jacobian rows C b c ch d k m u s o me di f => dropped (PySC.jacobian L.B rows C b c ch d k m u s o me di f)
  | .setCorrection r o s k m c => PySC.setCorrection r o s k m c
  | .setCorrectionFamilies r o s k m c => PySC.setCorrectionFamilies r o s k m c
  | .latticeCorrection f d a => PySC.applyLatticeCorrection f d a
  | .diagnosticCorrection c d m o => PySC.applyDiagnosticCorrection c d m o
  | .locoMeasurement a d b c => dropped (PySC.locoMeasurement L.E L.B a d b c)
  | .synchEnergy n => PySC.scSynchEnergyCorrection n
  | .synchPhase c n t => PySC.scSynchPhaseCorrection L.E L.B L.rf c n t
  | .rampUp n => PySC.rampUpErrors L.B n

/-- the state after a sequence of steps, the user catching every exception -/
def sessionOf (L : Lab K) (steps : List (Step K)) (s : SC K) : SC K := steps.foldl (fun s c => (c.run L s).state) s

/-- every step returns normally, and together they lead from `s` to `s'` -/
def Completes (L : Lab K) : List (Step K) → SC K → SC K → Prop
  | [], s, s' => s' = s
  | t :: ts, s, s' => ∃ u, t.run L s = .ok () u ∧ Completes L ts u s'

/-- is it a registration? -/
def Step.IsRegistration : Step K → Prop
  | .call c => c.IsRegistration
  | _ => False

/-- the multipole of a magnet which the user asks to be changed, if the user chooses it: 0 is the dipole component -/
def Step.chosenOrder : Step K → Option Nat
  | .call (.setMagnet _ _ _ k _ _) => some k
  | .trajectoryBba _ _ par => some par.order
  | .setCorrection _ _ _ k _ _ => some k
  | .setCorrectionFamilies _ _ _ k _ _ => some k
  | _ => none

/-- elements with corrector limits are magnets: not drifts, not cavities and not registered as cavities -/
def SteeringMagnets (s : SC K) : Prop := ∀ i, (s.RING.attr i "CMlimit").isSome →
  s.RING.attr i "PassMethod" ≠ some (.str "DriftPass") ∧ s.RING.attr i "Frequency" = none ∧
  s.RING.attr i "FrequencyOffset" = none ∧ i ∉ s.ORD.RF

end PySC.Spec
