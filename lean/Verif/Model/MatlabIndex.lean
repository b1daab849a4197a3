import Verif.Model.Rf
import Verif.Model.Orbit
import Verif.Model.Bba
import Verif.Model.Injection
import Verif.Model.Response
import Verif.Model.Tune
import Verif.Model.Transformation
/-
Model of pySC/matlab_index.py: functions named as in the Matlab toolkit SC, which translate their arguments and call the functions
of pySC.  Left out are wrappers which hand over their arguments as they are and plots; what a wrapper logs is not modelled.
A Matlab-style order of zero would index from the end of the arrays of a magnet; this is `Err.notImplemented` in the model.
-/
namespace PySC
open Py
variable {K : Type} [Field K] [LinearOrder K]

/-- pySC/matlab_index.py:119-124 `SCgetCMSetPoints` -/
def scGetCMSetPoints (ords : List Nat) (nDim : Int) : Py (SC K) (List K) :=
  if nDim ≠ 1 ∧ nDim ≠ 2 then Py.throw .valueError else getCMSetpoints ords (decide (nDim = 2))

section floor
variable [FloorRing K]

/-- pySC/matlab_index.py:270-273 `SCsetCavs2SetPoints` -/
def scSetCavs2SetPoints (ords : List Nat) (type : String) (sp : NpArr K) (mode : String) : Py (SC K) Unit :=
  setCavitySetpoints ords sp type mode

/-- pySC/matlab_index.py:276-283 `SCsetCMs2SetPoints` -/
def scSetCMs2SetPoints (ords : List Nat) (sp : NpArr K) (nDim : Int) (mode : String) : Py (SC K) (List K) :=
  if nDim ≠ 1 ∧ nDim ≠ 2 then Py.throw .valueError
  else do
    setCMSetpoints ords sp (decide (nDim = 2)) mode
    getCMSetpoints ords (decide (nDim = 2))

/-- pySC/matlab_index.py:286-294 `SCsetMags2SetPoints` -/
def scSetMags2SetPoints (ords : List Nat) (type : Int) (order : Nat) (sp : NpArr K) (method : String) (dipComp : Bool) :
    Py (SC K) Unit :=
  if type ≠ 1 ∧ type ≠ 2 then Py.throw .valueError
  else match order with
    | 0 => Py.throw .notImplemented
    | k + 1 => setMagnetSetpoints ords sp (decide (type = 1)) k method dipComp

/-- pySC/matlab_index.py:296-311 `SCsetMultipoles`; the table is given by its rows `(A, B)`, `np.roll` makes a copy of it with the
columns exchanged -/
def scSetMultipoles (E : Env K) (ords : List Nat) (AB : List (K × K)) (method : String) (order : Option Nat) (type : Option Int) :
    Py (SC K) Unit :=
  if type ≠ none ∧ type ≠ some 1 ∧ type ≠ some 2 then Py.throw .valueError
  else if method = "rnd" then setRandomMultipoles E ords (AB.map Prod.swap)
  else match order with
    | none => Py.throw .typeError
    | some 0 => Py.throw .notImplemented
    | some (k + 1) => do
      let _ ← setSystematicMultipoles ords (AB.map Prod.swap) k (decide (type = some 1))
      Py.pure ()

/-- pySC/matlab_index.py:314-322 `SCsynchEnergyCorrection`: `correct_rf_frequency` does not know the argument `minTurns`, so that
the call itself fails -/
def scSynchEnergyCorrection (nTurns : Nat) : Py (SC K) Unit := do
  modify (fun s => { s with INJ := { s.INJ with nTurns := nTurns } })
  Py.throw .typeError

/-- pySC/matlab_index.py:325-331 `SCsynchPhaseCorrection` -/
def scSynchPhaseCorrection (E : Env K) (B : BeamEnv K) (R : RfEnv K) (cavs : Option (List Nat)) (nSteps nTurns : Nat) :
    Py (SC K) Unit := do
  let s ← get
  modify (fun t => { t with INJ := { t.INJ with nTurns := nTurns } })
  correctRfPhase E B R cavs none nSteps
  modify (fun t => { t with INJ := { t.INJ with nTurns := s.INJ.nTurns } })

/-- pySC/matlab_index.py:72-74 `SCfeedbackBalance`; `npPinv` is `np.linalg.pinv` -/
def scFeedbackBalance (E : Env K) (B : BeamEnv K) (O : OrbitEnv K) (npPinv : List (List K) → Except Err (List (List K)))
    (mplus : List (List K)) (r0 : Option (List K)) (cms : Option CMs) (bpms : Option (List Nat)) (eps : K) (maxsteps : Nat) :
    Py (SC K) (List (Log K)) := do
  let rm ← lift (npPinv mplus)
  balance E B O rm r0 cms bpms eps maxsteps

/-- pySC/matlab_index.py:77-81 `SCfeedbackFirstTurn` -/
def scFeedbackFirstTurn (E : Env K) (B : BeamEnv K) (O : OrbitEnv K) (npPinv : List (List K) → Except Err (List (List K)))
    (mplus : List (List K)) (r0 : Option (List K)) (cms : Option CMs) (bpms : Option (List Nat)) (maxsteps : Nat) :
    Py (SC K) (List (Log K)) := do
  let rm ← lift (npPinv mplus)
  firstTurn E B O rm r0 cms bpms maxsteps

/-- pySC/matlab_index.py:84-87 `SCfeedbackRun` -/
def scFeedbackRun (E : Env K) (B : BeamEnv K) (O : OrbitEnv K) (npPinv : List (List K) → Except Err (List (List K)))
    (mplus : List (List K)) (r0 : Option (List K)) (cms : Option CMs) (bpms : Option (List Nat)) (eps target : K) (maxsteps : Nat)
    (scaleDisp : K) : Py (SC K) (List (Log K)) := do
  let rm ← lift (npPinv mplus)
  correct E B O rm r0 cms bpms eps target maxsteps scaleDisp

/-- pySC/matlab_index.py:90-94 `SCfeedbackStitch` -/
def scFeedbackStitch (E : Env K) (B : BeamEnv K) (O : OrbitEnv K) (npPinv : List (List K) → Except Err (List (List K)))
    (mplus : List (List K)) (r0 : Option (List K)) (cms : Option CMs) (bpms : Option (List Nat)) (nBpms maxsteps : Nat) :
    Py (SC K) (List (Log K)) := do
  let rm ← lift (npPinv mplus)
  stitch E B O rm r0 cms bpms nBpms maxsteps

end floor

/-- pySC/matlab_index.py:97-103 `SCfitInjectionZ` -/
def scFitInjectionZ [FloorRing K] (E : Env K) (B : BeamEnv K) (J : InjEnv K) (mode : String) (nBpms : List Nat) : Py (SC K) (List K) :=
  if mode = "fitTrajectory" then fitInjectionTrajectory E B J nBpms
  else if mode = "injectionDrift" then fitInjectionDrift E B
  else Py.throw .valueError

/-- `np.roll(v, 1)` -/
def roll1 {α : Type} : List α → List α
  | [] => []
  | x :: l => (x :: l).getLast (by simp) :: (x :: l).dropLast

/-- pySC/utils/sc_tools.py:125: `np.roll(SupportRoll + MagnetRoll, -1)` of the fake element, whose support has no roll -/
def rollBack {α : Type} : List α → List α
  | [] => []
  | x :: l => l ++ [x]

/-- pySC/matlab_index.py:172-180 `SCgetTransformation`; the fake element has the given offset, its support none -/
noncomputable def scGetTransformation (dx dy dz ax ay az magTheta magLength : ℝ) (refPoint : String) :
    Except Err (List ℝ × List ℝ × List (List ℝ) × List (List ℝ)) :=
  if refPoint = "center" then .error .notImplemented
  else transformLists magLength magTheta [dx, dy, dz] (rollBack (roll1 [ax, ay, az]))

/-- what `orbit_bba` is told about the response matrix: correctors of both planes and BPMs -/
structure RMstruct where
  cms : List Nat × List Nat
  bpms : List Nat

/-- pySC/correction/bba.py:329-341 `_get_orbit_bump` as far as it gets: without a structure (the default is an empty list) an
AttributeError; otherwise the indices of the weights at lines 341-342 are arrays, which can not be used in a slice.  If the BPM
readings are used as reference (line 336), line 337 indexes the tuple of them, which is the same exception after a reading. -/
def getOrbitBump [FloorRing K] (E : Env K) (B : BeamEnv K) (useReading : Bool) : Option RMstruct → Py (SC K) Unit
  | none => Py.throw .attributeError
  | some _ => do
    if useReading then do
      let _ ← bpmReading E B none false
      Py.throw .typeError
    else Py.throw .typeError

/-- pySC/correction/bba.py:50-76 `orbit_bba` as far as it gets: nothing is measured before the bump of the first BPM; without BPMs
the missing parameter `plot_results` is asked for (line 74) -/
def orbitBba [FloorRing K] (E : Env K) (B : BeamEnv K) (bpmOrds magOrds : List (List Nat)) (fitOrder : Nat) (useReading : Bool)
    (rm : Option RMstruct) : Py (SC K) Unit := do
  let s ← get
  if shape bpmOrds ≠ shape magOrds then Py.throw .valueError
  else if 2 < fitOrder then Py.throw .valueError
  else if s.INJ.trackMode = "TBT" then Py.throw .valueError
  else match bpmOrds with
    | (b :: _) :: _ => do
      let _ ← lift (bpmIndex s.ORD.BPM b)
      getOrbitBump E B useReading rm
    | _ => Py.throw .attributeError

/-- pySC/matlab_index.py:51-57 `SCBBA`; without the argument `mode` a KeyError, with another mode than these two it does nothing -/
def scBBA [FloorRing K] (E : Env K) (B : BeamEnv K) (Q : BbaEnv K) (bpmOrds magOrds : List (List Nat)) (par : BbaPar K) (useReading : Bool)
    (rm : Option RMstruct) (mode : Option String) : Py (SC K) (Option (List (List (K × Option K)))) :=
  match mode with
  | none => Py.throw .keyError
  | some m =>
    if m = "TBT" then do
      let out ← trajectoryBba E B Q bpmOrds magOrds par
      Py.pure (some out)
    else if m = "ORB" then do
      orbitBba E B bpmOrds magOrds par.fitOrder useReading rm
      Py.pure none
    else Py.pure none

/-- pySC/matlab_index.py:229-230 `SCpseudoBBA`: the width `sigma` is not used -/
def scPseudoBBA (E : Env K) (S : StatsEnv K) (bpmOrds magOrds : List (List Nat)) (postBBAoffset : List (Option K)) (_sigma : K) :
    Py (SC K) Unit :=
  fakeBba E S bpmOrds magOrds none (some postBBAoffset)

end PySC
