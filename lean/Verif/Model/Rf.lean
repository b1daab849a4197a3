import Verif.Model.Beam
import Verif.Model.Fit
import Verif.Model.Setpoints
import Verif.Model.ApplyErrors
/-
pySC/correction/rf.py: correct_rf_phase, correct_rf_frequency, phase_and_energy_error and their helpers (without plotting).
-/
namespace PySC
variable {K : Type} [Field K] [LinearOrder K] [FloorRing K]
open Py

/-- result of fitting `a * sin(2 pi x + b) + c`; a variance is `none` if it is infinite -/
structure SineFit (K : Type) where
  a : K
  b : K
  c : K
  varA : Option K
  varC : Option K

/-- What the RF corrections obtain from scipy, numpy and pyAT: `curve_fit` (points with the errors of the ordinates in the
place of the weights, and the start values), `fsolve` (NaN if it fails), sine and pi, and the six coordinates of the closed
orbit. -/
structure RfEnv (K : Type) where
  curveFit : List (Pt K) → K × K × K → Except Err (SineFit K)
  fsolve : (K → K) → K → Option K
  sin : K → K
  pi : K
  orbit6 : Ring K → List K

/-- pySC/core/constants.py:25 -/
def speedOfLight : K := 299792458

/-- pySC/correction/rf.py:160-164 `_fold_phase` -/
def foldPhase (x lam : K) : Except Err K := do
  let d ← npRemainder x lam
  .ok (if lam / 2 < |d| then d - lam * npSign d else d)

/-- pySC/correction/rf.py:179-182: the checks of one cavity -/
def checkCavity (r : Ring K) (i : Nat) : Except Err Unit := do
  let h ← r.hasA i "Frequency"
  if !h then .error .valueError
  else do
    let p ← r.getStr i "PassMethod"
    if p ∈ ["CavityPass", "RFCavityPass"] then .ok () else .error .valueError

/-- pySC/correction/rf.py:167-183 `_check_inputs`: the cavities and BPMs used -/
def checkRfInputs (s : SC K) (cavs bpms : Option (List Nat)) (nSteps : Nat) : Except Err (List Nat × List Nat) :=
  let cavs := cavs.getD s.ORD.RF
  let bpms := bpms.getD s.ORD.BPM
  if s.INJ.nTurns < 3 then .error .valueError
  else if s.INJ.trackMode ≠ "TBT" then .error .valueError
  else if nSteps < 6 then .error .valueError
  else do
    let _ ← cavs.mapM (checkCavity s.RING)
    .ok (cavs, bpms)

/-- pySC/correction/rf.py:118-119: row `t` of the horizontal readings minus row 0, averaged over the BPMs -/
def meanShift (x : List (Option K)) (nb t : Nat) : Option K :=
  npMean ((List.range nb).map (fun b => nanSub (x.getD (t * nb + b) none) (x.getD b none)))

/-- pySC/correction/rf.py:120: standard deviation of row `t` divided by the root of the number of BPMs -/
def meanShiftErr (B : BeamEnv K) (x : List (Option K)) (nb t : Nat) : Option K := do
  let row := (List.range nb).map (fun b => x.getD (t * nb + b) none)
  let m ← npMean row
  let v ← npMean (row.map (fun v => v.map (fun v => (v - m) ^ 2)))
  let sd ← B.sqrt v
  let q ← B.sqrt (nb : K)
  if q = 0 then none else some (sd / q)

/-- pySC/correction/rf.py:116-127 `_get_tbt_energy_shift`: slope of the mean horizontal reading with the turns and its
error, NaN if there are fewer than three turns without losses.  (Where the error of a mean reading is not a finite number
the model stops.) -/
def tbtEnergyShift (E : Env K) (B : BeamEnv K) (bpms : List Nat) : Py (SC K) (Option (K × K)) := do
  let s ← get
  let r ← bpmReading E B (some bpms) false
  if r.x.length ≠ s.INJ.nTurns * bpms.length then Py.throw .valueError
  else do
    let good := (List.range s.INJ.nTurns).filterMap (fun t => (meanShift r.x bpms.length t).map (fun m => (t, m)))
    if good.length < 3 then Py.pure none
    else do
      let pts ← lift (good.mapM (fun p => do
        match meanShiftErr B r.x bpms.length p.1 with
        | none => .error Err.nonFinite
        | some e => do
          let w ← divE 1 (e + 1 / 10 ^ 9)
          .ok (⟨(p.1 : K), p.2, w⟩ : Pt K)))
      let f ← lift (lineFit pts)
      match B.sqrt f.varSlope with
      | none => Py.throw .nonFinite
      | some e => Py.pure (some (f.slope, e))

/-- pySC/correction/rf.py:32-34 and 74-76: one step of a scan -/
def scanStep (E : Env K) (B : BeamEnv K) (cavs bpms : List Nat) (field : String) (v : K) : Py (SC K) (Option (K × K)) := do
  setCavitySetpoints cavs ⟨false, [v]⟩ field "add"
  let m ← tbtEnergyShift E B bpms
  setCavitySetpoints cavs ⟨false, [-v]⟩ field "add"
  Py.pure m

/-- pySC/correction/rf.py:109-113 `_check_data`: the points with a measurement; their weights are the errors -/
def checkData (vals : List K) (meas : List (Option (K × K))) (minPoints : Nat) : Except Err (List (Pt K)) :=
  let pts := (vals.zip meas).filterMap (fun p => p.2.map (fun m => (⟨p.1, m.1, m.2⟩ : Pt K)))
  if pts.length < minPoints then .error .runtimeError else .ok pts

/-- `np.abs(x) < 2 * np.sqrt(var)` -/
def belowTwoSigma (B : BeamEnv K) (x : K) : Option K → Bool
  | none => true
  | some v => match B.sqrt v with
    | none => false
    | some sd => decide (|x| < 2 * sd)

/-- pySC/correction/rf.py:83-86: the zero crossing of the fitted line, or zero if the measurement is not precise enough -/
def frequencyStep (B : BeamEnv K) (f : Line K) : Except Err K :=
  if belowTwoSigma B f.slope (some f.varSlope) || belowTwoSigma B f.intercept (some f.varIntercept) then .ok 0
  else divE (-f.intercept) f.slope

/-- pySC/correction/rf.py:63-95 `correct_rf_frequency` (without plotting) -/
def correctRfFrequency (E : Env K) (B : BeamEnv K) (cavs bpms : Option (List Nat)) (nSteps : Nat) (range : K × K) :
    Py (SC K) Unit := do
  let s ← get
  let (cavs, bpms) ← lift (checkRfInputs s cavs bpms nSteps)
  let vals := linspace range.1 range.2 nSteps
  let meas ← mapEach vals (scanStep E B cavs bpms "Frequency")
  let pts ← lift (checkData vals meas 3)
  let pts ← lift (pts.mapM (fun p => do
    let w ← divE 1 p.w
    .ok (⟨p.x, p.y, w⟩ : Pt K)))
  let f ← lift (lineFit pts)
  let d ← lift (frequencyStep B f)
  setCavitySetpoints cavs ⟨false, [d]⟩ "Frequency" "add"

/-- pySC/correction/rf.py:21-22 -/
def sineFun (R : RfEnv K) (a b c x : K) : K := a * R.sin (2 * R.pi * x + b) + c

/-- index of the first largest entry (`np.argmax`) -/
def argmax (l : List K) : Nat := l.findIdx (fun v => l.all (fun w => decide (w ≤ v)))

/-- pySC/correction/rf.py:49 the folding of the solution; `none` is a solution that is not a number -/
def foldRoot (root : Option K) (lam : K) : Except Err (Option K) :=
  match root with
  | none => .ok none
  | some x => match foldPhase x lam with
    | .error e => .error e
    | .ok d => .ok (some d)

/-- pySC/correction/rf.py:41-52: the fitted sine (raising if it does not cross zero) and the step, if it is a number;
also whether the measurement was precise enough -/
def phaseStep (B : BeamEnv K) (R : RfEnv K) (r : Ring K) (cav : Nat) (pts : List (Pt K)) (lam : K) :
    Except Err (Option K × Bool) := do
  let ys := pts.map Pt.y
  let mean := ys.sum / (ys.length : K)
  let f ← R.curveFit (pts.map (fun p => ⟨p.x / lam, p.y, p.w⟩)) (ys.getD (argmax ys) 0 - mean, R.pi, mean)
  if |f.a| < |f.c| then do
    let _ ← r.getNum cav "VoltageSetPoint"
    .error .runtimeError
  else do
    let sol := fun x => sineFun R f.a f.b f.c (x / lam)
    let xs := pts.map Pt.x
    let root := R.fsolve sol (xs.getD (argmax (xs.map sol)) 0 - |xs.headD 0| / 2)
    let d ← foldRoot root lam
    if belowTwoSigma B f.a f.varA || belowTwoSigma B f.c f.varC then .ok (some 0, false) else .ok (d, true)

/-- pySC/correction/rf.py:20-60 `correct_rf_phase` (without plotting).  If the measurement is not precise enough the step
is the Python float 0.0, and the log message after it has been applied fails because a float has no entry 0. -/
def correctRfPhase (E : Env K) (B : BeamEnv K) (R : RfEnv K) (cavs bpms : Option (List Nat)) (nSteps : Nat) : Py (SC K) Unit := do
  let s ← get
  let (cavs, bpms) ← lift (checkRfInputs s cavs bpms nSteps)
  let cav ← lift (idx cavs 0)
  let f ← rd (fun r => r.getNum cav "FrequencySetPoint")
  let lam ← lift (divE speedOfLight f)
  let vals := (linspace (-1 / 2) (1 / 2) nSteps).map (fun v => lam * v)
  let meas ← mapEach vals (scanStep E B cavs bpms "TimeLag")
  let pts ← lift (checkData vals meas 6)
  let d ← rd (fun r => phaseStep B R r cav pts lam)
  match d with
  | (none, _) => Py.throw .runtimeError
  | (some d, precise) => do
    setCavitySetpoints cavs ⟨false, [d]⟩ "TimeLag" "add"
    if precise then Py.pure () else Py.throw .typeError

/-- pySC/correction/rf.py:98-106 `phase_and_energy_error`: phase error in degrees and relative energy error -/
def phaseAndEnergyError (R : RfEnv K) (s : SC K) (cavs : List Nat) : Except Err (K × K) := do
  let cav ← idx cavs 0
  let f ← s.RING.getNum cav "Frequency"
  let lam ← divE speedOfLight f
  let o := R.orbit6 s.RING
  let o5 ← idx o 5
  let z5 ← idx s.INJ.Z0 5
  let d ← foldPhase ((o5 - z5) / lam) lam
  let z4 ← idx s.INJ.Z0 4
  let o4 ← idx o 4
  .ok (d * 360, z4 - o4)

end PySC
