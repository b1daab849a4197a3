import Verif.Model.Beam
import Verif.Model.Stats
import Verif.Model.Setpoints
import Verif.Model.Tune
/-
pySC/correction/bba.py: beam-based alignment from trajectories (without plotting) and the recalculation of failed
measurements.  Two-dimensional arrays are lists of rows.  `orbit_bba` is in Model/MatlabIndex.lean.
-/
namespace PySC
variable {K : Type} [Field K] [LinearOrder K] [FloorRing K]
open Py

/-- `a[p, j]` -/
def tab2 {α : Type} (t : List (List α)) (p j : Nat) : Except Err α := do
  let r ← idx t p
  idx r j

/-- shape of a table -/
def shape {α : Type} (t : List (List α)) : List Nat := t.map List.length

/-- entries of a table with their indices, row by row -/
def cells {α : Type} (t : List (List α)) : List (Nat × Nat × α) :=
  t.zipIdx.flatMap (fun r => r.1.zipIdx.map (fun e => (r.2, e.2, e.1)))

/-- pySC/correction/bba.py:126-128 `is_bba_errored` of one entry; with pySC/correction/bba.py:12-13 -/
def isBbaErrored (off err : Option K) : Bool :=
  match off with
  | none => true
  | some o => decide (15 / 10000 < |o|) || (match err with
    | none => false
    | some e => decide (|o| < 5 / 2 * e))

/-- `SC.RING[ord].Offset[p] = v(Offset[p])` -/
def changeOffset (ord p : Nat) (v : K → K) : Py (SC K) Unit := do
  let off ← rd (fun r => r.getVec ord "Offset")
  let x ← lift (idx off p)
  setAttr ord "Offset" (.vec (off.set p (v x)))

/-- pySC/correction/bba.py:115-123 `apply_bpm_offsets` (for tables of the same shape) -/
def applyBpmOffsets (bpmOrds : List (List Nat)) (offsets errs : List (List (Option K))) : Py (SC K) Unit :=
  if shape offsets ≠ shape errs then Py.throw .valueError
  else forEach (cells (List.zipWith List.zip offsets errs)) (fun e =>
    match e.2.2.1 with
    | none => Py.pure ()
    | some off =>
      if isBbaErrored e.2.2.1 e.2.2.2 then Py.pure ()
      else do
        let ord ← lift (tab2 bpmOrds e.1 e.2.1)
        changeOffset ord e.1 (fun x => x + off))

/-- pySC/correction/bba.py:131-138 `_get_bpm_offset_from_mag`, one row -/
def bpmOffsetsFromMag (r : Ring K) (p : Nat) (bpms mags : List Nat) : Except Err (List K) := do
  let a ← fieldValues r bpms "Offset" p
  let b ← fieldValues r bpms "SupportOffset" p
  let c ← fieldValues r mags "MagnetOffset" p
  let d ← fieldValues r mags "SupportOffset" p
  if bpms.length ≠ mags.length then .error .valueError
  else .ok (List.zipWith (· - ·) (List.zipWith (· - ·) (List.zipWith (· + ·) a b) c) d)

/-- pySC/correction/bba.py:87-89: root of the mean square of the offsets of the unflagged entries of one row -/
def rmsUnflagged (S : StatsEnv K) (flags : List Bool) (offs : List K) : Option K :=
  let good := ((offs.zip flags).filter (fun p => !p.2)).map Prod.fst
  if good.isEmpty then none else S.sqrt ((good.map (fun x => x ^ 2)).sum / (good.length : K))

/-- pySC/correction/bba.py:86-89: the size of the offsets to be drawn, by plane -/
def fakeSizes (S : StatsEnv K) (r : Ring K) (bpmOrds magOrds : List (List Nat)) (flags : List (List Bool)) :
    Except Err (List (Option K)) := do
  let offs ← (bpmOrds.zip magOrds).zipIdx.mapM (fun e => bpmOffsetsFromMag r e.2 e.1.1 e.1.2)
  if shape flags ≠ shape bpmOrds then .error .indexError
  else .ok (List.zipWith (rmsUnflagged S) flags offs)

/-- pySC/correction/bba.py:84-85: without flags all entries are taken -/
def allFlags (errors : Option (List (List Bool))) (bpmOrds : List (List Nat)) : List (List Bool) :=
  errors.getD (bpmOrds.map (fun row => row.map (fun _ => true)))

/-- pySC/correction/bba.py:93-101: one flagged entry -/
def fakeEntry (E : Env K) (bpmOrds magOrds : List (List Nat)) (sizes : List (Option K)) (p j : Nat) : Py (SC K) Unit := do
  let mag ← lift (tab2 magOrds p j)
  let bpm ← lift (tab2 bpmOrds p j)
  let a ← rd (fun r => r.getVecAt mag "MagnetOffset" p)
  let b ← rd (fun r => r.getVecAt mag "SupportOffset" p)
  let c ← rd (fun r => r.getVecAt bpm "SupportOffset" p)
  let f ← lift (idx sizes p)
  let z ← randnc E 2 1
  match f with
  | none => Py.pure ()
  | some f => changeOffset bpm p (fun _ => a + b - c + f * z.getD 0 0)

/-- pySC/correction/bba.py:79-102 `fake_bba` -/
def fakeBba (E : Env K) (S : StatsEnv K) (bpmOrds magOrds : List (List Nat)) (errors : Option (List (List Bool)))
    (fakeOffset : Option (List (Option K))) : Py (SC K) Unit :=
  if errors.isNone && fakeOffset.isNone then Py.throw .valueError
  else do
    let flags := allFlags errors bpmOrds
    let sizes ← (match fakeOffset with
      | some f => Py.pure f
      | none => rd (fun r => fakeSizes S r bpmOrds magOrds flags))
    forEach (cells flags) (fun e => if e.2.2 then fakeEntry E bpmOrds magOrds sizes e.1 e.2.1 else Py.pure ())

/-- the strengths at which a magnet is measured: the same for all (a 1-D array), or one list for each entry -/
inductive Strengths (K : Type) where
  | same (l : List K)
  | table (t : List (List (List K)))

/-- pySC/correction/bba.py:108-109 -/
def Strengths.at {K : Type} : Strengths K → Nat → Nat → Except Err (List K)
  | .same l, _, _ => .ok l
  | .table t, p, j => tab2 t p j

/-- pySC/correction/bba.py:17-21: the options -/
structure BbaPar (K : Type) where
  nSteps : Nat
  fitOrder : Nat
  order : Nat
  skew : Bool
  method : String
  qOrds : List Nat
  qSetpoints : List K
  strengths : Strengths K
  numDownstream : Nat
  maxPosAngle : K × K
  dipComp : Bool

/-- the coordinates of plane `p` of the injected beam are the initial ones plus `d` (line 252 and 289) -/
def injectAt (z0 : List K) (p : Nat) (d : K × K) : Py (SC K) Unit :=
  if z0.length < 2 * p + 2 then Py.throw .valueError
  else modify (fun s => { s with INJ := { s.INJ with
    Z0 := (z0.set (2 * p) (z0.getD (2 * p) 0 + d.1)).set (2 * p + 1) (z0.getD (2 * p + 1) 0 + d.2) } })

/-- the readings in one plane -/
def Reading.plane (r : Reading K) (p : Nat) : Except Err (List (Option K)) := idx [r.x, r.y] p

/-- pySC/correction/bba.py:255: assignment of the readings of the downstream BPMs; a single number is broadcast -/
def downstream (v : List (Option K)) (start n : Nat) : Except Err (List (Option K)) :=
  let seg := (v.drop start).take n
  if seg.length = n then .ok seg
  else if seg.length = 1 then .ok (List.replicate n (seg.getD 0 none))
  else .error .valueError

/-- pySC/correction/bba.py:252-255: one step of the measurement: position at the BPM and trajectory after it -/
def measureStep (E : Env K) (B : BeamEnv K) (z0 : List K) (bpmInd p : Nat) (skew : Bool) (nDown : Nat) (d : K × K) :
    Py (SC K) (Option K × List (Option K)) := do
  injectAt z0 p d
  let r ← bpmReading E B none false
  let u ← lift (r.plane p)
  let x ← lift (idx u bpmInd)
  let v ← lift (r.plane (if skew then 1 - p else p))
  let t ← lift (downstream v bpmInd nDown)
  Py.pure (x, t)

/-- pySC/correction/bba.py:242: the kicks -/
def bbaKicks (scaling : K) (m : K × K) (n : Nat) : List (K × K) :=
  (linspace (-1) 1 n).map (fun l => (scaling * m.1 * l, scaling * m.2 * l))

/-- pySC/correction/bba.py:241-260 `_data_measurement_tbt`: for each strength of the magnet and each step the position at the
BPM and the trajectory after it -/
def dataMeasurementTbt (E : Env K) (B : BeamEnv K) (par : BbaPar K) (mOrd bpmInd j p : Nat) (scaling : K) :
    Py (SC K) (List (List (Option K × List (Option K)))) := do
  let s ← get
  let strengths ← lift (par.strengths.at p j)
  let init ← rd (fun r => r.getVecAt mOrd ("SetPoint" ++ letter par.skew) par.order)
  let data ← mapEach strengths (fun q => do
    setMagnetSetpoints [mOrd] ⟨false, [q]⟩ par.skew par.order par.method par.dipComp
    mapEach (bbaKicks scaling par.maxPosAngle par.nSteps)
      (measureStep E B s.INJ.Z0 bpmInd p par.skew par.numDownstream))
  modify (fun t => { t with INJ := { t.INJ with Z0 := s.INJ.Z0 } })
  setMagnetSetpoints [mOrd] ⟨false, [init]⟩ par.skew par.order "abs" par.dipComp
  Py.pure data

/-- pySC/correction/bba.py:294: the range of the readings of one BPM, NaN if the beam was lost -/
def rangeOf (a b : Option K) : Option K :=
  match a, b with
  | some a, some b => some (max a b - min a b)
  | _, _ => none

/-- pySC/correction/bba.py:288-290: inject with the given sign and read the BPMs -/
def trialReading (E : Env K) (B : BeamEnv K) (z0 : List K) (nBpm p : Nat) (d : K × K) : Py (SC K) (List (Option K)) := do
  injectAt z0 p d
  let r ← bpmReading E B none false
  let v ← lift (r.plane p)
  if v.length = nBpm then Py.pure v else Py.throw .valueError

/-- pySC/correction/bba.py:285-304: the trials; the last BPM to be reached and all BPMs before it must have readings -/
def scaleTrials (E : Env K) (B : BeamEnv K) (z0 : List K) (nBpm last p : Nat) (m : K × K) : Nat → K → Py (SC K) (K × List (Option K))
  | 0, f => Py.pure (f, List.replicate nBpm (some 0))
  | n + 1, f => do
    let a ← trialReading E B z0 nBpm p (f * m.1, f * m.2)
    let b ← trialReading E B z0 nBpm p (-(f * m.1), -(f * m.2))
    modify (fun s => { s with INJ := { s.INJ with Z0 := z0 } })
    if ((a.take (last + 1)) ++ (b.take (last + 1))).all (fun v => v.isSome) then Py.pure (f, List.zipWith rangeOf a b)
    else scaleTrials E B z0 nBpm last p m n (f * (4 / 5))

/-- pySC/correction/bba.py:276-306 `_scale_injection_to_reach_bpms`: the factor and the range of positions at each BPM -/
def scaleInjection (E : Env K) (B : BeamEnv K) (p last : Nat) (m : K × K) : Py (SC K) (K × List (Option K)) := do
  let s ← get
  modify (fun t => { t with INJ := { t.INJ with nTurns := 1 } })
  let out ← scaleTrials E B s.INJ.Z0 s.ORD.BPM.length last p m 20 1
  modify (fun t => { t with INJ := { t.INJ with nTurns := s.INJ.nTurns } })
  Py.pure out

/-- lines 41-42 and 271-272: back to the initial strengths, if there are any -/
def restoreQuads (qOrds : List Nat) (q0 : List K) : Py (SC K) Unit :=
  if q0.isEmpty then Py.pure () else setMagnetSetpoints qOrds ⟨false, q0⟩ false 1 "abs" true

/-- pySC/correction/bba.py:263-273 `_phase_advance_injection_scan`: for each strength of the quadrupoles the factor and the
ranges -/
def phaseAdvanceScan (E : Env K) (B : BeamEnv K) (par : BbaPar K) (p last : Nat) : Py (SC K) (List (K × List (Option K))) := do
  let q0 ← rd (fun r => fieldValues r par.qOrds "SetPointB" 1)
  let out ← mapEach par.qSetpoints (fun q => do
    setMagnetSetpoints par.qOrds ⟨false, [q]⟩ false 1 "rel" true
    scaleInjection E B p last par.maxPosAngle)
  restoreQuads par.qOrds q0
  Py.pure out

/-- `np.argmax`, for which NaN is larger than any number -/
def argmaxNan (l : List (Option K)) : Except Err Nat :=
  if l.isEmpty then .error .valueError
  else match l.findIdx? (fun v => v.isNone) with
    | some k => .ok k
    | none => .ok (argmaxFirst (l.filterMap id))

/-- result of `np.polyfit(…, cov="unscaled")`: the two leading coefficients and their covariances -/
structure FitOut (K : Type) where
  p0 : K
  p1 : K
  v00 : K
  v11 : K
  v01 : K
  deriving DecidableEq, Repr

/-- What the evaluation obtains from numpy and scipy: the statistics and polynomial fits of other degrees than one -/
structure BbaEnv (K : Type) where
  stats : StatsEnv K
  polyfit : Nat → List (Pt K) → Except Err (FitOut K)

/-- `np.polyfit(x, y, order, w=w, cov="unscaled")` -/
def bbaFit (Q : BbaEnv K) (order : Nat) (pts : List (Pt K)) : Except Err (FitOut K) :=
  if order = 1 then do
    let l ← lineFit pts
    let S := sumOf pts (fun p => p.w ^ 2)
    let Sx := sumOf pts (fun p => p.w ^ 2 * p.x)
    let Sxx := sumOf pts (fun p => p.w ^ 2 * p.x ^ 2)
    .ok ⟨l.slope, l.intercept, l.varSlope, l.varIntercept, - Sx / (S * Sxx - Sx ^ 2)⟩
  else Q.polyfit order pts

/-- row `i` of `bpm_pos`: the positions at step `i` for the strengths of the magnet -/
def posAt (data : List (List (Option K × List (Option K)))) (i : Nat) : List (Option K) :=
  data.map (fun c => (c.getD i (none, [])).1)

/-- `trajectories[i, :, j]` -/
def trajAt (data : List (List (Option K × List (Option K)))) (i j : Nat) : List (Option K) :=
  data.map (fun c => (c.getD i (none, [])).2.getD j none)

/-- pySC/correction/bba.py:142-145: the steps at which the BPM had readings, with the mean position -/
def goodSteps (data : List (List (Option K × List (Option K)))) (nSteps : Nat) : List (Nat × K) :=
  (List.range nSteps).filterMap (fun i => (npMean (posAt data i)).map (fun x => (i, x)))

/-- `np.std` of one row without NaN -/
def npStd (S : StatsEnv K) (v : List (Option K)) : Option K := do
  let m ← npMean v
  let q ← npMean (v.map (fun x => x.map (fun x => (x - m) ^ 2)))
  S.sqrt q

/-- pySC/correction/bba.py:144: `err` -/
def positionError (S : StatsEnv K) (data : List (List (Option K × List (Option K)))) (good : List (Nat × K)) : Option K :=
  npMean (good.map (fun g => npStd S (posAt data g.1)))

/-- pySC/correction/bba.py:154-160: slope of the reading with the strength of the magnet and its variance, NaN (`none`) if
there are too few readings.  (An error which is zero or NaN makes the weights infinite or NaN, and the fit fails.) -/
def slopeAt (err : Option K) (magVec : List K) (y : List (Option K)) : Except Err (Option (K × K)) :=
  let good := (magVec.zip y).filterMap (fun p => p.2.map (fun v => (p.1, v)))
  if good.length < min magVec.length 3 then .ok none
  else match err with
    | none => .error .nonFinite
    | some e => do
      let w ← divE 1 e
      let l ← lineFit (good.map (fun p => (⟨p.1, p.2, w⟩ : Pt K)))
      .ok (some (l.slope, l.varSlope))

/-- pySC/correction/bba.py:170: the leading coefficient is below twice its error (comparison with NaN is false) -/
def insignificant (Q : BbaEnv K) (f : FitOut K) : Bool :=
  match Q.stats.sqrt f.v00 with
  | none => false
  | some sd => decide (|f.p0| < 2 * sd)

/-- pySC/correction/bba.py:162-173: the position at which the readings of one BPM do not depend on the strength of the
magnet, and its error; `none` if there are too few data or the effect is not significant -/
def centreOf (Q : BbaEnv K) (order : Nat) (pts : List (K × K × K)) : Except Err (Option (K × Option K)) :=
  if pts.length ≤ order + 1 then .ok none
  else do
    let pts ← pts.mapM (fun p => do
      let w ← divE 1 p.2.2
      .ok (⟨p.1, p.2.1, w⟩ : Pt K))
    let f ← bbaFit Q order pts
    if insignificant Q f then .ok none
    else do
      let c ← divE (-f.p1) ((order : K) * f.p0)
      .ok (some (c, if f.p1 = 0 then none
        else Q.stats.sqrt (c ^ 2 * (f.v00 / f.p0 ^ 2 + f.v11 / f.p1 ^ 2 - 2 * f.v01 / f.p0 / f.p1))))

/-- pySC/correction/bba.py:150-173: the centre found with the `j`-th downstream BPM -/
def centreAt (Q : BbaEnv K) (par : BbaPar K) (data : List (List (Option K × List (Option K)))) (magVec : List K)
    (good : List (Nat × K)) (err : Option K) (j : Nat) : Except Err (Option (K × Option K)) := do
  let slopes ← good.mapM (fun g => slopeAt err magVec (trajAt data g.1 j))
  centreOf Q par.fitOrder ((good.zip slopes).filterMap (fun p => p.2.map (fun v => (p.1.2, v.1, v.2))))

/-- pySC/correction/bba.py:177-178: the bending of the magnet adds to the offset if it was not compensated -/
def bendingShift (r : Ring K) (dipComp : Bool) (p mOrd : Nat) : Except Err K :=
  if dipComp || decide (p ≠ 0) then .ok 0
  else do
    let n1 ← r.getVecAt mOrd "NomPolynomB" 1
    if n1 = 0 then .ok 0
    else do
      let ba ← bendingAngleOr0 r mOrd
      let l ← r.getNum mOrd "Length"
      let q ← divE (ba / n1) l
      .ok q

/-- pySC/correction/bba.py:141-180 `_data_evaluation`: the offset and its error.  (All slopes are computed before the
centres, so that the exceptions of the code may be raised in another order.) -/
def dataEvaluation (Q : BbaEnv K) (r : Ring K) (par : BbaPar K) (data : List (List (Option K × List (Option K)))) (magVec : List K)
    (p mOrd : Nat) : Except Err (K × Option K) := do
  let good := goodSteps data par.nSteps
  let err := positionError Q.stats data good
  let centres ← (List.range par.numDownstream).mapM (centreAt Q par data magVec good err)
  let cs := (centres.filterMap id).map Prod.fst
  let es := (centres.filterMap id).map Prod.snd
  let off ← weightedMean Q.stats cs (some es)
  let e ← weightedError Q.stats (cs.map (fun c => c - off)) (some es) true
  let n := Q.stats.sqrt (effectiveSampleSize cs.length (weightsFromErrors Q.stats (some es) Q.stats.pi2))
  let shift ← bendingShift r par.dipComp p mOrd
  .ok (off + shift, n.bind (fun n => if n = 0 then none else some (e / n)))

/-- position in the list of BPMs (`np.where(ord == SC.ORD.BPM)[0][0]`) -/
def bpmIndex (bpms : List Nat) (o : Nat) : Except Err Nat :=
  match bpms.findIdx? (fun b => decide (b = o)) with
  | none => .error .indexError
  | some k => .ok k

/-- pySC/correction/bba.py:34-43: measurement and evaluation of one BPM -/
def bbaEntry (E : Env K) (B : BeamEnv K) (Q : BbaEnv K) (par : BbaPar K) (q0 : List K) (scan : List (K × List (Option K)))
    (p j bpm mag : Nat) : Py (SC K) (K × Option K) := do
  let s ← get
  let bpmInd ← lift (bpmIndex s.ORD.BPM bpm)
  let setInd ← lift (argmaxNan (scan.map (fun c => c.2.getD bpmInd none)))
  let strength ← lift (idx par.qSetpoints setInd)
  setMagnetSetpoints par.qOrds ⟨false, [strength]⟩ false 1 "rel" true
  let sc ← lift (idx scan setInd)
  let data ← dataMeasurementTbt E B par mag bpmInd j p sc.1
  restoreQuads par.qOrds q0
  let magVec ← lift (par.strengths.at p j)
  rd (fun r => dataEvaluation Q r par data magVec p mag)

/-- pySC/correction/bba.py:30-43: one plane -/
def bbaPlane (E : Env K) (B : BeamEnv K) (Q : BbaEnv K) (par : BbaPar K) (q0 : List K) (p : Nat) (bpms mags : List Nat) :
    Py (SC K) (List (K × Option K)) := do
  let s ← get
  let lastBpm ← lift (idx bpms (bpms.length - 1))
  let last ← lift (bpmIndex s.ORD.BPM lastBpm)
  let scan ← phaseAdvanceScan E B par p last
  mapEach (bpms.zip mags).zipIdx (fun e => bbaEntry E B Q par q0 scan p e.2 e.1.1 e.1.2)

/-- pySC/correction/bba.py:105-112 `_check_input` (the shapes of three-dimensional strengths are not checked) -/
def checkBbaInput (bpmOrds magOrds : List (List Nat)) (par : BbaPar K) : Except Err Unit :=
  if shape bpmOrds ≠ shape magOrds then .error .valueError
  else if 2 < par.fitOrder then .error .valueError
  else .ok ()

/-- pySC/correction/bba.py:16-47 `trajectory_bba` (without plotting): the offsets and their errors -/
def trajectoryBba (E : Env K) (B : BeamEnv K) (Q : BbaEnv K) (bpmOrds magOrds : List (List Nat)) (par : BbaPar K) :
    Py (SC K) (List (List (K × Option K))) := do
  let s ← get
  let _ ← lift (checkBbaInput bpmOrds magOrds par)
  if s.INJ.trackMode ≠ "TBT" ∨ s.INJ.nTurns ≠ 2 then Py.throw .valueError
  else do
    let q0 ← rd (fun r => fieldValues r par.qOrds "SetPointB" 1)
    let out ← mapEach (bpmOrds.zip magOrds).zipIdx (fun e => bbaPlane E B Q par q0 e.2 e.1.1 e.1.2)
    applyBpmOffsets bpmOrds (out.map (fun row => row.map (fun v => some v.1))) (out.map (fun row => row.map (fun v => v.2)))
    Py.pure out

end PySC
