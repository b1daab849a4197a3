import Verif.Model.Beam
import Verif.Model.Fit
import Verif.Model.Setpoints
/-
pySC/correction/orbit_trajectory.py: first_turn, stitch, balance, correct and their helpers.

The lists `transmission_history` and `rms_orbit_history` are computed from a list of the readings themselves, which also
records the machine before and after each reading; the functions return this list (ghost output).
-/
namespace PySC
variable {K : Type} [Field K] [LinearOrder K] [FloorRing K]
open Py

/-- What orbit correction obtains from outside: the pseudo-inverse with the given parameters (modelled in
`Verif.Model.Pinv`) and the steps of the wiggling pattern (orbit_trajectory.py:363-368, 379). -/
structure OrbitEnv (K : Type) where
  pinv : List (List K) → Except Err (List (List K))
  donut : List (K × K)

/-- a reading in both planes, and the machine before and after it -/
structure Log (K : Type) where
  before : SC K
  x : List (Option K)
  y : List (Option K)
  after : SC K

/-- number of columns with a horizontal reading (orbit_trajectory.py:340, 343) -/
def Log.reached (l : Log K) : Nat := (l.x.filter (fun v => v.isSome)).length

/-- `np.sqrt(np.mean(np.square(v)))`, NaN if there is no value or one of them is NaN -/
def rmsOf (B : BeamEnv K) (v : List (Option K)) : Option K :=
  if v.isEmpty || v.any (fun x => x.isNone) then none
  else B.sqrt (((v.filterMap id).map (fun x => x * x)).sum / ((v.filterMap id).length : K))

/-- entry of `rms_orbit_history` (orbit_trajectory.py:342-344) -/
def Log.rms (B : BeamEnv K) (l : Log K) : Option K × Option K :=
  let cols := (l.x.zip l.y).filter (fun p => p.1.isSome)
  (rmsOf B (cols.map Prod.fst), rmsOf B (cols.map Prod.snd))

/-- pySC/correction/orbit_trajectory.py:338-345 `_bpm_reading_and_logging` -/
def inject (E : Env K) (B : BeamEnv K) (bpms : List Nat) : Py (SC K) (Log K) := do
  let s ← get
  let r ← bpmReading E B (some bpms) false
  let s' ← get
  Py.pure ⟨s, r.x, r.y, s'⟩

/-- `a[i]` for a possibly negative index -/
def pyIndex (l : List Nat) (i : Int) : Except Err Nat :=
  if 0 ≤ i then idx l i.toNat
  else if 0 ≤ i + l.length then idx l (i + l.length).toNat
  else .error .indexError

/-- `l[-n:]` -/
def lastN {α : Type} (n : Nat) (l : List α) : List α := if n = 0 then l else l.drop (l.length - n)

/-- pySC/correction/orbit_trajectory.py:348-354 `_get_last_cm`: ordinates and positions in the list -/
def getLastCM (lastBpm : Int) (n : Nat) (bpms cms : List Nat) : Except Err (List Nat × List Int) :=
  if (bpms.length : Int) ≤ lastBpm then
    .ok (lastN n cms, (List.range n).map (fun (k : Nat) => (cms.length : Int) - n + (k : Int)))
  else do
    let b ← pyIndex bpms lastBpm
    let up := cms.zipIdx.filter (fun p => decide (p.1 ≤ b))
    if up.isEmpty then .error .runtimeError
    else .ok ((lastN n up).map Prod.fst, (lastN n up).map (fun p => (p.2 : Int)))

/-- pySC/correction/orbit_trajectory.py:19 -/
def NREPRO : Nat := 5
/-- pySC/correction/orbit_trajectory.py:20 -/
def WIGGLE_AFTER : Nat := 20

/-- pySC/correction/orbit_trajectory.py:357-360 `_is_repro` (`hist` is not empty) -/
def isRepro (hist : List Nat) (n : Nat) : Bool :=
  decide (n ≤ hist.length) && (lastN n hist).all (fun v => decide (v = hist.getLastD 0))

/-- pySC/correction/orbit_trajectory.py:371-374 `_is_stable_or_converged`: variance over standard deviation of the last
`n` entries of both planes; NaN compares false, also the 0/0 of a constant history -/
def isStable (B : BeamEnv K) (n : Nat) (eps : K) (hist : List (Option K × Option K)) : Bool :=
  if hist.length < n then false
  else
    let v := (lastN n hist).flatMap (fun p => [p.1, p.2])
    if v.any (fun x => x.isNone) then false
    else
      let w := v.filterMap id
      let mean := w.sum / (w.length : K)
      let var := (w.map (fun x => (x - mean) * (x - mean))).sum / (w.length : K)
      match B.sqrt var with
      | none => false
      | some std => if std = 0 then false else decide (var / std < eps)

/-- number of columns of a matrix given by its rows -/
def numCols (m : List (List K)) : Nat := (m.headD []).length

/-- correctors used: horizontal and vertical -/
abbrev CMs := List Nat × List Nat

/-- pySC/correction/orbit_trajectory.py:322-335 `_check_ords`; the reference is the list of its entries -/
def checkOrds (s : SC K) (rows cols : Nat) (reference : Option (List K)) (bpms : Option (List Nat)) (cms : Option CMs) :
    Except Err (List Nat × CMs × List K) := do
  let cms := cms.getD (s.ORD.HCM, s.ORD.VCM)
  let bpms := bpms.getD s.ORD.BPM
  if rows ≠ 2 * bpms.length * s.INJ.nTurns then .error .valueError
  else if cols ≠ cms.1.length + cms.2.length then .error .valueError
  else match reference with
    | none => .ok (bpms, cms, List.replicate rows 0)
    | some r => if r.length ≠ rows then .error .valueError else .ok (bpms, cms, r)

/-- both planes one after the other, in the shape of the reference -/
def measured (l : Log K) (ref : List K) : Except Err (List (Option K)) :=
  if l.x.length + l.y.length ≠ ref.length then .error .valueError else .ok (l.x ++ l.y)

/-- `np.dot(Mplus, measurement - reference)` -/
def kicksFor (mplus : List (List K)) (m ref : List K) : List K := matVec mplus (List.zipWith (· - ·) m ref)

/-- `SC.set_cm_setpoints(ords, -dphi, skewness, 'add')` -/
def stepCM (ords : List Nat) (dphi : List K) (skew : Bool) : Py (SC K) Unit :=
  setCMSetpoints ords ⟨false, dphi.map (fun x => -x)⟩ skew "add"

/-- pySC/correction/orbit_trajectory.py:387-398: the loop over the points of the pattern; the flag tells whether the
search was completed -/
def wiggleInner (E : Env K) (B : BeamEnv K) (bpms : List Nat) (limit : Nat) (h v : List Nat) :
    List (K × K) → List (Log K) → Py (SC K) (Bool × List (Log K))
  | [], hist => Py.pure (false, hist)
  | d :: ds, hist => do
    setCMSetpoints h ⟨false, [d.1]⟩ false "add"
    setCMSetpoints v ⟨false, [d.2]⟩ true "add"
    let l ← inject E B bpms
    if limit ≤ l.reached then do
      let l1 ← inject E B bpms
      let l2 ← inject E B bpms
      let hist := hist ++ [l, l1, l2]
      if isRepro (hist.map Log.reached) NREPRO then Py.pure (true, hist)
      else wiggleInner E B bpms limit h v ds hist
    else wiggleInner E B bpms limit h v ds (hist ++ [l])

/-- transmission of the last reading -/
def lastReached (hist : List (Log K)) : Nat := (hist.map Log.reached).getLastD 0

/-- pySC/correction/orbit_trajectory.py:382-402: the loop over the number of correctors -/
def wiggleOuter (E : Env K) (B : BeamEnv K) (O : OrbitEnv K) (bpms : List Nat) (cms : CMs) (limit : Nat) :
    List Nat → List (Log K) → Py (SC K) (List (Log K))
  | [], hist => if limit ≤ lastReached hist then Py.pure hist else throw .runtimeError
  | n :: ns, hist => do
    let h ← lift (getLastCM ((lastReached hist : Int) - 1) n bpms cms.1)
    let v ← lift (getLastCM ((lastReached hist : Int) - 1) n bpms cms.2)
    let r ← wiggleInner E B bpms limit h.1 v.1 O.donut hist
    if r.1 then Py.pure r.2 else wiggleOuter E B O bpms cms limit ns r.2

/-- pySC/correction/orbit_trajectory.py:377-402 `_wiggling` -/
def wiggling (E : Env K) (B : BeamEnv K) (O : OrbitEnv K) (bpms : List Nat) (cms : CMs) (limit : Nat) :
    Py (SC K) (List (Log K)) := do
  let l ← inject E B bpms
  wiggleOuter E B O bpms cms limit [1, 2, 3, 4, 5, 6, 7, 8] [l]

/-- position of the last corrector before the beam loss -/
def lastIndex (l : Log K) (bpms cms : List Nat) : Except Err Nat := do
  let r ← getLastCM ((l.reached : Int) - 1) 1 bpms cms
  match r.2 with
  | [] => .error .indexError
  | k :: _ => .ok (k + 1).toNat

/-- pySC/correction/orbit_trajectory.py:64-89: the loop of `first_turn` -/
def firstTurnLoop (E : Env K) (B : BeamEnv K) (O : OrbitEnv K) (bpms : List Nat) (cms : CMs) (mplus : List (List K))
    (ref : List K) : Nat → List (Log K) → Log K → Py (SC K) (List (Log K))
  | 0, _, _ => throw .runtimeError
  | n + 1, hist, l => do
    if l.reached = 0 then throw .runtimeError
    else do
      let m ← lift (measured l ref)
      let dphi := kicksFor mplus (m.map (fun v => v.getD 0)) ref
      let h ← lift (lastIndex l bpms cms.1)
      let v ← lift (lastIndex l bpms cms.2)
      stepCM (cms.1.take h) (dphi.take h) false
      stepCM (cms.2.take v) ((dphi.drop cms.1.length).take v) true
      let l' ← inject E B bpms
      let hist := hist ++ [l']
      if isRepro (hist.map Log.reached) NREPRO && decide (l'.reached = l'.x.length) then Py.pure hist
      else if isRepro (hist.map Log.reached) WIGGLE_AFTER then do
        let _ ← wiggling E B O bpms cms (l'.reached + 1)
        firstTurnLoop E B O bpms cms mplus ref n hist l'
      else firstTurnLoop E B O bpms cms mplus ref n hist l'

/-- pySC/correction/orbit_trajectory.py:25-89 `first_turn` -/
def firstTurn (E : Env K) (B : BeamEnv K) (O : OrbitEnv K) (rm : List (List K)) (reference : Option (List K))
    (cms : Option CMs) (bpms : Option (List Nat)) (maxsteps : Nat) : Py (SC K) (List (Log K)) := do
  let s ← get
  let c ← lift (checkOrds s rm.length (numCols rm) reference bpms cms)
  let l ← inject E B c.1
  let mplus ← lift (O.pinv rm)
  firstTurnLoop E B O c.1 c.2.1 mplus c.2.2 maxsteps [l] l

/-- pySC/correction/orbit_trajectory.py:153-155, 220-221: second minus first turn at the first `n` BPMs, zero elsewhere, one plane -/
def turnDiff (nb n : Nat) (v : List (Option K)) : List (Option K) :=
  List.zipWith nanSub ((v.drop nb).take n) (v.take n) ++ List.replicate (nb - n) (some 0)

/-- pySC/correction/orbit_trajectory.py:153-156, 220-222: first turn and difference of the turns, in both planes; `n`
BPMs of the second turn are used.  (With more columns than two turns numpy would refuse to concatenate or multiply.) -/
def twoTurns (l : Log K) (nb n : Nat) : Except Err (List (Option K)) :=
  if l.x.length ≠ 2 * nb ∨ nb < n then .error .valueError
  else .ok (l.x.take nb ++ turnDiff nb n l.x ++ (l.y.take nb ++ turnDiff nb n l.y))

/-- pySC/correction/orbit_trajectory.py:145-147, 212-214: the reference of the second turn is zero, in both planes -/
def secondTurnZero (ref : List K) (nb : Nat) : List K :=
  let n := ref.length / 2
  (ref.take n).take nb ++ List.replicate (n - nb) 0 ++ ((ref.drop n).take nb ++ List.replicate (n - nb) 0)

/-- pySC/correction/orbit_trajectory.py:161-162, 226-227, 302-303: a step with all correctors -/
def stepAll (cms : CMs) (dphi : List K) : Py (SC K) Unit := do
  stepCM cms.1 (dphi.take cms.1.length) false
  stepCM cms.2 (dphi.drop cms.1.length) true

/-- pySC/correction/orbit_trajectory.py:151-172: the loop of `stitch` (the exception at line 168 is created but not
raised) -/
def stitchLoop (E : Env K) (B : BeamEnv K) (bpms : List Nat) (cms : CMs) (mplus : List (List K)) (ref : List K) (nBpms : Nat) :
    Nat → List (Log K) → Log K → Py (SC K) (List (Log K))
  | 0, _, _ => throw .runtimeError
  | n + 1, hist, l => do
    let m ← lift (twoTurns l bpms.length nBpms)
    stepAll cms (kicksFor mplus (m.map (fun v => v.getD 0)) ref)
    let l' ← inject E B bpms
    let hist := hist ++ [l']
    if isRepro (hist.map Log.reached) NREPRO && decide (l'.reached = l'.x.length) then Py.pure hist
    else stitchLoop E B bpms cms mplus ref nBpms n hist l'

/-- pySC/correction/orbit_trajectory.py:92-172 `stitch` -/
def stitch (E : Env K) (B : BeamEnv K) (O : OrbitEnv K) (rm : List (List K)) (reference : Option (List K))
    (cms : Option CMs) (bpms : Option (List Nat)) (nBpms maxsteps : Nat) : Py (SC K) (List (Log K)) := do
  let s ← get
  if s.INJ.nTurns ≠ 2 then throw .valueError
  else do
    let c ← lift (checkOrds s rm.length (numCols rm) reference bpms cms)
    let l ← inject E B c.1
    if l.reached < c.1.length then throw .runtimeError
    else if l.reached < c.1.length + nBpms then do
      let _ ← wiggling E B O c.1 c.2.1 (c.1.length + nBpms)
      let l' ← inject E B c.1
      if l'.reached < c.1.length + nBpms then throw .runtimeError
      else do
        let mplus ← lift (O.pinv rm)
        stitchLoop E B c.1 c.2.1 mplus (secondTurnZero c.2.2 c.1.length) nBpms maxsteps [l, l'] l'
    else do
      let mplus ← lift (O.pinv rm)
      stitchLoop E B c.1 c.2.1 mplus (secondTurnZero c.2.2 c.1.length) nBpms maxsteps [l] l

/-- a correction computed from a measurement containing NaN would set correctors to NaN; the model stops -/
def noNan (m : List (Option K)) : Except Err (List K) :=
  if m.any (fun v => v.isNone) then .error .nonFinite else .ok (m.filterMap id)

/-- pySC/correction/orbit_trajectory.py:218-238: the loop of `balance` -/
def balanceLoop (E : Env K) (B : BeamEnv K) (bpms : List Nat) (cms : CMs) (mplus : List (List K)) (ref : List K) (eps : K) :
    Nat → List (Log K) → Log K → Py (SC K) (List (Log K))
  | 0, _, _ => throw .runtimeError
  | n + 1, hist, l => do
    let m ← lift (twoTurns l bpms.length bpms.length)
    let m ← lift (noNan m)
    stepAll cms (kicksFor mplus m ref)
    let l' ← inject E B bpms
    let hist := hist ++ [l']
    if l'.reached < l'.x.length then throw .runtimeError
    else if isStable B NREPRO eps (hist.map (Log.rms B)) then Py.pure hist
    else balanceLoop E B bpms cms mplus ref eps n hist l'

/-- pySC/correction/orbit_trajectory.py:175-238 `balance` -/
def balance (E : Env K) (B : BeamEnv K) (O : OrbitEnv K) (rm : List (List K)) (reference : Option (List K))
    (cms : Option CMs) (bpms : Option (List Nat)) (eps : K) (maxsteps : Nat) : Py (SC K) (List (Log K)) := do
  let s ← get
  if s.INJ.nTurns ≠ 2 then throw .valueError
  else do
    let c ← lift (checkOrds s rm.length (numCols rm) reference bpms cms)
    let l ← inject E B c.1
    if l.reached < l.x.length then throw .valueError
    else do
      let mplus ← lift (O.pinv rm)
      balanceLoop E B c.1 c.2.1 mplus (secondTurnZero c.2.2 c.1.length) eps maxsteps [l] l

/-- pySC/correction/orbit_trajectory.py:298-303: one correction of `correct`, including the frequency -/
def correctStep (cms : CMs) (scaleDisp : K) (dphi : List K) : Py (SC K) Unit :=
  if scaleDisp ≠ 0 then do
    let s ← get
    setCavitySetpoints s.ORD.RF ⟨false, [-scaleDisp * dphi.getLastD 0]⟩ "Frequency" "add"
    stepAll cms dphi.dropLast
  else stepAll cms dphi

/-- `max(rms) < target`; both planes are numbers -/
def below (target : K) (p : Option K × Option K) : Bool :=
  match p.1, p.2 with
  | some a, some b => decide (max a b < target)
  | _, _ => false

/-- pySC/correction/orbit_trajectory.py:293-319: the loop of `correct` -/
def correctLoop (E : Env K) (B : BeamEnv K) (bpms : List Nat) (cms : CMs) (mplus : List (List K)) (ref : List K)
    (eps target scaleDisp : K) (maxsteps : Nat) : Nat → List (Log K) → Log K → Py (SC K) (List (Log K))
  | 0, hist, _ =>
    if isStable B (min NREPRO maxsteps) eps (hist.map (Log.rms B)) || decide (maxsteps = 1) then Py.pure hist
    else throw .runtimeError
  | n + 1, hist, l => do
    let m ← lift (measured l ref)
    let m ← lift (noNan m)
    correctStep cms scaleDisp (kicksFor mplus m ref)
    let l' ← inject E B bpms
    let hist := hist ++ [l']
    if l'.x.any (fun v => v.isNone) then throw .runtimeError
    else if below target (l'.rms B) && isStable B (min NREPRO maxsteps) eps (hist.map (Log.rms B)) then Py.pure hist
    else if isStable B NREPRO eps (hist.map (Log.rms B)) then Py.pure hist
    else correctLoop E B bpms cms mplus ref eps target scaleDisp maxsteps n hist l'

/-- pySC/correction/orbit_trajectory.py:241-319 `correct` -/
def correct (E : Env K) (B : BeamEnv K) (O : OrbitEnv K) (rm : List (List K)) (reference : Option (List K))
    (cms : Option CMs) (bpms : Option (List Nat)) (eps target : K) (maxsteps : Nat) (scaleDisp : K) :
    Py (SC K) (List (Log K)) := do
  let s ← get
  let c ← lift (checkOrds s rm.length (if scaleDisp ≠ 0 then numCols rm - 1 else numCols rm) reference bpms cms)
  let l ← inject E B c.1
  let mplus ← lift (O.pinv rm)
  correctLoop E B c.1 c.2.1 mplus c.2.2 eps target scaleDisp maxsteps maxsteps [l] l

end PySC
