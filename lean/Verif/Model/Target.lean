import Verif.Spec.History
/-
The array with the target orbit that the caller passes to the corrections: pySC/correction/orbit_trajectory.py uses it without a copy.
-/
set_option linter.unusedSectionVars false
namespace PySC
variable {K : Type} [Field K] [LinearOrder K] [FloorRing K]
open Py Spec

/-- pySC/correction/orbit_trajectory.py:128-142: `stitch` up to the preparation of the reference: number of BPMs, the readings so far, the
last reading -/
def stitchStart (E : Env K) (B : BeamEnv K) (O : OrbitEnv K) (rm : List (List K)) (reference : Option (List K))
    (cms : Option CMs) (bpms : Option (List Nat)) (nBpms : Nat) : Py (SC K) ((List Nat × CMs × List K) × List (Log K) × Log K) := do
  let s ← get
  if s.INJ.nTurns ≠ 2 then throw .valueError
  else do
    let c ← lift (checkOrds s rm.length (numCols rm) reference bpms cms)
    let l ← inject E B c.1
    if l.reached < c.1.length then throw .runtimeError
    else if l.reached < c.1.length + nBpms then do
      let _ ← wiggling E B O c.1 c.2.1 (c.1.length + nBpms)
      let l' ← inject E B c.1
      if l'.reached < c.1.length + nBpms then throw .runtimeError
      else Py.pure (c, [l, l'], l')
    else Py.pure (c, [l], l)

/-- pySC/correction/orbit_trajectory.py:204-209: `balance` up to the preparation of the reference -/
def balanceStart (E : Env K) (B : BeamEnv K) (rm : List (List K)) (reference : Option (List K))
    (cms : Option CMs) (bpms : Option (List Nat)) : Py (SC K) ((List Nat × CMs × List K) × List (Log K) × Log K) := do
  let s ← get
  if s.INJ.nTurns ≠ 2 then throw .valueError
  else do
    let c ← lift (checkOrds s rm.length (numCols rm) reference bpms cms)
    let l ← inject E B c.1
    if l.reached < l.x.length then throw .valueError
    else Py.pure (c, [l], l)

/-- pySC/correction/orbit_trajectory.py:145-147, 212-214: the preparation writes into the array of the caller, `reshape` being a view of it;
`reshape` fails, and nothing is written, if the readings have another length -/
def preparedArray (ref : List K) : Res (SC K) ((List Nat × CMs × List K) × List (Log K) × Log K) → List K
  | .ok (c, _, l) _ => if 2 * l.x.length = ref.length then secondTurnZero ref c.1.length else ref
  | .error _ _ => ref

/-- a call, where the corrections may be given the array of the target orbit, or any other call -/
inductive TargetCall (K : Type) where
  | other (c : Call K)
  | firstTurn (rm : List (List K)) (cms : Option CMs) (bpms : Option (List Nat)) (maxsteps : Nat)
  | stitch (rm : List (List K)) (cms : Option CMs) (bpms : Option (List Nat)) (nBpms maxsteps : Nat)
  | balance (rm : List (List K)) (cms : Option CMs) (bpms : Option (List Nat)) (eps : K) (maxsteps : Nat)
  | correct (rm : List (List K)) (cms : Option CMs) (bpms : Option (List Nat)) (eps target : K) (maxsteps : Nat) (scaleDisp : K)

/-- the call when the array has the entries `ref` -/
def TargetCall.call (ref : List K) : TargetCall K → Call K
  | .other c => c
  | .firstTurn rm c b n => .firstTurn rm (some ref) c b n
  | .stitch rm c b k n => .stitch rm (some ref) c b k n
  | .balance rm c b e n => .balance rm (some ref) c b e n
  | .correct rm c b e t n d => .correct rm (some ref) c b e t n d

/-- the array after the call: pySC/correction/orbit_trajectory.py:25-89 and 241-319 (`first_turn`, `correct`) only read it, 145-147 and
212-214 (`stitch`, `balance`) write into it -/
def TargetCall.array (W : World K) (s : SC K) (ref : List K) : TargetCall K → List K
  | .stitch rm c b k _ => preparedArray ref (stitchStart W.E W.B W.O rm (some ref) c b k s)
  | .balance rm c b _ _ => preparedArray ref (balanceStart W.E W.B rm (some ref) c b s)
  | _ => ref

/-- the machine and the array of the target orbit after a sequence of calls, the caller catching every exception -/
def targetHistory (W : World K) (calls : List (TargetCall K)) (s : SC K) (ref : List K) : SC K × List K :=
  calls.foldl (fun p c => (((c.call p.2).run W p.1).state, c.array W p.1 p.2)) (s, ref)

end PySC
