import Verif.Model.Py
/-
BPM errors as arrays in memory: pySC/core/simulated_commissioning.py `register_bpms` (76-139) and the part of `apply_errors` for BPMs (546-552)
once more, with the identity of the arrays.  `SIG.BPM[ind].update(kwargs)` and `setattr(self.RING[ind], field, self.SIG.BPM[ind][field])` hand on
references, not copies.
-/
namespace PySC.Arrays
variable {K : Type} [Mul K] [Zero K]

/-- a number, an array in memory, or a list of an array and a cut-off -/
inductive Val (K : Type)
  | num (x : K)
  | arr (p : Nat)
  | cut (p : Nat) (c : K)

/-- `next` is the first free address; `given` are the arrays made by the caller -/
structure World (K : Type) where
  cell : Nat → List K
  next : Nat
  given : List Nat
  ring : Nat → String → Option (Val K)
  sig : Nat → String → Option (Val K)
  bpms : List Nat

/-- a new `SimulatedCommissioning` object, no arrays made yet -/
def World.empty : World K := ⟨fun _ => [], 0, [], fun _ _ => none, fun _ _ => none, []⟩

/-- arguments: numbers, the `n`-th array of the caller, a list of it and a cut-off -/
inductive Arg (K : Type)
  | num (x : K)
  | array (n : Nat)
  | cut (n : Nat) (c : K)

/-- a new array at the first free address -/
def alloc (v : List K) (w : World K) : World K := { w with cell := fun p => if p = w.next then v else w.cell p, next := w.next + 1 }

/-- `setattr(RING[i], f, val)` -/
def putRing (i : Nat) (f : String) (val : Val K) (w : World K) : World K :=
  { w with ring := fun j g => if j = i ∧ g = f then some val else w.ring j g }

/-- `SIG.BPM[i][f] = val` -/
def putSig (i : Nat) (f : String) (val : Val K) (w : World K) : World K :=
  { w with sig := fun j g => if j = i ∧ g = f then some val else w.sig j g }

/-- `setattr(RING[i], f, np.array(v))` -/
def putNew (i : Nat) (f : String) (v : List K) (w : World K) : World K := putRing i f (.arr w.next) (alloc v w)

/-- the object an argument stands for -/
def Arg.val (w : World K) : Arg K → Except Err (Val K)
  | .num x => .ok (.num x)
  | .array n => match w.given[n]? with | some p => .ok (.arr p) | none => .error .indexError
  | .cut n c => match w.given[n]? with | some p => .ok (.cut p c) | none => .error .indexError

/-- pySC/core/constants.py:7 `BPM_ERROR_FIELDS` -/
def bpmErrorFields : List String := ["Noise", "NoiseCO", "Offset", "Roll", "CalError", "SumError"]

/-- `re.search('Noise', field)` for the fields of BPMs -/
def isNoise (f : String) : Bool := f == "Noise" || f == "NoiseCO"

/-- pySC/core/simulated_commissioning.py:130 `SIG.BPM[ind].update(kwargs)` -/
def updateSig (i : Nat) : List (String × Val K) → World K → World K
  | [], w => w
  | (f, v) :: kw, w => updateSig i kw (putSig i f v w)

/-- pySC/core/simulated_commissioning.py:128-139 for one BPM -/
def registerBpm (kw : List (String × Val K)) (i : Nat) (w : World K) : World K :=
  let w := updateSig i kw w
  let w := putNew i "Noise" [0, 0] w
  let w := putNew i "NoiseCO" [0, 0] w
  let w := putNew i "Offset" [0, 0] w
  let w := putNew i "SupportOffset" [0, 0] w
  let w := putRing i "Roll" (.num 0) w
  let w := putRing i "SupportRoll" (.num 0) w
  let w := putNew i "CalError" [0, 0] w
  putRing i "SumError" (.num 0) w

/-- the objects all arguments stand for -/
def resolve (w : World K) : List (String × Arg K) → Except Err (List (String × Val K))
  | [] => .ok []
  | (f, a) :: kw => do
    let v ← a.val w
    let rest ← resolve w kw
    .ok ((f, v) :: rest)

/-- pySC/core/simulated_commissioning.py:125-139 `register_bpms` (`ords` in the order of `np.unique`; the order of `ORD.BPM` is left out) -/
def registerBpms (ords : List Nat) (kw : List (String × Arg K)) : Py (World K) Unit := fun w =>
  match resolve w kw with
  | .error e => .error e w
  | .ok kw => if kw.all (fun p => bpmErrorFields.contains p.1) then
      .ok () (ords.foldl (fun w i => registerBpm kw i w) { w with bpms := w.bpms ++ ords.filter (fun i => !w.bpms.contains i) })
    else .error .valueError w

/-- pySC/core/simulated_commissioning.py:548-552 for one field of one BPM; `rand` are the random numbers of `randn_cutoff`
(pySC/utils/classdef_tools.py:17-20), whose product with the uncertainties is a new array -/
def applyField (rand : Nat → String → Nat → K) (i : Nat) (w : World K) (f : String) : World K :=
  match w.sig i f with
  | none => w
  | some v => if isNoise f then putRing i f v w else
    match v with
    | .num x => putRing i f (.num (x * rand i f 0)) w
    | .arr p => putNew i f ((w.cell p).mapIdx (fun k x => x * rand i f k)) w
    | .cut p _ => putNew i f ((w.cell p).mapIdx (fun k x => x * rand i f k)) w

/-- pySC/core/simulated_commissioning.py:546-552 -/
def applyBpmErrors (rand : Nat → String → Nat → K) (w : World K) : World K :=
  w.bpms.foldl (fun w i => bpmErrorFields.foldl (applyField rand i) w) w

/-- `array[k] = x` -/
def poke (p k : Nat) (x : K) : Py (World K) Unit := fun w =>
  if k < (w.cell p).length then .ok () { w with cell := fun q => if q = p then (w.cell p).set k x else w.cell q }
  else .error .indexError w

/-- `SC.RING[i].f[k] = x` by the user (writing into a list with a cut-off is left out) -/
def pokeRing (i : Nat) (f : String) (k : Nat) (x : K) : Py (World K) Unit := fun w =>
  match w.ring i f with
  | none => .error .attributeError w
  | some (.num _) => .error .typeError w
  | some (.cut _ _) => .error .notImplemented w
  | some (.arr p) => poke p k x w

/-- what a user does -/
inductive Call (K : Type)
  | array (v : List K)
  | register (ords : List Nat) (kw : List (String × Arg K))
  | applyErrors (rand : Nat → String → Nat → K)
  | change (i : Nat) (f : String) (k : Nat) (x : K)
  | changeGiven (n k : Nat) (x : K)
  | assign (i : Nat) (f : String) (v : List K)

def Call.run : Call K → Py (World K) Unit
  | .array v => fun w => .ok () { alloc v w with given := w.given ++ [w.next] }
  | .register ords kw => registerBpms ords kw
  | .applyErrors rand => fun w => .ok () (applyBpmErrors rand w)
  | .change i f k x => pokeRing i f k x
  | .changeGiven n k x => fun w => match w.given[n]? with | some p => poke p k x w | none => .error .indexError w
  | .assign i f v => fun w => .ok () (putNew i f v w)

/-- calls one after the other, also after exceptions -/
def runAll : List (Call K) → World K → World K
  | [], w => w
  | c :: cs, w => runAll cs (c.run w).state

end PySC.Arrays
