import Verif.Model.Py
import Mathlib.Algebra.Order.Field.Basic
import Mathlib.Algebra.Order.Floor.Defs
import Mathlib.Algebra.Order.Group.Abs
/-
Data of a `SimulatedCommissioning` object and the numpy / pyAT primitives used by the code.
Floats are idealised as elements of a linearly ordered field `K`; see DESIGN.md.
-/
namespace PySC

/-- A limit value (`CMlimit`, `SkewQuadLimit`): finite or `np.inf`.  (`-np.inf` has the same absolute value as
`np.inf` and is identified with it.) -/
inductive Lim (K : Type _) where
  | fin (x : K)
  | inf
  deriving DecidableEq, Repr

/-- Attribute values of AT elements and values of keyword arguments.  `pair v c` is the Python list
`[v, cut_off]` by which a sigma can be given together with its own cut-off. -/
inductive Attr (K : Type _) where
  | str (s : String)
  | num (x : K)
  | int (n : Int)
  | flag (b : Bool)
  | vec (v : List K)
  | mat (m : List (List K))
  | lim (l : Lim K)
  | lims (l : List (Lim K))
  | ords (l : List Nat)
  | ordMat (m : List (List Nat))
  | multip (d : List (Nat × List K))
  | pair (v : Attr K) (cut : K)
  deriving DecidableEq, Repr

/-- Python dictionaries: association lists in insertion order. -/
abbrev Dict (κ v : Type _) := List (κ × v)

namespace Dict
variable {κ v : Type _} [DecidableEq κ]
/-- `d.get(k)` -/
def get? (d : Dict κ v) (k : κ) : Option v :=
  match d with
  | [] => none
  | (k', x) :: r => if k' = k then some x else get? r k
/-- `d[k] = x` (an existing key keeps its place, a new key is appended) -/
def set (d : Dict κ v) (k : κ) (x : v) : Dict κ v :=
  match d with
  | [] => [(k, x)]
  | (k', y) :: r => if k' = k then (k', x) :: r else (k', y) :: set r k x
/-- `d.update(e)` -/
def update (d e : Dict κ v) : Dict κ v := e.foldl (fun d p => set d p.1 p.2) d
/-- `d.keys()` -/
def keys (d : Dict κ v) : List κ := d.map Prod.fst
/-- `k in d` -/
def has (d : Dict κ v) (k : κ) : Bool := decide (k ∈ keys d)
end Dict

/-- An AT element: its attributes. -/
def Elem (K : Type _) := String → Option (Attr K)

namespace Elem
variable {K : Type _}
/-- `setattr(e, a, v)` -/
def set (e : Elem K) (a : String) (v : Attr K) : Elem K := fun b => if b = a then some v else e b
/-- `hasattr(e, a)` -/
def has (e : Elem K) (a : String) : Bool := (e a).isSome
/-- an element without attributes -/
def empty : Elem K := fun _ => none
/-- an element with the given attributes (later entries win) -/
def ofList (l : List (String × Attr K)) : Elem K := l.foldl (fun e p => e.set p.1 p.2) empty
end Elem

/-- `at.Lattice` -/
abbrev Ring (K : Type _) := List (Elem K)

namespace Ring
variable {K : Type _}
/-- `getattr(ring[i], a, None)` -/
def attr (r : Ring K) (i : Nat) (a : String) : Option (Attr K) := r[i]?.bind (fun e => e a)
/-- `setattr(ring[i], a, v)` for a valid `i` -/
def setAttr (r : Ring K) (i : Nat) (a : String) (v : Attr K) : Ring K := r.modify i (fun e => e.set a v)
end Ring

/-- pySC/core/classes.py:35-93 `Injection` (without `postFun`, which is the identity unless the user replaces it;
it is a parameter of the beam model). -/
structure Inj (K : Type _) where
  beamLostAt : K
  Z0ideal : List K
  Z0 : List K
  beamSize : List (List K)
  randomInjectionZ : List K
  staticInjectionZ : List K
  nParticles : Nat
  nTurns : Nat
  nShots : Nat
  trackMode : String

/-- pySC/core/classes.py:134-163 `Sigmas`.  The nested dictionaries map ordinates to (name, uncertainty) dictionaries. -/
structure Sigs (K : Type _) where
  BPM : Dict Nat (Dict String (Attr K))
  Magnet : Dict Nat (Dict String (Attr K))
  RF : Dict Nat (Dict String (Attr K))
  Support : Dict Nat (Dict String (Attr K))
  randomInjectionZ : List K
  staticInjectionZ : List K
  Circumference : K

/-- pySC/core/classes.py:96-131 `Indices`.  The 2 x n support arrays are lists of their columns (start, end). -/
structure Ords where
  BPM : List Nat
  RF : List Nat
  Magnet : List Nat
  SkewQuad : List Nat
  HCM : List Nat
  VCM : List Nat
  Girder : List (Nat × Nat)
  Plinth : List (Nat × Nat)
  Section : List (Nat × Nat)
  deriving DecidableEq, Repr

/-- pySC/core/simulated_commissioning.py:25-74 `SimulatedCommissioning`.  `rng` is the number of normal deviates
consumed so far (the state of `np.random`); `plot` is ignored. -/
structure SC (K : Type _) where
  RING : Ring K
  IDEALRING : Ring K
  INJ : Inj K
  SIG : Sigs K
  ORD : Ords
  rng : Nat

/-- What the code obtains from outside: the stream of normal deviates, a bound on the iterations of the rejection
sampling loop, and the coordinate transformation computed by `sc_tools.update_transformation` from
(length, bending angle, offsets, rolls) (modelled concretely in `Verif.Model.Transformation`). -/
structure Env (K : Type _) where
  randn : Nat → K
  fuel : Nat
  transform : K → K → List K → List K → Except Err (List K × List K × List (List K) × List (List K))

section Numeric
variable {K : Type _} [Field K] [LinearOrder K]

/-- numpy float division; the inf/nan results of a zero divisor are outside the model. -/
def divE (a b : K) : Except Err K := if b = 0 then .error .nonFinite else .ok (a / b)

/-- `v[i]` -/
def idx {α : Type _} (v : List α) (i : Nat) : Except Err α :=
  match v[i]? with
  | some x => .ok x
  | none => .error .indexError

/-- `np.sign` -/
def npSign (x : K) : K := if x < 0 then -1 else if 0 < x then 1 else 0

/-- elementwise product of two 1-D arrays with numpy broadcasting (pySC/core/simulated_commissioning.py:1075-1076) -/
def bmul (v w : List K) : Except Err (List K) :=
  if v.length = w.length then .ok (List.zipWith (· * ·) v w)
  else if v.length = 1 then .ok (w.map (fun y => v.headD 0 * y))
  else if w.length = 1 then .ok (v.map (fun x => x * w.headD 0))
  else .error .valueError

/-- pySC/utils/classdef_tools.py:23-32 `add_padded` for two 1-D arrays: the longer length, zero padded sum.
(Arrays of different `ndim` are rejected with ValueError before this point, see `Attr.asVec`; for
1-D arrays the check `np.sum(max_dims > 1) > 1` can not fail.) -/
def addPadded : List K → List K → List K
  | [], w => w
  | v, [] => v
  | x :: v, y :: w => (x + y) :: addPadded v w

/-- C-style conversion of a float to an integer (truncation towards zero), which numpy applies when a float is
stored into an integer array. -/
def truncZ [FloorRing K] (x : K) : K := if 0 ≤ x then (⌊x⌋ : K) else (⌈x⌉ : K)

/-- sorted insertion without repetition -/
def insertU (x : Nat) : List Nat → List Nat
  | [] => [x]
  | y :: ys => if x < y then x :: y :: ys else if x = y then y :: ys else y :: insertU x ys

/-- `np.unique` of a 1-D integer array -/
def npUnique (l : List Nat) : List Nat := l.foldr insertU []

end Numeric

namespace Attr
variable {K : Type _}
/-- use as a scalar -/
def toNum : Attr K → Except Err K
  | num x => .ok x
  | _ => .error .typeError
/-- use as a 1-D array -/
def toVec : Attr K → Except Err (List K)
  | vec v => .ok v
  | _ => .error .typeError
/-- use as a 1-D array in `add_padded` (pySC/utils/classdef_tools.py:24-25): a scalar has another `ndim`, ValueError -/
def asVec : Attr K → Except Err (List K)
  | vec v => .ok v
  | num _ => .error .valueError
  | mat _ => .error .valueError
  | _ => .error .typeError
def toStr : Attr K → Except Err String
  | str s => .ok s
  | _ => .error .typeError
def toLims : Attr K → Except Err (List (Lim K))
  | lims l => .ok l
  | _ => .error .typeError
def toLim : Attr K → Except Err (Lim K)
  | lim l => .ok l
  | num x => .ok (.fin x)
  | _ => .error .typeError
def toOrds : Attr K → Except Err (List Nat)
  | ords l => .ok l
  | _ => .error .typeError
def toMultip : Attr K → Except Err (List (Nat × List K))
  | multip d => .ok d
  | _ => .error .typeError
/-- truth value -/
def toFlag : Attr K → Except Err Bool
  | flag b => .ok b
  | _ => .error .typeError
end Attr

/-! ### Read access to `ring[i]` -/
namespace Ring
variable {K : Type _}
/-- `ring[i]` -/
def getE (r : Ring K) (i : Nat) : Except Err (Elem K) :=
  match r[i]? with
  | some e => .ok e
  | none => .error .indexError
/-- `getattr(ring[i], a)` -/
def getA (r : Ring K) (i : Nat) (a : String) : Except Err (Attr K) := do
  let e ← r.getE i
  match e a with
  | some v => .ok v
  | none => .error .attributeError
/-- `hasattr(ring[i], a)` -/
def hasA (r : Ring K) (i : Nat) (a : String) : Except Err Bool := do
  let e ← r.getE i
  .ok (e.has a)
/-- `getattr(ring[i], a)` used as a scalar -/
def getNum (r : Ring K) (i : Nat) (a : String) : Except Err K := do
  let v ← r.getA i a
  v.toNum
/-- `getattr(ring[i], a)` used as a 1-D array -/
def getVec (r : Ring K) (i : Nat) (a : String) : Except Err (List K) := do
  let v ← r.getA i a
  v.toVec
/-- `getattr(ring[i], a)[k]` -/
def getVecAt (r : Ring K) (i : Nat) (a : String) (k : Nat) : Except Err K := do
  let v ← r.getVec i a
  idx v k
/-- `getattr(ring[i], a)` used as a string -/
def getStr (r : Ring K) (i : Nat) (a : String) : Except Err String := do
  let v ← r.getA i a
  v.toStr
end Ring

/-! ### Methods acting on `self.RING` -/
section Access
variable {K : Type _}
open Py

/-- a computation that only reads `self.RING` -/
def rd {α : Type _} (f : Ring K → Except Err α) : Py (SC K) α := fun s =>
  match f s.RING with
  | .ok a => .ok a s
  | .error e => .error e s

/-- `setattr(self.RING[i], a, v)` -/
def setAttr (i : Nat) (a : String) (v : Attr K) : Py (SC K) Unit := do
  let _ ← rd (fun r => r.getE i)
  modify (fun s => { s with RING := s.RING.setAttr i a v })

end Access

/-- `len(ring)+1` longitudinal positions, pySC/utils/at_wrapper.py:42-43 `findspos`
(`at.get_s_pos`: cumulated `Length`, a missing length counting as 0). -/
def lengths {K : Type _} [Zero K] (r : Ring K) : List K :=
  r.map (fun e => match e "Length" with | some (.num x) => x | _ => 0)

/-- running sums, starting with `acc` -/
def cumsum {K : Type _} [Add K] (acc : K) : List K → List K
  | [] => [acc]
  | x :: xs => acc :: cumsum (acc + x) xs

/-- pySC/utils/at_wrapper.py:42-43 `findspos` -/
def findspos {K : Type _} [Zero K] [Add K] (r : Ring K) : List K := cumsum 0 (lengths r)

end PySC
