import Verif.Model.Random
import Mathlib.Data.Matrix.Mul
import Mathlib.Algebra.BigOperators.Fin
/-
pySC/utils/sc_tools.py: pinv, ords_from_regex; pySC/utils/classdef_tools.py: add_padded; pySC/core/classes.py: DotDict.
-/
namespace PySC

/-! ### Padded addition -/

/-- a numpy array: its shape and its entries in C order -/
structure NdArr (K : Type _) where
  shape : List Nat
  data : List K
  deriving DecidableEq, Repr

/-- `s[:len(v)] += v` for one-dimensional arrays, `v` not longer than `s` -/
def addPrefix {K : Type _} [Add K] : List K → List K → List K
  | a :: s, b :: v => (a + b) :: addPrefix s v
  | s, [] => s
  | [], _ :: _ => []

/-- pySC/utils/classdef_tools.py:23-32 `add_padded`.  For arrays without dimension `np.zeros(1.0)` raises TypeError; an array
of two or more dimensions cannot be added in place to a slice of a vector, ValueError. -/
def addPaddedNd {K : Type _} [Field K] (v1 v2 : NdArr K) : Except Err (NdArr K) :=
  if v1.shape.length ≠ v2.shape.length then .error .valueError
  else
    let maxDims := List.zipWith max v1.shape v2.shape
    if 1 < (maxDims.filter (fun d => decide (1 < d))).length then .error .valueError
    else match v1.shape with
      | [] => .error .typeError
      | [_] => .ok ⟨[maxDims.prod], addPrefix (addPrefix (List.replicate maxDims.prod 0) v1.data) v2.data⟩
      | _ => .error .valueError

/-! ### Selection by name -/

section
variable {K : Type _}

/-- `el.FamName` as a string -/
def famName (e : Elem K) : Except Err String :=
  match e "FamName" with
  | some (.str s) => .ok s
  | some _ => .error .typeError
  | none => .error .attributeError

/-- pySC/utils/sc_tools.py:45-64 `ords_from_regex`; `search` is `re.search(regex, ·)` -/
def ordsFromRegex (search : String → Bool) (ring : Ring K) : Except Err (List Nat) := do
  let names ← ring.mapM famName
  .ok (((names.zipIdx).filter (fun p => search p.1)).map Prod.snd)

end

/-! ### Pseudo-inverse -/

section
variable {K : Type _} [Field K] [LinearOrder K]

/-- What `np.linalg.svd(matrix, full_matrices=False)` returns for an `m` x `n` matrix; `k = min(m, n)`. -/
structure Svd (K : Type _) (m n k : Nat) where
  u : Matrix (Fin m) (Fin k) K
  s : Fin k → K
  vt : Matrix (Fin k) (Fin n) K

/-- number of entries of `a[:stop]` if `a` has length `k` -/
def sliceLen (k : Nat) (stop : Int) : Nat := if 0 ≤ stop then min stop.toNat k else (stop + k).toNat

/-- pySC/utils/sc_tools.py:89-90: the number of positive singular values -/
def available {k : Nat} (s : Fin k → K) : Nat := ((List.finRange k).filter (fun i => decide (0 < s i))).length

/-- pySC/utils/sc_tools.py:89-91: the end of the slices -/
def keepStop {k : Nat} (s : Fin k → K) (numRemoved : Int) : Int :=
  min (if 0 < numRemoved then (k : Int) - numRemoved else k) (available s)

/-- pySC/utils/sc_tools.py:92-94: the inverted singular values (the entries used are not zero) -/
def invertedValues {k : Nat} (s : Fin k → K) (alpha damping : K) (i : Fin k) : K :=
  damping * (if i.1 < available s then (if alpha ≠ 0 then s i / (s i ^ 2 + alpha ^ 2) else 1 / s i) else 0)

/-- pySC/utils/sc_tools.py:67-99 `pinv`, from the singular value decomposition on -/
def pinvOf {m n k : Nat} (d : Svd K m n k) (numRemoved : Int) (alpha damping : K) : Matrix (Fin n) (Fin m) K :=
  fun a b => (((List.finRange k).take (sliceLen k (keepStop d.s numRemoved))).map (fun i =>
    d.vt i a * invertedValues d.s alpha damping i * d.u b i)).sum

end

/-! ### Dictionaries with attribute access -/

/-- a value stored in a dictionary: anything else, or a dictionary, which may be a `DotDict` -/
inductive DVal (α : Type) where
  | leaf (a : α)
  | dict (isDot : Bool) (entries : List (String × DVal α))

mutual
/-- pySC/core/classes.py:15-19 `DotDict.__init__` applied to a dictionary -/
def dotEntries {α : Type} : List (String × DVal α) → List (String × DVal α)
  | [] => []
  | (k, v) :: r => (k, dotValue v) :: dotEntries r
/-- pySC/core/classes.py:18-19: values which are dictionaries are converted -/
def dotValue {α : Type} : DVal α → DVal α
  | .leaf a => .leaf a
  | .dict _ e => .dict true (dotEntries e)
end

section
variable {α : Type}

/-- `d[key]` -/
def dotGetItem (d : Dict String (DVal α)) (key : String) : Except Err (DVal α) :=
  match d.get? key with
  | some v => .ok v
  | none => .error .keyError

/-- what `d.key` is: an attribute of the class (a method) or an item -/
inductive Lookup (α : Type) where
  | classAttr
  | item (v : DVal α)

/-- pySC/core/classes.py:24-28: `d.key`.  `__getattr__` is called only if the class has no attribute of that name
(`reserved` are the names of its attributes). -/
def dotGetAttr (reserved : List String) (d : Dict String (DVal α)) (key : String) : Except Err (Lookup α) :=
  if key ∈ reserved then .ok .classAttr
  else match dotGetItem d key with
    | .ok v => .ok (.item v)
    | .error _ => .error .attributeError

/-- `d[key] = v` and pySC/core/classes.py:21: `d.key = v` -/
def dotSet (d : Dict String (DVal α)) (key : String) (v : DVal α) : Dict String (DVal α) := d.set key v

/-- `del d[key]` and pySC/core/classes.py:22: `del d.key` -/
def dotDel (d : Dict String (DVal α)) (key : String) : Except Err (Dict String (DVal α)) :=
  if key ∈ d.keys then .ok (d.filter (fun p => decide (p.1 ≠ key))) else .error .keyError

end
end PySC
