import Verif.Model.MatlabIndex
/-
Models pySC/utils/sc_tools.py `read_multipoles`.
-/
namespace PySC
variable {K : Type} [Field K] [LinearOrder K]

/-- pySC/utils/sc_tools.py:158 `tab.reshape((-1, 3))[:, 1:]` -/
def lastTwoOfThree : List K → List (K × K)
  | _ :: a :: b :: t => (a, b) :: lastTwoOfThree t
  | _ => []

/-- pySC/utils/sc_tools.py:159 `np.where(AB == 1)`: rows and columns -/
def onesOf (AB : List (K × K)) : List (Nat × Nat) :=
  AB.zipIdx.flatMap (fun r => (if r.1.1 = 1 then [(r.2, 0)] else []) ++ (if r.1.2 = 1 then [(r.2, 1)] else []))

/-- pySC/utils/sc_tools.py:153 `float(word)`; `none` stands for a word which is not a number -/
def numberOf : Option K → Except Err K
  | some x => .ok x
  | none => .error .valueError

/-- pySC/utils/sc_tools.py:151-167 `read_multipoles`, given the words of the file.  The result `none` stands for `None`.  If there is not exactly one 1, `idx` becomes a number, which can not be subscripted.  The column
found is never beyond 2. -/
def readMultipoles (words : List (Option K)) : Except Err (Option (List (K × K) × Nat × Nat)) := do
  let tab ← words.mapM numberOf
  if tab.length % 3 ≠ 0 then .ok none
  else match onesOf (lastTwoOfThree tab) with
    | [(order, type)] => .ok (some ((lastTwoOfThree tab).map Prod.swap, order, type))
    | _ => .error .typeError

end PySC
