import Verif.Spec.ScTools
import Verif.Spec.Multipoles
/-
The conventions of the Matlab toolkit SC (C77).
-/
namespace PySC.Spec
variable {K : Type} [Field K] [LinearOrder K]

/-- planes are numbered: 1 horizontal, 2 vertical (`true`) -/
def verticalOf (nDim : Int) : Option Bool := if nDim = 1 then some false else if nDim = 2 then some true else none

/-- kinds of multipoles are numbered as the columns of tables `[A B]`: 1 skew (`true`), 2 normal -/
def skewOf (type : Int) : Option Bool := if type = 1 then some true else if type = 2 then some false else none

/-- entry of letter `ab` of multipole `k`, counted from zero, of a table with the columns `[A B]`, 0 beyond its end -/
def entryAB (t : List (K × K)) (ab : String) (k : Nat) : K :=
  match t[k]? with
  | none => 0
  | some p => if ab = "A" then p.1 else p.2

/-- the rows of a matrix, as arrays are given in the model -/
def rowsOf {m n : Nat} (a : Matrix (Fin m) (Fin n) K) : List (List K) := List.ofFn (fun i => List.ofFn (a i))

end PySC.Spec
