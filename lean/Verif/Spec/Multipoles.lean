import Verif.Spec.Fields
import Mathlib.Algebra.Order.Field.Basic
/-
Tables of multipole errors (C56, C57): one row (normal, skew) per multipole.
-/
namespace PySC.Spec
variable {K : Type} [Field K] [LinearOrder K]

/-- entry of letter `ab` ("B" normal, "A" skew) of multipole `k`, 0 beyond the end of the table -/
def entry (t : List (K × K)) (ab : String) (k : Nat) : K :=
  match t[k]? with
  | none => 0
  | some p => if ab = "B" then p.1 else p.2

/-- a table of random errors: as long as the table of amplitudes, every entry within two times its amplitude -/
def Within2 (BA t : List (K × K)) : Prop :=
  t.length = BA.length ∧ ∀ ab ∈ ["A", "B"], ∀ k, |entry t ab k| ≤ 2 * |entry BA ab k|

end PySC.Spec
