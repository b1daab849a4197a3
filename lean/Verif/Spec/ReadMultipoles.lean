import Verif.Spec.Machine
/-
Files with tables of multipoles (C81): rows of a number, the skew and the normal component.
-/
namespace PySC.Spec
variable {K : Type} [Field K]

/-- the words of the file with these rows -/
def fileOf (rows : List (K × K × K)) : List (Option K) := rows.flatMap (fun r => [some r.1, some r.2.1, some r.2.2])

/-- the skew or the normal component of row `n` is one -/
def IsOne (rows : List (K × K × K)) (n : Nat) (skew : Bool) : Prop :=
  ∃ r, rows[n]? = some r ∧ (if skew = true then r.2.1 else r.2.2) = 1

/-- the main component of the magnet: the only one which is one -/
def MainComponent (rows : List (K × K × K)) (n : Nat) (skew : Bool) : Prop :=
  IsOne rows n skew ∧ ∀ m sk, IsOne rows m sk → m = n ∧ sk = skew

end PySC.Spec
