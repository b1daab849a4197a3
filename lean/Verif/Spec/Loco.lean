import Verif.Spec.Response
import Verif.Spec.ScTools
import Verif.Model.Loco
/-
Vocabulary for LOCO (C58, C59, C73).
-/
namespace PySC.Spec

/-- the list `sub` consists of the elements of `l` at the positions 0, `step`, `2 * step`, ... -/
def EverySo {α : Type} (l sub : List α) (step : Nat) : Prop := ∀ (i : Nat), sub[i]? = l[i * step]?

/-- the group parameter number `i` belongs to: first quadrupoles, then correctors, then BPMs -/
def groupOf (lengths : Nat × Nat × Nat) (i : Nat) : String :=
  if i < lengths.1 then "quads" else if i < lengths.1 + lengths.2.1 then "cor" else "bpm"

/-- the elements of a list with one entry per parameter which belong to the groups to be fitted, in order -/
def ofGroups {α : Type} (fit : List String) (lengths : Nat × Nat × Nat) (l : List α) : List α :=
  (l.zipIdx.filter (fun p => decide (groupOf lengths p.2 ∈ fit))).map Prod.fst

variable {K : Type} [Field K] [LinearOrder K]

section
variable {m c : Nat}

/-- `∑ pᵢ Jᵢ` -/
def combination (p : List K) (J : List (Matrix (Fin m) (Fin c) K)) : Matrix (Fin m) (Fin c) K := (List.zipWith (fun x M => x • M) p J).sum

/-- sum of the squares of all entries -/
def squares (A : Matrix (Fin c) (Fin m) K) : K := ∑ a, ∑ b, A a b ^ 2

/-- The solver returns a minimum: whenever it returns, the result has the length of the start and no other point of this length has a
smaller sum of squares. -/
def LeastSquares (solve : (List K → Except Err (Matrix (Fin c) (Fin m) K)) → List K → Except Err (List K)) : Prop :=
  ∀ f x0 x, solve f x0 = .ok x → x.length = x0.length ∧ ∃ y, f x = .ok y ∧
    ∀ x' y', x'.length = x0.length → f x' = .ok y' → squares y ≤ squares y'

/-- the weighted matrices are independent: no parameters but zero leave the residual as it is -/
def Independent (sqrt : K → K) (J : List (Matrix (Fin m) (Fin c) K)) (W : Matrix (Fin m) (Fin m) K) : Prop :=
  ∀ q : List K, q.length = J.length → (combination q J).transpose * W.map sqrt = 0 → ∀ x ∈ q, x = 0

/-- the sums over all correctors are independent -/
def SumsIndependent (J : List (Matrix (Fin m) (Fin c) K)) : Prop :=
  ∀ q : List K, q.length = J.length → (∀ a, ∑ b, combination q J a b = 0) → ∀ x ∈ q, x = 0

end

/-- the machine with the set-point of one multipole of element `o` changed by `d` -/
def withStrength (s : SC K) (o : Nat) (skew : Bool) (order : Nat) (d : K) : SC K :=
  let v := (vecAt s.RING o ("SetPoint" ++ plane skew)).set order (setpoint s.RING o skew order + d)
  { s with RING := s.RING.setAttr o ("SetPoint" ++ plane skew) (.vec v) }

/-- the machine `s` with the lattice `r` as its design -/
def withDesign (s : SC K) (r : Ring K) : SC K := { s with IDEALRING := r }

/-- the lattice the response matrix is taken of when quadrupole `o` is changed by `d`: the model of the machine with this one set-point
changed, or, if asked for, the design lattice -/
def QuadLattice (s : SC K) (useIdeal skew : Bool) (order : Nat) (d : K) (o : Nat) (r : Ring K) : Prop :=
  (useIdeal = true → r = s.IDEALRING) ∧ (useIdeal = false → IsModel (withStrength s o skew order d) r)

/-- entry in row `j` of column `k` (`none` is NaN) -/
def cell (M : List (List (Option K))) (j k : Nat) : Option (Option K) := M[k]?.bind (fun c => c[j]?)

/-- difference of two numbers, NaN if one of them is -/
def minus (y x : Option K) : Option K := y.bind (fun y => x.map (fun x => y - x))

end PySC.Spec
