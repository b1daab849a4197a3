import Verif.Model.ScTools
import Mathlib.LinearAlgebra.Matrix.ConjTranspose
/-
Tools (C47, C48, C60, C61).
-/
namespace PySC.Spec

section
variable {K : Type} [Field K] [LinearOrder K]

/-- entry `i` of a vector continued by zeros -/
def padded (v : List K) (i : Nat) : K := v.getD i 0

/-- `d` is a thin singular value decomposition of `a`, as `np.linalg.svd` returns it: orthonormal columns of `u` and rows of `vt`,
singular values not negative and not increasing. -/
structure IsSvd {m n k : Nat} (a : Matrix (Fin m) (Fin n) K) (d : Svd K m n k) : Prop where
  product : a = d.u * Matrix.diagonal d.s * d.vt
  left : d.u.transpose * d.u = 1
  right : d.vt * d.vt.transpose = 1
  nonneg : ∀ i, 0 ≤ d.s i
  sorted : ∀ i j, i ≤ j → d.s j ≤ d.s i

/-- the Moore-Penrose inverse -/
structure IsPseudoInverse {m n : Nat} (a : Matrix (Fin m) (Fin n) K) (x : Matrix (Fin n) (Fin m) K) : Prop where
  inner : a * x * a = a
  outer : x * a * x = x
  left : (a * x).transpose = a * x
  right : (x * a).transpose = x * a

end

/-- every dictionary inside is a `DotDict` -/
inductive AllDot {α : Type} : DVal α → Prop
  | leaf (a : α) : AllDot (.leaf a)
  | dict (e : List (String × DVal α)) (h : ∀ p ∈ e, AllDot p.2) : AllDot (.dict true e)

/-- the value at the end of a path of keys -/
def atPath {α : Type} : DVal α → List String → Option (DVal α)
  | v, [] => some v
  | .leaf _, _ :: _ => none
  | .dict _ e, k :: ks => (Dict.get? e k).bind (fun v => atPath v ks)

/-- what a value shows of itself: the entry, or the keys of the dictionary -/
def shown {α : Type} : DVal α → α ⊕ List String
  | .leaf a => .inl a
  | .dict _ e => .inr (Dict.keys e)

end PySC.Spec
