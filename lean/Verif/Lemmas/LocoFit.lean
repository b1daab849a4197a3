import Verif.Lemmas.LocoSelect
import Verif.Lemmas.ScTools
import Verif.Props.ScTools
import Mathlib.LinearAlgebra.Matrix.NonsingularInverse
/-
The linear algebra of the fit.
-/
set_option linter.unusedSectionVars false
namespace PySC
open Spec
variable {K : Type} [Field K] [LinearOrder K] {m c : Nat}

theorem combination_nil (J : List (Matrix (Fin m) (Fin c) K)) : combination [] J = 0 := rfl
theorem combination_cons (x : K) (p : List K) (M : Matrix (Fin m) (Fin c) K) (J : List (Matrix (Fin m) (Fin c) K)) :
    combination (x :: p) (M :: J) = x • M + combination p J := by simp [combination]

theorem combination_sub {p q : List K} {J : List (Matrix (Fin m) (Fin c) K)} (hp : p.length = J.length) (hq : q.length = J.length) :
    combination (List.zipWith (· - ·) p q) J = combination p J - combination q J := by
  induction J generalizing p q with
  | nil => simp [combination]
  | cons M J ih =>
    cases p with
    | nil => simp at hp
    | cons x p =>
      cases q with
      | nil => simp at hq
      | cons y q =>
        rw [List.zipWith_cons_cons, combination_cons, combination_cons, combination_cons, ih (by simpa using hp) (by simpa using hq), sub_smul]
        abel

theorem eq_of_sub_zero {p q : List K} (hl : p.length = q.length) (h : ∀ x ∈ List.zipWith (· - ·) p q, x = 0) : p = q := by
  induction p generalizing q with
  | nil => cases q <;> simp at hl ⊢
  | cons x p ih =>
    cases q with
    | nil => simp at hl
    | cons y q =>
      rw [List.zipWith_cons_cons] at h
      have h0 := h _ List.mem_cons_self
      rw [sub_eq_zero.1 h0, ih (by simpa using hl) (fun z hz => h z (List.mem_cons_of_mem _ hz))]

theorem objective_eq {sqrt : K → K} {p : List K} {R : Matrix (Fin m) (Fin c) K} {J : List (Matrix (Fin m) (Fin c) K)} {W : Matrix (Fin m) (Fin m) K}
    (h : p.length = J.length) : objective sqrt p R J W = .ok ((R - combination p J).transpose * W.map sqrt) := by
  unfold objective
  rw [if_neg (not_not.2 h)]; rfl

theorem objective_eq_ok {sqrt : K → K} {p : List K} {R : Matrix (Fin m) (Fin c) K} {J : List (Matrix (Fin m) (Fin c) K)} {W : Matrix (Fin m) (Fin m) K}
    {y : Matrix (Fin c) (Fin m) K} (h : objective sqrt p R J W = .ok y) :
    p.length = J.length ∧ y = (R - combination p J).transpose * W.map sqrt := by
  by_cases hl : p.length = J.length
  · rw [objective_eq hl] at h; cases h; exact ⟨hl, rfl⟩
  · unfold objective at h; rw [if_pos hl] at h; cases h

theorem squares_zero [IsStrictOrderedRing K] {A : Matrix (Fin c) (Fin m) K} (h : squares A ≤ 0) : A = 0 := by
  have hn : ∀ a ∈ Finset.univ, (0 : K) ≤ ∑ b, A a b ^ 2 := fun a _ => Finset.sum_nonneg (fun b _ => sq_nonneg _)
  have h0 : squares A = 0 := le_antisymm h (Finset.sum_nonneg hn)
  ext a b
  have h1 := (Finset.sum_eq_zero_iff_of_nonneg hn).1 h0 a (Finset.mem_univ _)
  have h2 := (Finset.sum_eq_zero_iff_of_nonneg (fun b _ => sq_nonneg (A a b))).1 h1 b (Finset.mem_univ _)
  simpa using h2

theorem squares_nonneg [IsStrictOrderedRing K] (A : Matrix (Fin c) (Fin m) K) : 0 ≤ squares A :=
  Finset.sum_nonneg (fun _ _ => Finset.sum_nonneg (fun _ _ => sq_nonneg _))

theorem combination_apply {q : List K} {J : List (Matrix (Fin m) (Fin c) K)} (h : q.length = J.length) (a : Fin m) (b : Fin c) :
    combination q J a b = ∑ i : Fin J.length, q.getD i.1 0 * J.get i a b := by
  induction J generalizing q with
  | nil => cases q with
    | nil => simp [combination]
    | cons => simp at h
  | cons M J ih =>
    cases q with
    | nil => simp at h
    | cons x q =>
      rw [combination_cons, Matrix.add_apply, Matrix.smul_apply, smul_eq_mul, ih (by simpa using h)]
      exact (Fin.sum_univ_succ (n := J.length) (fun i => (x :: q).getD i.1 0 * (M :: J).get i a b)).symm

/-- sums over correctors of a combination -/
theorem combination_sums {q : List K} {J : List (Matrix (Fin m) (Fin c) K)} (h : q.length = J.length) (a : Fin m) :
    ∑ b, combination q J a b = ((columnSums J).transpose.mulVec (fun i => q.getD i.1 0)) a := by
  simp only [combination_apply h, Matrix.mulVec, dotProduct, Matrix.transpose_apply, columnSums]
  rw [Finset.sum_comm]
  refine Finset.sum_congr rfl (fun i _ => ?_)
  rw [Finset.sum_mul]
  exact Finset.sum_congr rfl (fun b _ => mul_comm _ _)

theorem sum_sum_mul {n : Nat} (A B : Matrix (Fin m) (Fin c) K) : ∑ a, ∑ b, (A.transpose * B) a b = ∑ k, (∑ a, A k a) * (∑ b, B k b) := by
  simp only [Matrix.mul_apply, Matrix.transpose_apply]
  rw [Finset.sum_congr rfl (fun a _ => Finset.sum_comm), Finset.sum_comm]
  refine Finset.sum_congr rfl (fun k _ => ?_)
  rw [Finset.sum_mul_sum]

/-- a Gram matrix of independent rows has a trivial kernel -/
theorem gram_injective [IsStrictOrderedRing K] {n : Nat} (A : Matrix (Fin n) (Fin m) K)
    (h : ∀ v : Fin n → K, A.transpose.mulVec v = 0 → v = 0) (v : Fin n → K) (hv : (A * A.transpose).mulVec v = 0) : v = 0 := by
  apply h
  have h1 : dotProduct (A.transpose.mulVec v) (A.transpose.mulVec v) = 0 := by
    rw [← Matrix.mulVec_mulVec] at hv
    have : dotProduct v (A.mulVec (A.transpose.mulVec v)) = 0 := by rw [hv]; simp
    rw [Matrix.dotProduct_mulVec, ← Matrix.mulVec_transpose] at this
    exact this
  funext a
  have h2 := (Finset.sum_eq_zero_iff_of_nonneg (fun b _ => mul_self_nonneg (A.transpose.mulVec v b))).1 h1 a (Finset.mem_univ _)
  simpa using h2

theorem pseudo_left_inverse {n : Nat} {a x : Matrix (Fin n) (Fin n) K} (hx : IsPseudoInverse a x)
    (hi : ∀ v : Fin n → K, a.mulVec v = 0 → v = 0) (v : Fin n → K) : x.mulVec (a.mulVec v) = v := by
  have : a.mulVec (x.mulVec (a.mulVec v) - v) = 0 := by
    rw [Matrix.mulVec_sub, Matrix.mulVec_mulVec, Matrix.mulVec_mulVec, hx.inner, sub_self]
  exact sub_eq_zero.1 (hi _ this)

theorem ofGroups_all {α : Type} {fit : List String} {lengths : Nat × Nat × Nat} (l : List α) (h : ∀ i, groupOf lengths i ∈ fit) :
    ofGroups fit lengths l = l := by
  unfold ofGroups
  rw [List.filter_eq_self.2 (by intro p _; simp [h])]
  simp [List.zipIdx_map_fst]

end PySC
