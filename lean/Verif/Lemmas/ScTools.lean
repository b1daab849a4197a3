import Verif.Spec.ScTools
import Verif.Lemmas.Py
import Mathlib.Tactic.Ring
import Mathlib.Tactic.FieldSimp
import Mathlib.Data.Matrix.Diagonal
/-
Proofs about the tools.
-/
namespace PySC
set_option linter.unusedSectionVars false
open Spec

section pinv
variable {K : Type} [Field K] [LinearOrder K]

theorem available_eq_card {k : Nat} (s : Fin k → K) : available s = (Finset.univ.filter (fun i => 0 < s i)).card := by
  unfold available
  rw [← List.toFinset_card_of_nodup ((List.nodup_finRange k).filter _)]
  congr 1
  ext i
  simp

theorem lt_available {k : Nat} {s : Fin k → K} (hs : ∀ i j, i ≤ j → s j ≤ s i) (i : Fin k) :
    i.1 < available s ↔ 0 < s i := by
  rw [available_eq_card]
  constructor
  · intro h
    by_contra hn
    have : (Finset.univ.filter (fun i => 0 < s i)) ⊆ Finset.univ.filter (fun j : Fin k => j < i) := by
      intro j hj
      simp only [Finset.mem_filter, Finset.mem_univ, true_and] at hj ⊢
      by_contra hji
      exact hn (lt_of_lt_of_le hj (hs i j (not_lt.1 hji)))
    have hc := Finset.card_le_card this
    rw [show (Finset.univ.filter (fun j : Fin k => j < i)) = Finset.Iio i by ext; simp, Fin.card_Iio] at hc
    omega
  · intro h
    have : Finset.Iic i ⊆ Finset.univ.filter (fun i => 0 < s i) := by
      intro j hj
      simp only [Finset.mem_filter, Finset.mem_univ, true_and, Finset.mem_Iic] at hj ⊢
      exact lt_of_lt_of_le h (hs j i hj)
    have hc := Finset.card_le_card this
    rw [Fin.card_Iic] at hc
    omega

theorem sum_take {k : Nat} (c : Nat) (g : Fin k → K) :
    (((List.finRange k).take c).map g).sum = ∑ i, if i.1 < c then g i else 0 := by
  have h1 : ∑ i, (if i.1 < c then g i else 0) = ((List.finRange k).map (fun i => if i.1 < c then g i else 0)).sum := by
    rw [Fin.sum_univ_def]
  rw [h1, ← List.take_append_drop c (List.finRange k), List.map_append, List.sum_append]
  have h2 : ((List.finRange k).take c).map (fun i => if i.1 < c then g i else 0) = ((List.finRange k).take c).map g := by
    refine List.map_congr_left (fun i hi => ?_)
    obtain ⟨j, hj, rfl⟩ := List.getElem_of_mem hi
    simp only [List.getElem_take, List.getElem_finRange, List.length_take] at hj ⊢
    rw [if_pos]
    simp only [Fin.val_cast]
    omega
  have h3 : (((List.finRange k).drop c).map (fun i => if i.1 < c then g i else 0)).sum = 0 := by
    refine List.sum_eq_zero (fun x hx => ?_)
    obtain ⟨i, hi, rfl⟩ := List.mem_map.1 hx
    obtain ⟨j, hj, rfl⟩ := List.getElem_of_mem hi
    simp
  rw [List.take_append_drop, h2, h3, add_zero]

/-- the matrix with the given values in place of the singular values, in the direction of the inverse -/
def spreadDiag {m n k : Nat} (d : Svd K m n k) (f : Fin k → K) : Matrix (Fin n) (Fin m) K :=
  d.vt.transpose * Matrix.diagonal f * d.u.transpose

theorem spread_apply {m n k : Nat} (d : Svd K m n k) (f : Fin k → K) (a : Fin n) (b : Fin m) :
    spreadDiag d f a b = ∑ i, d.vt i a * f i * d.u b i := by
  unfold spreadDiag
  rw [Matrix.mul_apply]
  refine Finset.sum_congr rfl (fun i _ => ?_)
  rw [Matrix.mul_diagonal]; rfl

theorem sliceLen_keep {k : Nat} {s : Fin k → K} (hs : ∀ i j, i ≤ j → s j ≤ s i) {nr : Int} (h0 : 0 ≤ nr) (h1 : nr ≤ k) (i : Fin k) :
    i.1 < sliceLen k (keepStop s nr) ↔ (0 < s i ∧ (i.1 : Int) < k - nr) := by
  rw [← lt_available hs]
  unfold sliceLen keepStop
  have := i.2
  have ha : available s ≤ k := by
    rw [available_eq_card]
    exact (Finset.card_le_univ _).trans (by simp)
  split_ifs <;> omega

theorem pinvOf_eq {m n k : Nat} (d : Svd K m n k) (hs : ∀ i j, i ≤ j → d.s j ≤ d.s i) {nr : Int} (h0 : 0 ≤ nr) (h1 : nr ≤ k)
    (alpha damping : K) :
    pinvOf d nr alpha damping = spreadDiag d (fun i => if 0 < d.s i ∧ (i.1 : Int) < k - nr then
      damping * (if alpha ≠ 0 then d.s i / (d.s i ^ 2 + alpha ^ 2) else 1 / d.s i) else 0) := by
  ext a b
  rw [spread_apply]
  unfold pinvOf
  rw [sum_take]
  refine Finset.sum_congr rfl (fun i _ => ?_)
  by_cases hi : i.1 < sliceLen k (keepStop d.s nr)
  · have hi' := (sliceLen_keep hs h0 h1 i).1 hi
    rw [if_pos hi, if_pos hi']
    unfold invertedValues
    rw [if_pos ((lt_available hs i).2 hi'.1)]
  · rw [if_neg hi, if_neg (fun h => hi ((sliceLen_keep hs h0 h1 i).2 h))]
    ring

/-- more values to be removed than there are: the end of the slices is negative -/
theorem sliceLen_too_many {k : Nat} {s : Fin k → K} {nr : Int} (h1 : (k : Int) < nr) : sliceLen k (keepStop s nr) = (2 * k - nr).toNat := by
  unfold sliceLen keepStop
  split_ifs <;> omega

theorem pinvOf_too_many {m n k : Nat} (d : Svd K m n k) (hs : ∀ i j, i ≤ j → d.s j ≤ d.s i) {nr : Int} (h1 : (k : Int) < nr)
    (alpha damping : K) :
    pinvOf d nr alpha damping = spreadDiag d (fun i => if 0 < d.s i ∧ (i.1 : Int) < 2 * k - nr then
      damping * (if alpha ≠ 0 then d.s i / (d.s i ^ 2 + alpha ^ 2) else 1 / d.s i) else 0) := by
  ext a b
  rw [spread_apply]
  unfold pinvOf
  rw [sum_take, sliceLen_too_many h1]
  refine Finset.sum_congr rfl (fun i _ => ?_)
  unfold invertedValues
  by_cases hi : (i.1 : Int) < 2 * k - nr
  · rw [if_pos (by omega)]
    by_cases h0 : 0 < d.s i
    · rw [if_pos ((lt_available hs i).2 h0), if_pos (And.intro h0 hi)]
    · rw [if_neg (fun h => h0 ((lt_available hs i).1 h)), if_neg (fun h => h0 h.1)]
      simp
  · rw [if_neg (by omega), if_neg (fun h => hi h.2)]
    ring

/-- the matrix with the given values in place of the singular values -/
def unspread {m n k : Nat} (d : Svd K m n k) (f : Fin k → K) : Matrix (Fin m) (Fin n) K :=
  d.u * Matrix.diagonal f * d.vt

variable {m n k : Nat} {d : Svd K m n k} {a : Matrix (Fin m) (Fin n) K}

theorem unspread_mul_spread (hr : d.vt * d.vt.transpose = 1) (g f : Fin k → K) :
    unspread d g * spreadDiag d f = d.u * Matrix.diagonal (fun i => g i * f i) * d.u.transpose := by
  unfold unspread spreadDiag
  rw [← Matrix.diagonal_mul_diagonal]
  calc d.u * Matrix.diagonal g * d.vt * (d.vt.transpose * Matrix.diagonal f * d.u.transpose)
      = d.u * Matrix.diagonal g * (d.vt * d.vt.transpose) * Matrix.diagonal f * d.u.transpose := by
        simp only [Matrix.mul_assoc]
    _ = _ := by rw [hr, Matrix.mul_one]; simp only [Matrix.mul_assoc]

theorem spread_mul_unspread (hl : d.u.transpose * d.u = 1) (g f : Fin k → K) :
    spreadDiag d f * unspread d g = d.vt.transpose * Matrix.diagonal (fun i => f i * g i) * d.vt := by
  unfold unspread spreadDiag
  rw [← Matrix.diagonal_mul_diagonal]
  calc d.vt.transpose * Matrix.diagonal f * d.u.transpose * (d.u * Matrix.diagonal g * d.vt)
      = d.vt.transpose * Matrix.diagonal f * (d.u.transpose * d.u) * Matrix.diagonal g * d.vt := by
        simp only [Matrix.mul_assoc]
    _ = _ := by rw [hl, Matrix.mul_one]; simp only [Matrix.mul_assoc]

theorem left_mul_unspread (hl : d.u.transpose * d.u = 1) (g f : Fin k → K) :
    d.u * Matrix.diagonal f * d.u.transpose * unspread d g = unspread d (fun i => f i * g i) := by
  unfold unspread
  rw [← Matrix.diagonal_mul_diagonal]
  calc d.u * Matrix.diagonal f * d.u.transpose * (d.u * Matrix.diagonal g * d.vt)
      = d.u * Matrix.diagonal f * (d.u.transpose * d.u) * Matrix.diagonal g * d.vt := by
        simp only [Matrix.mul_assoc]
    _ = _ := by rw [hl, Matrix.mul_one]; simp only [Matrix.mul_assoc]

theorem right_mul_spread (hr : d.vt * d.vt.transpose = 1) (g f : Fin k → K) :
    d.vt.transpose * Matrix.diagonal f * d.vt * spreadDiag d g = spreadDiag d (fun i => f i * g i) := by
  unfold spreadDiag
  rw [← Matrix.diagonal_mul_diagonal]
  calc d.vt.transpose * Matrix.diagonal f * d.vt * (d.vt.transpose * Matrix.diagonal g * d.u.transpose)
      = d.vt.transpose * Matrix.diagonal f * (d.vt * d.vt.transpose) * Matrix.diagonal g * d.u.transpose := by
        simp only [Matrix.mul_assoc]
    _ = _ := by rw [hr, Matrix.mul_one]; simp only [Matrix.mul_assoc]

theorem sandwich_transpose {p q : Nat} (v : Matrix (Fin p) (Fin q) K) (f : Fin q → K) :
    (v * Matrix.diagonal f * v.transpose).transpose = v * Matrix.diagonal f * v.transpose := by
  rw [Matrix.transpose_mul, Matrix.transpose_mul, Matrix.transpose_transpose, Matrix.diagonal_transpose, Matrix.mul_assoc]

theorem sandwich_transpose' {p q : Nat} (v : Matrix (Fin q) (Fin p) K) (f : Fin q → K) :
    (v.transpose * Matrix.diagonal f * v).transpose = v.transpose * Matrix.diagonal f * v := by
  rw [Matrix.transpose_mul, Matrix.transpose_mul, Matrix.transpose_transpose, Matrix.diagonal_transpose, Matrix.mul_assoc]

/-- reciprocal values give the pseudo-inverse -/
theorem spread_pseudoInverse (hl : d.u.transpose * d.u = 1) (hr : d.vt * d.vt.transpose = 1) {g f : Fin k → K}
    (h1 : ∀ i, g i * f i * g i = g i) (h2 : ∀ i, f i * g i * f i = f i) : IsPseudoInverse (unspread d g) (spreadDiag d f) := by
  refine ⟨?_, ?_, ?_, ?_⟩
  · rw [unspread_mul_spread hr, left_mul_unspread hl]
    congr 1; funext i; exact h1 i
  · rw [spread_mul_unspread hl, right_mul_spread hr]
    congr 1; funext i; exact h2 i
  · rw [unspread_mul_spread hr, sandwich_transpose]
  · rw [spread_mul_unspread hl, sandwich_transpose']

theorem spread_smul (c : K) (f : Fin k → K) : spreadDiag d (fun i => c * f i) = c • spreadDiag d f := by
  ext a b
  rw [Matrix.smul_apply, spread_apply, spread_apply, smul_eq_mul, Finset.mul_sum]
  refine Finset.sum_congr rfl (fun i _ => ?_)
  ring

end pinv

/-! ### Padded addition -/

section padded
variable {K : Type} [Field K] [LinearOrder K]

theorem addPrefix_length (s v : List K) (h : v.length ≤ s.length) : (addPrefix s v).length = s.length := by
  induction s generalizing v with
  | nil => cases v with
    | nil => rfl
    | cons _ _ => simp at h
  | cons a s ih => cases v with
    | nil => rfl
    | cons b v => simp only [addPrefix, List.length_cons]; rw [ih v (by simpa using h)]

theorem addPrefix_padded (s v : List K) (h : v.length ≤ s.length) (i : Nat) :
    padded (addPrefix s v) i = padded s i + padded v i := by
  induction s generalizing v i with
  | nil => cases v with
    | nil => simp [addPrefix, padded]
    | cons _ _ => simp at h
  | cons a s ih => cases v with
    | nil => simp [addPrefix, padded]
    | cons b v =>
      cases i with
      | zero => simp [addPrefix, padded]
      | succ i => simpa [addPrefix, padded] using ih v (by simpa using h) i

theorem padded_zeros (n i : Nat) : padded (List.replicate n (0 : K)) i = 0 := by
  unfold padded
  rw [List.getD_eq_getElem?_getD, List.getElem?_replicate]
  split <;> rfl

theorem padded_ext {v w : List K} (hl : v.length = w.length) (h : ∀ i, padded v i = padded w i) : v = w := by
  refine List.ext_getElem hl (fun i h1 h2 => ?_)
  have := h i
  unfold padded at this
  rwa [List.getD_eq_getElem?_getD, List.getD_eq_getElem?_getD, List.getElem?_eq_getElem h1, List.getElem?_eq_getElem h2] at this

end padded

/-! ### Dictionaries -/

theorem dotEntries_eq_map {α : Type} (e : List (String × DVal α)) : dotEntries e = e.map (fun p => (p.1, dotValue p.2)) := by
  induction e with
  | nil => rfl
  | cons p e ih => obtain ⟨k, v⟩ := p; rw [dotEntries, ih]; rfl

mutual
theorem dotEntries_allDot {α : Type} : ∀ e : List (String × DVal α), ∀ p ∈ dotEntries e, AllDot p.2
  | [], p, h => by simp [dotEntries] at h
  | (k, v) :: r, p, h => by
    rw [dotEntries] at h
    rcases List.mem_cons.1 h with rfl | h
    · exact dotValue_allDot v
    · exact dotEntries_allDot r p h
theorem dotValue_allDot {α : Type} : ∀ v : DVal α, AllDot (dotValue v)
  | .leaf a => AllDot.leaf a
  | .dict _ e => by rw [dotValue]; exact AllDot.dict _ (dotEntries_allDot e)
end

theorem get?_map_snd {β γ : Type} (f : β → γ) (e : List (String × β)) (k : String) :
    Dict.get? (e.map (fun p => (p.1, f p.2))) k = (Dict.get? e k).map f := by
  induction e with
  | nil => rfl
  | cons p e ih =>
    obtain ⟨k', v⟩ := p
    simp only [List.map_cons, Dict.get?]
    split
    · rfl
    · exact ih

theorem dotValue_atPath {α : Type} (v : DVal α) (path : List String) : atPath (dotValue v) path = (atPath v path).map dotValue := by
  induction path generalizing v with
  | nil => rfl
  | cons k ks ih =>
    cases v with
    | leaf a => rfl
    | dict b e =>
      simp only [dotValue, atPath]
      rw [dotEntries_eq_map, get?_map_snd]
      cases Dict.get? e k with
      | none => rfl
      | some w => exact ih w

theorem dotValue_shown {α : Type} (v : DVal α) : shown (dotValue v) = shown v := by
  cases v with
  | leaf a => rfl
  | dict b e =>
    simp only [dotValue, shown, Dict.keys]
    rw [dotEntries_eq_map, List.map_map]; rfl

end PySC
