import Verif.Lemmas.Beam
import Verif.Spec.Rf
import Mathlib.Tactic.Ring
import Mathlib.Tactic.LinearCombination
import Mathlib.Tactic.Positivity
import Mathlib.Tactic.FieldSimp
import Mathlib.Tactic.Linarith
import Mathlib.Algebra.Order.BigOperators.Group.List
/-
Straight line fits.
-/
namespace PySC
open Py Spec
set_option linter.unusedSectionVars false
variable {K : Type} [Field K] [LinearOrder K]

theorem sumOf_nil {α : Type} (f : α → K) : sumOf [] f = 0 := rfl
theorem sumOf_cons {α : Type} (a : α) (l : List α) (f : α → K) : sumOf (a :: l) f = f a + sumOf l f := by simp [sumOf]
theorem sumOf_add {α : Type} (l : List α) (f g : α → K) : sumOf l (fun a => f a + g a) = sumOf l f + sumOf l g := by
  induction l with
  | nil => simp [sumOf]
  | cons a l ih => simp only [sumOf_cons, ih]; ring
theorem sumOf_mul {α : Type} (l : List α) (c : K) (f : α → K) : sumOf l (fun a => c * f a) = c * sumOf l f := by
  induction l with
  | nil => simp [sumOf]
  | cons a l ih => simp only [sumOf_cons, ih]; ring
theorem sumOf_congr {α : Type} {l : List α} {f g : α → K} (h : ∀ a ∈ l, f a = g a) : sumOf l f = sumOf l g := by
  unfold sumOf; rw [List.map_congr_left h]
theorem sumOf_nonneg [IsStrictOrderedRing K] {α : Type} {l : List α} {f : α → K} (h : ∀ a ∈ l, 0 ≤ f a) : 0 ≤ sumOf l f := by
  induction l with
  | nil => simp [sumOf]
  | cons a l ih =>
    rw [sumOf_cons]; exact add_nonneg (h a (by simp)) (ih (fun b hb => h b (by simp [hb])))

/-- the misfit in terms of the sums of the normal equations -/
theorem misfit_eq (pts : List (Pt K)) (p q : K) :
    misfit pts p q = sumOf pts (fun t => t.w ^ 2 * t.y ^ 2) + p ^ 2 * sumOf pts (fun t => t.w ^ 2 * t.x ^ 2)
      + q ^ 2 * sumOf pts (fun t => t.w ^ 2) + 2 * p * q * sumOf pts (fun t => t.w ^ 2 * t.x)
      - 2 * p * sumOf pts (fun t => t.w ^ 2 * (t.x * t.y)) - 2 * q * sumOf pts (fun t => t.w ^ 2 * t.y) := by
  induction pts with
  | nil => simp [misfit, sumOf]
  | cons a l ih =>
    simp only [misfit, sumOf_cons] at ih ⊢
    rw [ih]; ring

theorem lineFit_eq_ok {pts : List (Pt K)} {f : Line K} (h : lineFit pts = .ok f) :
    sumOf pts (fun t => t.w ^ 2 * t.x ^ 2) * f.slope + sumOf pts (fun t => t.w ^ 2 * t.x) * f.intercept
      = sumOf pts (fun t => t.w ^ 2 * (t.x * t.y)) ∧
    sumOf pts (fun t => t.w ^ 2 * t.x) * f.slope + sumOf pts (fun t => t.w ^ 2) * f.intercept
      = sumOf pts (fun t => t.w ^ 2 * t.y) ∧
    sumOf pts (fun t => t.w ^ 2) * sumOf pts (fun t => t.w ^ 2 * t.x ^ 2) - sumOf pts (fun t => t.w ^ 2 * t.x) ^ 2 ≠ 0 ∧
    f.varSlope = sumOf pts (fun t => t.w ^ 2) /
      (sumOf pts (fun t => t.w ^ 2) * sumOf pts (fun t => t.w ^ 2 * t.x ^ 2) - sumOf pts (fun t => t.w ^ 2 * t.x) ^ 2) ∧ pts ≠ [] := by
  unfold lineFit at h
  simp only at h
  split at h
  · cases h
  · rename_i hne
    split at h
    · cases h
    · rename_i hD
      cases h
      refine ⟨?_, ?_, hD, rfl, by simpa using hne⟩ <;>
        rw [← mul_div_assoc, ← mul_div_assoc, ← add_div, div_eq_iff hD] <;> ring

variable [IsStrictOrderedRing K]

/-- the solution of the normal equations minimises the misfit -/
theorem lineFit_best {pts : List (Pt K)} {f : Line K} (h : lineFit pts = .ok f) : BestLine pts f.slope f.intercept := by
  obtain ⟨h1, h2, -⟩ := lineFit_eq_ok h
  intro p q
  have h3 : 0 ≤ sumOf pts (fun t => (t.w * ((p - f.slope) * t.x + (q - f.intercept))) ^ 2) :=
    sumOf_nonneg (fun a _ => sq_nonneg _)
  have h4 : sumOf pts (fun t => (t.w * ((p - f.slope) * t.x + (q - f.intercept))) ^ 2) =
      (p - f.slope) ^ 2 * sumOf pts (fun t => t.w ^ 2 * t.x ^ 2) + (q - f.intercept) ^ 2 * sumOf pts (fun t => t.w ^ 2)
        + 2 * (p - f.slope) * (q - f.intercept) * sumOf pts (fun t => t.w ^ 2 * t.x) := by
    clear h3 h h1 h2
    induction pts with
    | nil => simp [sumOf]
    | cons a l ih => simp only [sumOf_cons]; rw [ih]; ring
  rw [misfit_eq, misfit_eq]
  rw [h4] at h3
  rw [← h1, ← h2]
  nlinarith [h3]

omit [IsStrictOrderedRing K] in
/-- points on a line are fitted by this line -/
theorem lineFit_exact {pts : List (Pt K)} {f : Line K} (h : lineFit pts = .ok f) {a b : K}
    (hl : ∀ t ∈ pts, t.y = a * t.x + b) : f.slope = a ∧ f.intercept = b := by
  obtain ⟨h1, h2, hD, -⟩ := lineFit_eq_ok h
  have e1 : sumOf pts (fun t => t.w ^ 2 * (t.x * t.y)) =
      a * sumOf pts (fun t => t.w ^ 2 * t.x ^ 2) + b * sumOf pts (fun t => t.w ^ 2 * t.x) := by
    rw [← sumOf_mul, ← sumOf_mul, ← sumOf_add]
    exact sumOf_congr (fun t ht => by rw [hl t ht]; ring)
  have e2 : sumOf pts (fun t => t.w ^ 2 * t.y) =
      a * sumOf pts (fun t => t.w ^ 2 * t.x) + b * sumOf pts (fun t => t.w ^ 2) := by
    rw [← sumOf_mul, ← sumOf_mul, ← sumOf_add]
    exact sumOf_congr (fun t ht => by rw [hl t ht]; ring)
  rw [e1] at h1
  rw [e2] at h2
  generalize sumOf pts (fun t => t.w ^ 2 * t.x ^ 2) = Sxx at *
  generalize sumOf pts (fun t => t.w ^ 2 * t.x) = Sx at *
  generalize sumOf pts (fun t => t.w ^ 2) = S at *
  constructor
  · apply mul_left_cancel₀ hD; linear_combination S * h1 - Sx * h2
  · apply mul_left_cancel₀ hD; linear_combination Sxx * h2 - Sx * h1

/-- the variance of the slope is positive -/
theorem lineFit_var {pts : List (Pt K)} {f : Line K} (h : lineFit pts = .ok f) : 0 < f.varSlope := by
  obtain ⟨-, -, hD, hv, -⟩ := lineFit_eq_ok h
  set S := sumOf pts (fun t => t.w ^ 2) with hS
  set Sx := sumOf pts (fun t => t.w ^ 2 * t.x) with hSx
  set Sxx := sumOf pts (fun t => t.w ^ 2 * t.x ^ 2) with hSxx
  have h0 : 0 ≤ S := sumOf_nonneg (fun a _ => sq_nonneg _)
  have hS0 : 0 < S := by
    rcases h0.lt_or_eq with h | h
    · exact h
    · exfalso
      have hw : ∀ t ∈ pts, t.w ^ 2 = 0 := by
        clear hD hv hSx hSxx Sx Sxx
        rw [hS] at h
        clear hS h0 S
        rename_i _ hfit; clear hfit
        induction pts with
        | nil => simp
        | cons a l ih =>
          rw [sumOf_cons] at h
          have h1 := sq_nonneg a.w
          have h2 : 0 ≤ sumOf l (fun t => t.w ^ 2) := sumOf_nonneg (fun a _ => sq_nonneg _)
          intro t ht
          rcases List.mem_cons.1 ht with rfl | ht
          · linarith
          · exact ih (by linarith) t ht
      apply hD
      have : Sx = 0 := by
        rw [hSx, sumOf_congr (g := fun _ => 0 * (0 : K)) (fun t ht => by rw [hw t ht]; ring), sumOf_mul]; ring
      rw [← h, this]; ring
  have hcs : 0 ≤ S * (S * Sxx - Sx ^ 2) := by
    have h3 : 0 ≤ sumOf pts (fun t => (t.w * (S * t.x - Sx)) ^ 2) := sumOf_nonneg (fun a _ => sq_nonneg _)
    have h4 : ∀ S' Sx' : K, sumOf pts (fun t => (t.w * (S' * t.x - Sx')) ^ 2) = S' ^ 2 * Sxx - 2 * S' * Sx' * Sx + Sx' ^ 2 * S := by
      intro S' Sx'
      rw [hS, hSx, hSxx]
      clear h hD hv h0 hS0 h3
      clear_value S Sx Sxx
      clear hS hSx hSxx
      induction pts with
      | nil => simp [sumOf]
      | cons a l ih => simp only [sumOf_cons]; rw [ih]; ring
    rw [h4] at h3
    nlinarith [h3]
  have hDpos : 0 < S * Sxx - Sx ^ 2 := lt_of_le_of_ne (nonneg_of_mul_nonneg_right hcs hS0) (Ne.symm hD)
  rw [hv]
  exact div_pos hS0 hDpos

end PySC
