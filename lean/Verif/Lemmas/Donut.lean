import Verif.Model.Donut
import Verif.Lemmas.Search
import Mathlib.Tactic.Positivity
import Mathlib.Tactic.FieldSimp
/-
The points of the pattern of the search for transmission.
-/
namespace PySC
open Spec

theorem diffs_take (a : ℝ × ℝ) (l : List (ℝ × ℝ)) : ∀ k, (h : k < l.length) → pointAfter (diffs (a :: l)) (k + 1) = (l[k].1 - a.1, l[k].2 - a.2) := by
  induction l generalizing a with
  | nil => intro k h; simp at h
  | cons b l ih =>
    intro k h
    cases k with
    | zero => simp [diffs, pointAfter]
    | succ k =>
      have := ih b k (by simpa using h)
      have e : diffs (a :: b :: l) = (b.1 - a.1, b.2 - a.2) :: diffs (b :: l) := rfl
      rw [e]
      have h1 := pointAfter_cons (b.1 - a.1, b.2 - a.2) (diffs (b :: l)) (k + 1) false
      have h2 := pointAfter_cons (b.1 - a.1, b.2 - a.2) (diffs (b :: l)) (k + 1) true
      rw [this] at h1 h2
      simp only [inPlane, Bool.false_eq_true, if_false, if_true] at h1 h2
      refine Prod.ext ?_ ?_
      · rw [h1]; simp
      · rw [h2]; simp

theorem goldenDonutDiffs_length (r0 r1 : ℝ) (n : ℕ) : (goldenDonutDiffs r0 r1 n).length = n := by
  simp [goldenDonutDiffs, diffs]

theorem goldenDonutDiffs_point (r0 r1 : ℝ) {n k : ℕ} (h : k < n) : pointAfter (goldenDonutDiffs r0 r1 n) (k + 1) = donutPosition r0 r1 n k := by
  unfold goldenDonutDiffs
  rw [diffs_take _ _ k (by simpa using h)]
  simp

theorem donutPosition_norm {r0 r1 : ℝ} (h0 : 0 ≤ r0) (h1 : r0 ≤ r1) {n k : ℕ} (hn : 2 ≤ n) (hk : k < n) :
    (donutPosition r0 r1 n k).1 ^ 2 + (donutPosition r0 r1 n k).2 ^ 2 = r0 ^ 2 + (r1 ^ 2 - r0 ^ 2) * (k / ((n : ℝ) - 1)) := by
  have hn' : (0 : ℝ) < (n : ℝ) - 1 := by
    have : (2 : ℝ) ≤ n := by exact_mod_cast hn
    linarith
  have hq : 0 ≤ r1 ^ 2 - r0 ^ 2 := by nlinarith
  have hnn : 0 ≤ r0 ^ 2 + (r1 ^ 2 - r0 ^ 2) * k / ((n : ℝ) - 1) := by positivity
  simp only [donutPosition]
  rw [mul_pow, mul_pow, ← mul_add, Real.cos_sq_add_sin_sq, Real.sq_sqrt hnn, mul_one, mul_div_assoc]

theorem donut_share {n k : ℕ} (hn : 2 ≤ n) (hk : k < n) : 0 ≤ (k : ℝ) / ((n : ℝ) - 1) ∧ (k : ℝ) / ((n : ℝ) - 1) ≤ 1 := by
  have hn' : (0 : ℝ) < (n : ℝ) - 1 := by
    have : (2 : ℝ) ≤ n := by exact_mod_cast hn
    linarith
  have : (k : ℝ) + 1 ≤ n := by exact_mod_cast hk
  exact ⟨by positivity, (div_le_one hn').2 (by linarith)⟩

end PySC
