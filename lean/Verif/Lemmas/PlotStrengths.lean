import Verif.Model.PlotStrengths
import Verif.Spec.PlotStrengths
import Mathlib.Tactic.Linarith
import Mathlib.Tactic.Ring
import Mathlib.Tactic.FieldSimp
import Mathlib.Algebra.BigOperators.Group.List.Basic
/-
Histograms.
-/
namespace PySC
set_option linter.unusedSectionVars false
variable {K : Type} [Field K] [LinearOrder K] [IsStrictOrderedRing K]
open Py Spec

theorem minOf_le : ∀ (v : List K) (x : K), minOf x v ≤ x ∧ ∀ y ∈ v, minOf x v ≤ y
  | [], x => ⟨le_refl _, by simp⟩
  | a :: v, x => by
    obtain ⟨h1, h2⟩ := minOf_le v (min x a)
    refine ⟨le_trans h1 (min_le_left _ _), fun y hy => ?_⟩
    rcases List.mem_cons.1 hy with rfl | hy
    · exact le_trans h1 (min_le_right _ _)
    · exact h2 y hy

theorem le_maxOf : ∀ (v : List K) (x : K), x ≤ maxOf x v ∧ ∀ y ∈ v, y ≤ maxOf x v
  | [], x => ⟨le_refl _, by simp⟩
  | a :: v, x => by
    obtain ⟨h1, h2⟩ := le_maxOf v (max x a)
    refine ⟨le_trans (le_max_left _ _) h1, fun y hy => ?_⟩
    rcases List.mem_cons.1 hy with rfl | hy
    · exact le_trans (le_max_right _ _) h1
    · exact h2 y hy

theorem histogramRange_spec (x : K) (v : List K) : (histogramRange x v).1 < (histogramRange x v).2 ∧
    ∀ y ∈ x :: v, (histogramRange x v).1 ≤ y ∧ y ≤ (histogramRange x v).2 := by
  have a := minOf_le v x
  have b := le_maxOf v x
  have h2 : (0 : K) < 1 / 2 := by norm_num
  unfold histogramRange
  simp only
  split
  · next e =>
    refine ⟨by linarith, fun y hy => ?_⟩
    rcases List.mem_cons.1 hy with rfl | hy
    · exact ⟨by linarith [a.1], by linarith [b.1]⟩
    · exact ⟨by linarith [a.2 y hy], by linarith [b.2 y hy]⟩
  · next e =>
    refine ⟨lt_of_le_of_ne (le_trans a.1 b.1) e, fun y hy => ?_⟩
    rcases List.mem_cons.1 hy with rfl | hy
    · exact ⟨a.1, b.1⟩
    · exact ⟨a.2 y hy, b.2 y hy⟩

theorem binEdge_zero (lo hi : K) (m : Nat) : binEdge lo hi m 0 = lo := by simp [binEdge]

theorem binEdge_last {lo hi : K} {m : Nat} (hm : 0 < m) : binEdge lo hi m m = hi := by
  have : (m : K) ≠ 0 := by exact_mod_cast hm.ne'
  unfold binEdge
  field_simp
  ring

theorem binEdge_step {lo hi : K} {m : Nat} (hm : 0 < m) (h : lo < hi) (j : Nat) : binEdge lo hi m j < binEdge lo hi m (j + 1) := by
  have : (0 : K) < m := by exact_mod_cast hm
  have : 0 < (hi - lo) / (m : K) := div_pos (by linarith) this
  unfold binEdge
  push_cast
  nlinarith

/-- values counted in the first bins -/
theorem sum_binCount {lo hi : K} {m : Nat} (hm : 0 < m) (h : lo < hi) {v : List K} (hv : ∀ y ∈ v, lo ≤ y) : ∀ j, j < m →
    ((List.range j).map (binCount lo hi m v)).sum = v.countP (fun x => decide (x < binEdge lo hi m j)) := by
  intro j
  induction j with
  | zero =>
    intro _
    rw [binEdge_zero]
    symm
    simp only [List.range_zero, List.map_nil, List.sum_nil, List.countP_eq_zero, decide_eq_true_eq, not_lt]
    exact hv
  | succ j ih =>
    intro hj
    rw [List.range_succ, List.map_append, List.sum_append, ih (by omega), List.map_singleton, List.sum_singleton]
    unfold binCount
    have hs := binEdge_step hm h j
    have : ∀ l : List K, l.countP (fun x => decide (x < binEdge lo hi m j)) + l.countP (fun x => decide (binEdge lo hi m j ≤ x) &&
        (decide (x < binEdge lo hi m (j + 1)) || (decide (j + 1 = m) && decide (x ≤ binEdge lo hi m (j + 1))))) =
        l.countP (fun x => decide (x < binEdge lo hi m (j + 1))) := by
      intro l
      induction l with
      | nil => rfl
      | cons x l ihl =>
        simp only [List.countP_cons]
        rw [← ihl]
        have e : (j + 1 = m) = False := by simp; omega
        simp only [e, decide_false, Bool.false_and, Bool.or_false]
        by_cases h1 : x < binEdge lo hi m j
        · have h2 : x < binEdge lo hi m (j + 1) := lt_trans h1 hs
          simp [h1, h2, not_le.2 h1]; omega
        · by_cases h2 : x < binEdge lo hi m (j + 1)
          · simp [h1, h2, not_lt.1 h1]; omega
          · simp [h1, h2]
    exact this v

theorem sum_binCount_all {lo hi : K} {m : Nat} (hm : 0 < m) (h : lo < hi) {v : List K} (hv : ∀ y ∈ v, lo ≤ y ∧ y ≤ hi) :
    ((List.range m).map (binCount lo hi m v)).sum = v.length := by
  obtain ⟨k, rfl⟩ : ∃ k, m = k + 1 := ⟨m - 1, by omega⟩
  rw [List.range_succ, List.map_append, List.sum_append, sum_binCount hm h (fun y hy => (hv y hy).1) k (by omega), List.map_singleton, List.sum_singleton]
  unfold binCount
  rw [binEdge_last hm]
  have : ∀ l : List K, (∀ y ∈ l, y ≤ hi) → l.countP (fun x => decide (x < binEdge lo hi (k + 1) k)) + l.countP (fun x => decide (binEdge lo hi (k + 1) k ≤ x) &&
      (decide (x < hi) || (decide (k + 1 = k + 1) && decide (x ≤ hi)))) = l.length := by
    intro l
    induction l with
    | nil => intro _; rfl
    | cons x l ihl =>
      intro hl
      have hx := hl x (List.mem_cons_self ..)
      simp only [List.countP_cons, List.length_cons]
      rw [← ihl (fun y hy => hl y (List.mem_cons_of_mem _ hy))]
      by_cases h1 : x < binEdge lo hi (k + 1) k
      · simp [h1, not_le.2 h1]; omega
      · simp [h1, not_lt.1 h1, hx]; omega
  exact this v (fun y hy => (hv y hy).2)

theorem sum_map_div (l : List Nat) (t : K) : (l.map (fun (c : Nat) => (c : K) / t)).sum = (l.sum : K) / t := by
  induction l with
  | nil => simp
  | cons a l ih => simp only [List.map_cons, List.sum_cons, ih]; push_cast; ring

/-- the points of the curve -/
theorem distributionCurve_eq {v : List K} {pts : List (K × K)} (h : distributionCurve v = .ok pts) :
    ∃ lo hi, lo < hi ∧ (∀ y ∈ v, lo ≤ y ∧ y ≤ hi) ∧ 0 < v.length ∧ pts.length = v.length ∧
      ∀ j (hj : j < v.length), pts[j]? = some (binEdge lo hi v.length (j + 1),
        (((List.range (j + 1)).map (binCount lo hi v.length v)).sum : K) / (v.length : K)) := by
  cases v with
  | nil => cases h
  | cons x v =>
    obtain ⟨h1, h2⟩ := histogramRange_spec x v
    unfold distributionCurve at h
    simp only [Except.ok.injEq] at h
    refine ⟨_, _, h1, h2, Nat.succ_pos _, ?_, ?_⟩
    · rw [← h]; simp [runningSums]
    · intro j hj
      rw [← h, sum_binCount_all (m := (x :: v).length) (Nat.succ_pos _) h1 h2]
      rw [List.getElem?_zip_eq_some]
      refine ⟨by rw [List.getElem?_map, List.getElem?_range hj]; rfl, ?_⟩
      unfold runningSums
      rw [List.getElem?_map, List.getElem?_range (by simpa using hj)]
      simp only [Option.map_some, Option.some.injEq]
      rw [← List.map_take, ← List.map_take, List.take_range, min_eq_left (by omega), sum_map_div]

end PySC
