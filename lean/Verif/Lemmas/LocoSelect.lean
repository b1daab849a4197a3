import Verif.Spec.Loco
import Mathlib.Data.Nat.Cast.Order.Ring
import Mathlib.Tactic.Ring
import Mathlib.Tactic.Linarith
/-
Selection of elements and masks.
-/
set_option linter.unusedSectionVars false
namespace PySC
open Spec

theorem everyNth_eq {α : Type} (l : List α) {step : Nat} (h : 0 < step) (i : Nat) : (everyNth l step)[i]? = l[i * step]? := by
  have key : ∀ n, (∀ i < n, i * step < l.length) → ∀ i, ((List.range n).filterMap (fun i => l[i * step]?))[i]? = if i < n then l[i * step]? else none := by
    intro n
    induction n with
    | zero => intro _ i; simp
    | succ n ih =>
      intro hn i
      have hl : n * step < l.length := hn n (by omega)
      have ih' := ih (fun i hi => hn i (by omega))
      have hlen : ((List.range n).filterMap (fun i => l[i * step]?)).length = n := by
        apply Nat.le_antisymm
        · exact le_trans (List.length_filterMap_le _ _) (by simp)
        · by_contra hc
          push Not at hc
          have := ih' ((List.range n).filterMap (fun i => l[i * step]?)).length
          rw [if_pos hc, List.getElem?_eq_none (le_refl _)] at this
          have h2 := hn ((List.range n).filterMap (fun i => l[i * step]?)).length (by omega)
          rw [List.getElem?_eq_getElem h2] at this
          cases this
      rw [List.range_succ, List.filterMap_append]
      simp only [List.filterMap_cons, List.filterMap_nil, List.getElem?_eq_getElem hl]
      by_cases hi : i < n
      · rw [List.getElem?_append_left (by omega), ih', if_pos hi, if_pos (by omega)]
      · rw [List.getElem?_append_right (by omega), hlen]
        by_cases hi2 : i = n
        · subst hi2; simp [List.getElem?_eq_getElem hl]
        · rw [if_neg (by omega)]
          have : i - n ≠ 0 := by omega
          simp [List.getElem?_eq_none, this]
  have hiff : ∀ i, i < (l.length + step - 1) / step ↔ i * step < l.length := by
    intro i
    rw [Nat.lt_div_iff_mul_lt h]
    omega
  unfold everyNth
  rw [key _ (fun i hi => (hiff i).1 hi)]
  by_cases hi : i < (l.length + step - 1) / step
  · rw [if_pos hi]
  · rw [if_neg hi, List.getElem?_eq_none]
    rw [hiff] at hi
    omega

theorem everyNth_length {α : Type} (l : List α) {step : Nat} (h : 0 < step) (i : Nat) :
    i < (everyNth l step).length ↔ i * step < l.length := by
  rw [← not_iff_not, not_lt, not_lt, ← List.getElem?_eq_none_iff, everyNth_eq l h, List.getElem?_eq_none_iff]

/-- positive numbers of intervals -/
theorem selectEqually_pos {α : Type} {l : List α} {n : Nat} (hn : 0 < n) :
    selectEqually l (n + 1 : Int) = if l.length / n = 0 then .error .valueError else .ok (everyNth l (l.length / n)) := by
  unfold selectEqually
  have h0 : ((n : Int) + 1) - 1 = n := by ring
  rw [h0, if_neg (by omega)]
  have hf : Int.fdiv (l.length : Int) n = ((l.length / n : Nat) : Int) := by
    rw [Int.fdiv_eq_ediv_of_nonneg _ (by omega)]; rfl
  simp only [hf]
  by_cases hz : l.length / n = 0
  · rw [if_pos hz, if_pos (by exact_mod_cast hz)]
  · rw [if_neg hz, if_neg (by exact_mod_cast hz), if_pos (by exact_mod_cast Nat.pos_of_ne_zero hz)]
    rfl

theorem parametersMask_length (fit : List String) (lengths : Nat × Nat × Nat) :
    (parametersMask fit lengths).length = lengths.1 + lengths.2.1 + lengths.2.2 := by simp [parametersMask]

theorem parametersMask_get (fit : List String) (lengths : Nat × Nat × Nat) {i : Nat} (hi : i < lengths.1 + lengths.2.1 + lengths.2.2) :
    (parametersMask fit lengths)[i]? = some (decide (groupOf lengths i ∈ fit)) := by
  unfold parametersMask groupOf
  rw [List.getElem?_map, List.getElem?_range hi, Option.map_some]
  split
  · rfl
  · split <;> rfl

theorem mask_filter {α : Type} {mask : List Bool} {l : List α} {p : Nat → Bool} {k : Nat} (hlen : mask.length = l.length)
    (h : ∀ i < l.length, mask[i]? = some (p (i + k))) :
    ((mask.zip l).filter (fun x => x.1)).map Prod.snd = ((l.zipIdx k).filter (fun x => p x.2)).map Prod.fst := by
  induction l generalizing mask k with
  | nil => cases mask <;> simp at hlen ⊢
  | cons a l ih =>
    cases mask with
    | nil => simp at hlen
    | cons b mask =>
      have h0 := h 0 (by simp)
      simp only [List.getElem?_cons_zero, Nat.zero_add, Option.some.injEq] at h0
      have ih' := ih (mask := mask) (k := k + 1) (by simpa using hlen) (fun i hi => by
        have := h (i + 1) (by simpa using hi)
        rw [List.getElem?_cons_succ] at this
        rw [this]; congr 2; omega)
      rw [List.zip_cons_cons, List.zipIdx_cons, List.filter_cons, List.filter_cons, ← h0]
      cases b <;> simp [ih']

/-- what is selected -/
theorem maskSelect_eq {α : Type} (fit : List String) (lengths : Nat × Nat × Nat) (l : List α) :
    maskSelect (parametersMask fit lengths) l =
      if l.length = lengths.1 + lengths.2.1 + lengths.2.2 then .ok (ofGroups fit lengths l) else .error .indexError := by
  unfold maskSelect ofGroups
  by_cases hl : l.length = lengths.1 + lengths.2.1 + lengths.2.2
  · rw [if_pos hl, if_neg (by rw [parametersMask_length, hl]; simp)]
    rw [mask_filter (p := fun i => decide (groupOf lengths i ∈ fit)) (k := 0) (by rw [parametersMask_length, hl])
      (fun i hi => by rw [parametersMask_get fit lengths (by omega)]; rfl)]
  · rw [if_neg hl, if_pos (by rw [parametersMask_length]; omega)]

end PySC
