import Verif.Spec.Stats
import Verif.Lemmas.Fit
/-
Weighted statistics.
-/
namespace PySC
open Spec
set_option linter.unusedSectionVars false
variable {K : Type} [Field K] [LinearOrder K]

theorem weightsFromErrors_usable {S : StatsEnv K} {errors : Option (List (Option K))} {e : List K} (period : K) (h : Usable errors e) :
    weightsFromErrors S errors period = some (e.map (fun x => 1 / (x * S.pi2 / period) ^ 2)) := by
  obtain ⟨rfl, h0⟩ := h
  unfold weightsFromErrors
  have hid : (e.map some).filterMap id = e := by rw [List.filterMap_map]; simp
  simp only
  rw [if_neg, if_neg, hid]
  · rw [hid]
    simp only [List.any_eq_true, decide_eq_true_eq, not_exists, not_and]
    exact fun x hx => h0 x hx
  · simp

theorem weightsFromErrors_unusable {S : StatsEnv K} {errors : Option (List (Option K))} (period : K) (h : Unusable errors) :
    weightsFromErrors S errors period = none := by
  unfold weightsFromErrors
  cases errors with
  | none => rfl
  | some es =>
    simp only
    rcases h es rfl with h | h
    · rw [if_pos]
      simp only [List.any_eq_true]
      exact ⟨none, h, rfl⟩
    · split
      · rfl
      · rw [if_pos]
        simp only [List.any_eq_true, decide_eq_true_eq]
        exact ⟨0, List.mem_filterMap.2 ⟨some 0, h, rfl⟩, rfl⟩

/-- errors are usable or not -/
theorem usable_or (errors : Option (List (Option K))) : (∃ e, Usable errors e) ∨ Unusable errors := by
  cases errors with
  | none => exact Or.inr (fun es h => by cases h)
  | some es =>
    by_cases h : none ∈ es ∨ some 0 ∈ es
    · exact Or.inr (fun es' h' => by cases h'; exact h)
    · left
      push Not at h
      refine ⟨es.map (fun x => x.getD 0), ?_, ?_⟩
      · congr 1
        rw [List.map_map]
        conv_lhs => rw [← List.map_id es]
        refine List.map_congr_left (fun x hx => ?_)
        cases x with
        | none => exact absurd hx h.1
        | some x => rfl
      · intro x hx
        obtain ⟨y, hy, rfl⟩ := List.mem_map.1 hx
        cases y with
        | none => exact absurd hy h.1
        | some y => rintro h0; simp at h0; subst h0; exact h.2 hy

section
variable [IsStrictOrderedRing K]

theorem weight_eq {S : StatsEnv K} (hpi : S.pi2 ≠ 0) (x : K) : 1 / (x * S.pi2 / S.pi2) ^ 2 = 1 / x ^ 2 := by
  rw [mul_div_assoc, div_self hpi, mul_one]

theorem weights_pos {e : List K} (h0 : ∀ x ∈ e, x ≠ 0) : ∀ w ∈ e.map (fun x => 1 / x ^ 2), 0 < w := by
  intro w hw
  obtain ⟨x, hx, rfl⟩ := List.mem_map.1 hw
  have := h0 x hx
  positivity

theorem sum_pos_of {w : List K} (hw : ∀ x ∈ w, 0 < x) (hne : w ≠ []) : 0 < w.sum := by
  induction w with
  | nil => exact absurd rfl hne
  | cons a l ih =>
    rw [List.sum_cons]
    have ha := hw a (by simp)
    by_cases hl : l = []
    · subst hl; simpa using ha
    · exact add_pos ha (ih (fun x hx => hw x (by simp [hx])) hl)

theorem weights_default {S : StatsEnv K} (hpi : S.pi2 ≠ 0) {errors : Option (List (Option K))} {e : List K} (h : Usable errors e) :
    weightsFromErrors S errors S.pi2 = some (e.map (fun x => 1 / x ^ 2)) := by
  rw [weightsFromErrors_usable _ h]
  simp only [weight_eq hpi]

/-- `np.average` with positive weights or none -/
theorem npAverage_cases {data : List K} {w : Option (List K)} {a : K × K} (hw : ∀ l, w = some l → ∀ x ∈ l, 0 < x)
    (h : npAverage data w = .ok a) :
    ∃ l : List K, l = w.getD (List.replicate data.length 1) ∧ l.length = data.length ∧ (∀ x ∈ l, 0 < x) ∧ 0 < l.sum ∧ a.2 = l.sum ∧
      a.1 * l.sum = (List.zipWith (· * ·) data l).sum ∧ data ≠ [] := by
  unfold npAverage at h
  cases w with
  | none =>
    simp only at h
    split at h
    · cases h
    · rename_i hne
      cases h
      have hd : data ≠ [] := by simpa using hne
      have hlen : (0 : K) < data.length := by
        have : 0 < data.length := List.length_pos_iff.2 hd
        exact_mod_cast this
      refine ⟨_, rfl, by simp, by simp +contextual, by simpa using hlen, by simp, ?_, hd⟩
      have : (List.zipWith (· * ·) data (List.replicate data.length (1 : K))).sum = data.sum := by
        clear * -
        induction data with
        | nil => rfl
        | cons a l ih => simp only [List.length_cons, List.replicate_succ, List.zipWith_cons_cons, List.sum_cons, mul_one, ih]
      simp only [Option.getD_none]
      rw [this]
      simp only [List.sum_replicate, nsmul_eq_mul, mul_one]
      exact div_mul_cancel₀ _ hlen.ne'
  | some l =>
    simp only at h
    split at h
    · cases h
    · rename_i hl
      split at h
      · cases h
      · rename_i h0
        cases h
        have hl : l.length = data.length := not_not.1 hl
        have hne : l ≠ [] := by rintro rfl; simp at h0
        exact ⟨l, rfl, hl, hw l rfl, sum_pos_of (hw l rfl) hne, rfl, div_mul_cancel₀ _ h0,
          fun hd => hne (List.length_eq_zero_iff.1 (by rw [hl, hd]; rfl))⟩

theorem zipWith_mul_le {data l : List K} {c : K} (hlen : l.length = data.length) (hl : ∀ x ∈ l, 0 < x) (h : ∀ x ∈ data, x ≤ c) :
    (List.zipWith (· * ·) data l).sum ≤ c * l.sum := by
  induction data generalizing l with
  | nil => cases l with
    | nil => simp
    | cons => simp at hlen
  | cons a d ih => cases l with
    | nil => simp at hlen
    | cons b l =>
      simp only [List.zipWith_cons_cons, List.sum_cons, mul_add]
      exact add_le_add (mul_le_mul_of_nonneg_right (h a (by simp)) (hl b (by simp)).le)
        (ih (by simpa using hlen) (fun x hx => hl x (by simp [hx])) (fun x hx => h x (by simp [hx])))

theorem zipWith_mul_ge {data l : List K} {c : K} (hlen : l.length = data.length) (hl : ∀ x ∈ l, 0 < x) (h : ∀ x ∈ data, c ≤ x) :
    c * l.sum ≤ (List.zipWith (· * ·) data l).sum := by
  induction data generalizing l with
  | nil => cases l with
    | nil => simp
    | cons => simp at hlen
  | cons a d ih => cases l with
    | nil => simp at hlen
    | cons b l =>
      simp only [List.zipWith_cons_cons, List.sum_cons, mul_add]
      exact add_le_add (mul_le_mul_of_nonneg_right (h a (by simp)) (hl b (by simp)).le)
        (ih (by simpa using hlen) (fun x hx => hl x (by simp [hx])) (fun x hx => h x (by simp [hx])))

theorem zipWith_mul_add {data l : List K} (c : K) (hlen : l.length = data.length) :
    (List.zipWith (· * ·) (data.map (fun x => x + c)) l).sum = (List.zipWith (· * ·) data l).sum + c * l.sum := by
  induction data generalizing l with
  | nil => cases l with
    | nil => simp
    | cons => simp at hlen
  | cons a d ih => cases l with
    | nil => simp at hlen
    | cons b l =>
      simp only [List.map_cons, List.zipWith_cons_cons, List.sum_cons, ih (by simpa using hlen)]
      ring

theorem npAverage_bounds {data : List K} {w : Option (List K)} {a : K × K} (hw : ∀ l, w = some l → ∀ x ∈ l, 0 < x)
    (h : npAverage data w = .ok a) (lo hi : K) (hb : ∀ x ∈ data, lo ≤ x ∧ x ≤ hi) : lo ≤ a.1 ∧ a.1 ≤ hi := by
  obtain ⟨l, -, hlen, hpos, hs, -, ha, -⟩ := npAverage_cases hw h
  constructor
  · refine le_of_mul_le_mul_right ?_ hs
    rw [ha]; exact zipWith_mul_ge hlen hpos (fun x hx => (hb x hx).1)
  · refine le_of_mul_le_mul_right ?_ hs
    rw [ha]; exact zipWith_mul_le hlen hpos (fun x hx => (hb x hx).2)

theorem npAverage_shift {data : List K} {w : Option (List K)} (c : K) :
    npAverage (data.map (fun x => x + c)) w = (npAverage data w).map (fun a => (a.1 + c, a.2)) := by
  unfold npAverage
  cases w with
  | none =>
    simp only [List.isEmpty_map, List.length_map]
    split
    · rfl
    · rename_i hne
      have hlen : (data.length : K) ≠ 0 := by
        have : data ≠ [] := by simpa using hne
        have : 0 < data.length := List.length_pos_iff.2 this
        exact_mod_cast this.ne'
      have : (data.map (fun x => x + c)).sum = data.sum + data.length * c := by
        clear * -
        induction data with
        | nil => simp
        | cons a l ih => simp only [List.map_cons, List.sum_cons, List.length_cons, ih]; push_cast; ring
      simp only [Except.map, this]
      congr 2
      field_simp
  | some l =>
    simp only [List.length_map]
    split
    · rfl
    · rename_i hl
      split
      · rfl
      · rename_i h0
        simp only [Except.map, zipWith_mul_add c (not_not.1 hl)]
        congr 2
        field_simp

/-- all weights used by the statistics are positive -/
theorem weightsFromErrors_pos {S : StatsEnv K} {errors : Option (List (Option K))} (hpi : S.pi2 ≠ 0) :
    ∀ l, weightsFromErrors S errors S.pi2 = some l → ∀ x ∈ l, 0 < x := by
  intro l hl
  rcases usable_or errors with ⟨e, he⟩ | h
  · rw [weights_default hpi he] at hl
    cases hl
    exact weights_pos he.2
  · rw [weightsFromErrors_unusable _ h] at hl; cases hl

/-- Cauchy-Schwarz -/
theorem sq_sum_le (w : List K) : w.sum ^ 2 ≤ (w.length : K) * (w.map (fun x => x ^ 2)).sum := by
  induction w with
  | nil => simp
  | cons a l ih =>
    have h2 : 2 * a * l.sum ≤ (l.length : K) * a ^ 2 + (l.map (fun x => x ^ 2)).sum := by
      clear ih
      induction l with
      | nil => simp
      | cons b l ih =>
        simp only [List.sum_cons, List.length_cons, List.map_cons]
        push_cast
        nlinarith [sq_nonneg (a - b)]
    simp only [List.sum_cons, List.length_cons, List.map_cons]
    push_cast
    nlinarith

end
end PySC
