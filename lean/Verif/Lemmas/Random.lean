import Verif.Lemmas.Rels
import Verif.Model.Random
import Mathlib.Data.List.Nodup
import Mathlib.Algebra.Order.Ring.Abs
/-
The truncated normal distribution: values within the cut-off, every value a draw of its own, termination.
-/
namespace PySC
set_option linter.unusedSectionVars false
variable {K : Type} [Field K] [LinearOrder K]
open Py

theorem redraw_drawn (randn : Nat → K) (cut : K) (ps : List Nat) : ∀ (pos : Nat), ps.Nodup → (∀ p ∈ ps, p < pos) →
    pos ≤ (redraw randn cut pos (ps.map randn)).2 ∧
    ∃ qs : List Nat, (redraw randn cut pos (ps.map randn)).1 = qs.map randn ∧ qs.Nodup ∧ qs.length = ps.length ∧
      ∀ q ∈ qs, q ∈ ps ∨ (pos ≤ q ∧ q < (redraw randn cut pos (ps.map randn)).2) := by
  induction ps with
  | nil => intro pos _ _; exact ⟨by simp [redraw], [], by simp [redraw]⟩
  | cons p ps ih =>
    intro pos hnd hlt
    rw [List.nodup_cons] at hnd
    have hp : p < pos := hlt p (by simp)
    simp only [List.map_cons, redraw]
    split
    · obtain ⟨h1, qs, h2, h3, h4, h5⟩ := ih (pos + 1) hnd.2 (fun q hq => Nat.lt_succ_of_lt (hlt q (by simp [hq])))
      refine ⟨by simpa using Nat.le_of_succ_le h1, pos :: qs, by simp [h2], ?_, by simp [h4], ?_⟩
      · rw [List.nodup_cons]
        refine ⟨fun hm => ?_, h3⟩
        rcases h5 pos hm with h | h
        · exact absurd (hlt pos (by simp [h])) (lt_irrefl _)
        · omega
      · intro q hq
        rcases List.mem_cons.1 hq with rfl | hq
        · exact Or.inr ⟨le_refl _, h1⟩
        · rcases h5 q hq with h | h
          · exact Or.inl (by simp [h])
          · exact Or.inr ⟨by omega, h.2⟩
    · obtain ⟨h1, qs, h2, h3, h4, h5⟩ := ih pos hnd.2 (fun q hq => hlt q (by simp [hq]))
      refine ⟨h1, p :: qs, by simp [h2], ?_, by simp [h4], ?_⟩
      · rw [List.nodup_cons]
        refine ⟨fun hm => ?_, h3⟩
        rcases h5 p hm with h | h
        · exact hnd.1 h
        · omega
      · intro q hq
        rcases List.mem_cons.1 hq with rfl | hq
        · exact Or.inl (by simp)
        · rcases h5 q hq with h | h
          · exact Or.inl (by simp [h])
          · exact Or.inr h

theorem resample_drawn {randn : Nat → K} {cut : K} {fuel lo : Nat} : ∀ {ps : List Nat} {pos pos' : Nat} {l : List K},
    ps.Nodup → (∀ p ∈ ps, lo ≤ p ∧ p < pos) → lo ≤ pos → resample randn cut fuel (ps.map randn) pos = .ok (l, pos') →
    (∀ x ∈ l, |x| ≤ |cut|) ∧ pos ≤ pos' ∧ ∃ qs : List Nat, l = qs.map randn ∧ qs.Nodup ∧ qs.length = ps.length ∧
      ∀ q ∈ qs, lo ≤ q ∧ q < pos' := by
  induction fuel with
  | zero =>
    intro ps pos pos' l hnd hlt hlo h
    rw [resample] at h
    split at h
    · rename_i hall
      cases h
      rw [List.all_eq_true] at hall
      exact ⟨fun x hx => by simpa using hall x hx, le_refl _, ps, rfl, hnd, rfl, hlt⟩
    · cases h
  | succ n ih =>
    intro ps pos pos' l hnd hlt hlo h
    rw [resample] at h
    split at h
    · rename_i hall
      cases h
      rw [List.all_eq_true] at hall
      exact ⟨fun x hx => by simpa using hall x hx, le_refl _, ps, rfl, hnd, rfl, hlt⟩
    · obtain ⟨h1, qs, h2, h3, h4, h5⟩ := redraw_drawn randn cut ps pos hnd (fun p hp => (hlt p hp).2)
      rw [h2] at h
      obtain ⟨g1, g2, rs, g3, g4, g5, g6⟩ := ih h3 (fun q hq => by
        rcases h5 q hq with h | h
        · exact ⟨(hlt q h).1, lt_of_lt_of_le (hlt q h).2 h1⟩
        · exact ⟨le_trans hlo h.1, h.2⟩) (le_trans hlo h1) h
      exact ⟨g1, le_trans h1 g2, rs, g3, g4, g5.trans h4, g6⟩

/-- what a successful call of `randnc` returns -/
theorem randncFrom_eq_ok {E : Env K} {cut : K} {n pos pos' : Nat} {l : List K}
    (h : randncFrom E cut n pos = .ok (l, pos')) :
    (∀ x ∈ l, |x| ≤ |cut|) ∧ l.length = n ∧ pos + n ≤ pos' ∧
      ∃ qs : List Nat, l = qs.map E.randn ∧ qs.Nodup ∧ ∀ q ∈ qs, pos ≤ q ∧ q < pos' := by
  unfold randncFrom at h
  have hm : (List.range n).map (fun k => E.randn (pos + k)) = ((List.range n).map (fun k => pos + k)).map E.randn := by
    rw [List.map_map]; rfl
  rw [hm] at h
  obtain ⟨h1, h2, qs, h3, h4, h5, h6⟩ := resample_drawn (lo := pos) (List.Nodup.map (fun a b hab => by
    simpa using hab) List.nodup_range) (fun p hp => by
      simp only [List.mem_map, List.mem_range] at hp
      obtain ⟨k, hk, rfl⟩ := hp
      exact ⟨by omega, by omega⟩) (by omega) h
  refine ⟨h1, ?_, h2, qs, h3, h4, h6⟩
  rw [h3, List.length_map, h5]; simp

/-! ### termination -/

/-- number of values beyond the cut-off -/
def nOut (cut : K) (l : List K) : Nat := (l.filter (fun x => decide (|cut| < |x|))).length

theorem all_iff_nOut {cut : K} {l : List K} : l.all (fun x => decide (|x| ≤ |cut|)) = true ↔ nOut cut l = 0 := by
  unfold nOut
  rw [List.all_eq_true, List.length_eq_zero_iff, List.filter_eq_nil_iff]
  simp

theorem redraw_pos (randn : Nat → K) (cut : K) (l : List K) : ∀ pos, (redraw randn cut pos l).2 = pos + nOut cut l := by
  induction l with
  | nil => intro pos; simp [redraw, nOut]
  | cons x xs ih =>
    intro pos
    rw [redraw]
    split
    · rename_i h; rw [ih]; simp [nOut, h]; omega
    · rename_i h; rw [ih]; simp [nOut, h]

theorem redraw_nOut_le (randn : Nat → K) (cut : K) (l : List K) : ∀ pos, nOut cut (redraw randn cut pos l).1 ≤ nOut cut l := by
  induction l with
  | nil => intro pos; simp [redraw, nOut]
  | cons x xs ih =>
    intro pos
    rw [redraw]
    split
    · rename_i h
      have := ih (pos + 1)
      unfold nOut at this ⊢
      by_cases hr : |cut| < |randn pos| <;> simp [h, hr] <;> omega
    · rename_i h
      have := ih pos
      unfold nOut at this ⊢
      simp [h]; omega

/-- if no value was improved by a pass, every value drawn in it was beyond the cut-off -/
theorem redraw_stuck (randn : Nat → K) (cut : K) (l : List K) : ∀ pos, nOut cut (redraw randn cut pos l).1 = nOut cut l →
    ∀ k, pos ≤ k → k < pos + nOut cut l → |cut| < |randn k| := by
  induction l with
  | nil => intro pos _ k h1 h2; simp [nOut] at h2; omega
  | cons x xs ih =>
    intro pos
    rw [redraw]
    split
    · rename_i h
      intro heq k h1 h2
      simp only at heq
      have hle := redraw_nOut_le randn cut xs (pos + 1)
      have hx : nOut cut (x :: xs) = nOut cut xs + 1 := by simp [nOut, h]
      by_cases hr : |cut| < |randn pos|
      · have hh : nOut cut (randn pos :: (redraw randn cut (pos + 1) xs).1) = nOut cut (redraw randn cut (pos + 1) xs).1 + 1 := by
          simp [nOut, hr]
        rcases Nat.eq_or_lt_of_le h1 with rfl | h1
        · exact hr
        · refine ih (pos + 1) (by omega) k (by omega) (by omega)
      · have hh : nOut cut (randn pos :: (redraw randn cut (pos + 1) xs).1) = nOut cut (redraw randn cut (pos + 1) xs).1 := by
          simp [nOut, hr]
        omega
    · rename_i h
      intro heq k h1 h2
      simp only at heq
      have hx : nOut cut (x :: xs) = nOut cut xs := by simp [nOut, h]
      have hh : nOut cut (x :: (redraw randn cut pos xs).1) = nOut cut (redraw randn cut pos xs).1 := by simp [nOut, h]
      exact ih pos (by omega) k h1 (by omega)

/-- the number of passes does not matter once it is large enough -/
theorem resample_mono {randn : Nat → K} {cut : K} {f f' : Nat} (hff : f ≤ f') : ∀ {l : List K} {pos : Nat} {r : List K × Nat},
    resample randn cut f l pos = .ok r → resample randn cut f' l pos = .ok r := by
  induction f generalizing f' with
  | zero =>
    intro l pos r h
    rw [resample] at h
    split at h
    · rename_i hall
      cases h
      rw [resample.eq_def]; simp only [hall, if_true]
    · cases h
  | succ n ih =>
    intro l pos r h
    obtain ⟨m, rfl⟩ : ∃ m, f' = m + 1 := ⟨f' - 1, by omega⟩
    rw [resample] at h ⊢
    split at h
    · rename_i hall
      rw [if_pos hall]; exact h
    · rename_i hall
      rw [if_neg hall]
      exact ih (by omega) h

/-- the loop ends if small enough values keep coming -/
theorem resample_terminates {randn : Nat → K} {cut : K} (hinf : ∀ k, ∃ j, k ≤ j ∧ |randn j| ≤ |cut|) (l : List K) (pos : Nat) :
    ∃ fuel r, resample randn cut fuel l pos = .ok r := by
  induction hn : nOut cut l using Nat.strong_induction_on generalizing l pos with
  | _ n ih =>
    by_cases h0 : nOut cut l = 0
    · refine ⟨0, (l, pos), ?_⟩
      rw [resample, if_pos (all_iff_nOut.2 h0)]
    · -- some pass improves
      obtain ⟨j, hj1, hj2⟩ := hinf pos
      -- distance to the next good draw
      induction hd : j - pos using Nat.strong_induction_on generalizing l pos with
      | _ d ihd =>
        by_cases hs : nOut cut (redraw randn cut pos l).1 = nOut cut l
        · -- all draws of this pass were bad, so j is beyond
          have hstuck := redraw_stuck randn cut l pos hs
          have hjb : pos + nOut cut l ≤ j := by
            by_contra hlt
            exact absurd (hstuck j hj1 (by omega)) (not_lt.2 hj2)
          have hp2 := redraw_pos randn cut l pos
          obtain ⟨f, r, hr⟩ := ihd (j - (redraw randn cut pos l).2) (by rw [hp2]; omega) (redraw randn cut pos l).1
            (redraw randn cut pos l).2 (hs.trans hn) (by rw [hs]; exact h0) (by rw [hp2]; omega) rfl
          refine ⟨f + 1, r, ?_⟩
          rw [resample, if_neg (fun hh => h0 (all_iff_nOut.1 hh))]
          exact hr
        · have hlt : nOut cut (redraw randn cut pos l).1 < n :=
            lt_of_le_of_ne (hn ▸ redraw_nOut_le randn cut l pos) (hn ▸ hs)
          obtain ⟨f, r, hr⟩ := ih _ hlt (redraw randn cut pos l).1 (redraw randn cut pos l).2 rfl
          refine ⟨f + 1, r, ?_⟩
          rw [resample, if_neg (fun hh => h0 (all_iff_nOut.1 hh))]
          exact hr

/-- the loop does not end if every value drawn is beyond the cut-off -/
theorem resample_diverges {randn : Nat → K} {cut : K} (hbad : ∀ k, |cut| < |randn k|) (fuel : Nat) :
    ∀ (l : List K) (pos : Nat), nOut cut l ≠ 0 → resample randn cut fuel l pos = .error .outOfFuel := by
  induction fuel with
  | zero =>
    intro l pos h0
    rw [resample, if_neg (fun hh => h0 (all_iff_nOut.1 hh))]
  | succ n ih =>
    intro l pos h0
    rw [resample, if_neg (fun hh => h0 (all_iff_nOut.1 hh))]
    refine ih _ _ ?_
    have : nOut cut (redraw randn cut pos l).1 = nOut cut l := by
      clear ih h0
      induction l generalizing pos with
      | nil => simp [redraw, nOut]
      | cons x xs ih =>
        rw [redraw]
        split
        · rename_i h
          have := ih (pos + 1)
          unfold nOut at this ⊢
          simp [h, hbad, this]
        · rename_i h
          have := ih pos
          unfold nOut at this ⊢
          simp [h, this]
    rw [this]; exact h0

end PySC
