import Verif.Lemmas.Truncated
/- the loop of `randnc` serves the slots of its output as the queue of Lemmas/Truncated.lean does -/
set_option linter.unusedSectionVars false
namespace PySC
open MeasureTheory ProbabilityTheory

/-- the numbers within the cut-off -/
def within (cut : ℝ) : Set ℝ := {x | |x| ≤ |cut|}

theorem measurable_within (cut : ℝ) : MeasurableSet (within cut) :=
  measurableSet_le (by fun_prop) (by fun_prop)

/-- the sets wanted for the slots which still hold a number beyond the cut-off -/
noncomputable def waiting (cut : ℝ) : List ℝ → List (Set ℝ) → List (Set ℝ)
  | x :: xs, B :: Bs => if |cut| < |x| then B :: waiting cut xs Bs else waiting cut xs Bs
  | _, _ => []

/-- the numbers within the cut-off are in the sets wanted -/
def Suits (cut : ℝ) (out : List ℝ) (Bs : List (Set ℝ)) : Prop := List.Forall₂ (fun x B => |x| ≤ |cut| → x ∈ B) out Bs

theorem streamFrom_zero (x : ℕ → ℝ) (pos : ℕ) : streamFrom x pos 0 = x pos := by simp [streamFrom]

theorem tailOf_streamFrom (x : ℕ → ℝ) (pos : ℕ) : tailOf (streamFrom x pos) = streamFrom x (pos + 1) := by
  funext k; simp only [tailOf, streamFrom]; congr 1; omega

theorem served_length {A : Set ℝ} {C : Set (ℕ → ℝ)} : ∀ {N : ℕ} {q : List (Set ℝ)} {x : ℕ → ℝ}, Served A C N q x →
    q.length ≤ N := by
  intro N
  induction N with
  | zero =>
    intro q x h
    cases q with
    | nil => simp
    | cons B q => exact h.elim
  | succ N ih =>
    intro q x h
    cases q with
    | nil => simp
    | cons B q =>
      rcases h with ⟨-, -, h⟩ | ⟨-, h⟩
      · have := ih h; simp; omega
      · have := ih h; simp at this ⊢; omega

/-- one pass of the loop is one turn of the queue -/
theorem served_pass (x : ℕ → ℝ) (cut : ℝ) (C : Set (ℕ → ℝ)) (M : ℕ) : ∀ (out : List ℝ) (Bs t : List (Set ℝ)) (pos : ℕ),
    (Suits cut out Bs ∧ Served (within cut) C (M + (waiting cut out Bs).length) (waiting cut out Bs ++ t) (streamFrom x pos)) ↔
    (Suits cut (redraw x cut pos out).1 Bs ∧
      Served (within cut) C M (t ++ waiting cut (redraw x cut pos out).1 Bs) (streamFrom x (redraw x cut pos out).2)) := by
  intro out
  induction out with
  | nil =>
    intro Bs t pos
    cases Bs <;> simp [Suits, waiting, redraw]
  | cons a out ih =>
    intro Bs t pos
    cases Bs with
    | nil =>
      simp only [redraw]
      split <;> simp [Suits]
    | cons B Bs =>
      by_cases ha : |cut| < |a|
      · have hna : ¬ |a| ≤ |cut| := not_le.2 ha
        have e1 : waiting cut (a :: out) (B :: Bs) = B :: waiting cut out Bs := by simp [waiting, ha]
        have e2 : redraw x cut pos (a :: out) = (x pos :: (redraw x cut (pos + 1) out).1, (redraw x cut (pos + 1) out).2) := by
          simp [redraw, ha]
        have e3 : Suits cut (a :: out) (B :: Bs) ↔ Suits cut out Bs := by simp [Suits, hna]
        rw [e1, e2, e3]
        dsimp only
        have hl : M + (B :: waiting cut out Bs).length = (M + (waiting cut out Bs).length) + 1 := by simp; omega
        rw [hl]
        simp only [List.cons_append, Served, streamFrom_zero, tailOf_streamFrom]
        by_cases hx : |cut| < |x pos|
        · have hnx : ¬ |x pos| ≤ |cut| := not_le.2 hx
          have hA : x pos ∉ within cut := hnx
          have e4 : waiting cut (x pos :: (redraw x cut (pos + 1) out).1) (B :: Bs) =
              B :: waiting cut (redraw x cut (pos + 1) out).1 Bs := by simp [waiting, hx]
          have e5 : Suits cut (x pos :: (redraw x cut (pos + 1) out).1) (B :: Bs) ↔
              Suits cut (redraw x cut (pos + 1) out).1 Bs := by simp [Suits, hnx]
          rw [e4, e5]
          have := ih Bs (t ++ [B]) (pos + 1)
          simp only [hA, false_and, not_false_eq_true, true_and, false_or]
          rw [List.append_assoc, this, List.append_assoc, List.singleton_append]
        · have hx' : |x pos| ≤ |cut| := not_lt.1 hx
          have hA : x pos ∈ within cut := hx'
          have e4 : waiting cut (x pos :: (redraw x cut (pos + 1) out).1) (B :: Bs) =
              waiting cut (redraw x cut (pos + 1) out).1 Bs := by simp [waiting, hx]
          have e5 : Suits cut (x pos :: (redraw x cut (pos + 1) out).1) (B :: Bs) ↔
              x pos ∈ B ∧ Suits cut (redraw x cut (pos + 1) out).1 Bs := by simp [Suits, hx']
          rw [e4, e5]
          have := ih Bs t (pos + 1)
          simp only [hA, true_and, not_true_eq_false, false_and, or_false]
          tauto
      · have ha' : |a| ≤ |cut| := not_lt.1 ha
        have e1 : waiting cut (a :: out) (B :: Bs) = waiting cut out Bs := by simp [waiting, ha]
        have e2 : redraw x cut pos (a :: out) = (a :: (redraw x cut pos out).1, (redraw x cut pos out).2) := by
          simp [redraw, ha]
        have e3 : Suits cut (a :: out) (B :: Bs) ↔ (a ∈ B ∧ Suits cut out Bs) := by simp [Suits, ha']
        have e4 : waiting cut (a :: (redraw x cut pos out).1) (B :: Bs) = waiting cut (redraw x cut pos out).1 Bs := by
          simp [waiting, ha]
        have e5 : Suits cut (a :: (redraw x cut pos out).1) (B :: Bs) ↔ (a ∈ B ∧ Suits cut (redraw x cut pos out).1 Bs) := by
          simp [Suits, ha']
        rw [e1, e2, e3]
        dsimp only
        rw [e4, e5]
        have := ih Bs t pos
        tauto

theorem waiting_nil_iff {cut : ℝ} : ∀ {out : List ℝ} {Bs : List (Set ℝ)}, Suits cut out Bs →
    (waiting cut out Bs = [] ↔ out.all (fun x => decide (|x| ≤ |cut|)) = true) := by
  intro out
  induction out with
  | nil => intro Bs _; simp [waiting]
  | cons a out ih =>
    intro Bs h
    cases h with
    | cons h1 h2 =>
      have := ih h2
      by_cases ha : |cut| < |a|
      · simp [waiting, ha]
      · simp only [waiting, if_neg ha, this]
        simp [not_lt.1 ha]

theorem suits_all {cut : ℝ} {out : List ℝ} {Bs : List (Set ℝ)} (h : out.all (fun x => decide (|x| ≤ |cut|)) = true) :
    Suits cut out Bs ↔ List.Forall₂ (fun x B => x ∈ B) out Bs := by
  induction out generalizing Bs with
  | nil => cases Bs <;> simp [Suits]
  | cons a out ih =>
    cases Bs with
    | nil => simp [Suits]
    | cons B Bs =>
      simp only [List.all_cons, Bool.and_eq_true, decide_eq_true_eq] at h
      have := ih (Bs := Bs) h.2
      simp only [Suits, List.forall₂_cons] at this ⊢
      rw [this]; tauto

/-- the loop ends with numbers from the sets wanted exactly if the slots still waiting are served -/
theorem resample_served (x : ℕ → ℝ) (cut : ℝ) (C : Set (ℕ → ℝ)) (out : List ℝ) (Bs : List (Set ℝ)) (pos : ℕ) :
    (∃ fuel l p, resample x cut fuel out pos = .ok (l, p) ∧ List.Forall₂ (fun x B => x ∈ B) l Bs ∧ streamFrom x p ∈ C) ↔
    (Suits cut out Bs ∧ streamFrom x pos ∈ Serving (within cut) C (waiting cut out Bs)) := by
  constructor
  · rintro ⟨fuel, l, p, h, hl, hC⟩
    induction fuel generalizing out pos with
    | zero =>
      unfold resample at h
      split at h
      · rename_i hall
        cases h
        have hs := (suits_all hall).2 hl
        refine ⟨hs, ?_⟩
        rw [(waiting_nil_iff hs).2 hall, serving_nil]; exact hC
      · exact absurd h (by simp)
    | succ fuel ih =>
      unfold resample at h
      split at h
      · rename_i hall
        cases h
        have hs := (suits_all hall).2 hl
        refine ⟨hs, ?_⟩
        rw [(waiting_nil_iff hs).2 hall, serving_nil]; exact hC
      · obtain ⟨h1, M, h2⟩ := ih _ _ h
        have := (served_pass x cut C M out Bs [] pos).2 ⟨h1, by simpa using h2⟩
        exact ⟨this.1, _, by simpa using this.2⟩
  · rintro ⟨hs, N, hN⟩
    induction N using Nat.strong_induction_on generalizing out pos with
    | _ N ih =>
      by_cases hall : out.all (fun x => decide (|x| ≤ |cut|)) = true
      · refine ⟨0, out, pos, ?_, (suits_all hall).1 hs, ?_⟩
        · unfold resample; rw [if_pos hall]
        · rw [(waiting_nil_iff hs).2 hall] at hN
          cases N <;> simpa [Served] using hN
      · have hne : waiting cut out Bs ≠ [] := fun h => hall ((waiting_nil_iff hs).1 h)
        have hlen := served_length hN
        have hpos : 0 < (waiting cut out Bs).length := List.length_pos_iff.2 hne
        obtain ⟨M, rfl⟩ : ∃ M, N = M + (waiting cut out Bs).length := ⟨N - (waiting cut out Bs).length, by omega⟩
        have := (served_pass x cut C M out Bs [] pos).1 ⟨hs, by simpa using hN⟩
        obtain ⟨fuel, l, p, h1, h2, h3⟩ := ih M (by omega) _ _ this.1 (by simpa using this.2)
        refine ⟨fuel + 1, l, p, ?_, h2, h3⟩
        unfold resample
        rw [if_neg hall]
        exact h1

theorem redraw_replicate (x : ℕ → ℝ) (cut : ℝ) : ∀ (n pos : ℕ),
    redraw x cut pos (List.replicate n (|cut| + 1)) = ((List.range n).map (fun k => x (pos + k)), pos + n) := by
  intro n
  induction n with
  | zero => intro pos; simp [redraw]
  | succ n ih =>
    intro pos
    have h : |cut| < |(|cut| + 1)| := lt_of_lt_of_le (lt_add_one _) (le_abs_self _)
    rw [List.replicate_succ]
    simp only [redraw, if_pos h, ih (pos + 1), List.range_succ_eq_map, List.map_cons, List.map_map, Prod.mk.injEq,
      List.cons.injEq, Nat.add_zero, true_and]
    refine ⟨List.map_congr_left (fun k _ => ?_), by omega⟩
    simp only [Function.comp]
    congr 1; omega

theorem waiting_replicate (cut : ℝ) : ∀ (Bs : List (Set ℝ)),
    waiting cut (List.replicate Bs.length (|cut| + 1)) Bs = Bs ∧ Suits cut (List.replicate Bs.length (|cut| + 1)) Bs := by
  have h : |cut| < |(|cut| + 1)| := lt_of_lt_of_le (lt_add_one _) (le_abs_self _)
  intro Bs
  induction Bs with
  | nil => simp [waiting, Suits]
  | cons B Bs ih =>
    simp only [List.length_cons, List.replicate_succ, waiting, if_pos h, ih.1, true_and]
    simp only [Suits, List.forall₂_cons]
    exact ⟨fun h' => absurd h (not_lt.2 h'), ih.2⟩

/-- `randnc` returns numbers from the sets wanted exactly if the queue of its slots is served -/
theorem randncFrom_served (E : Env ℝ) (x : ℕ → ℝ) (cut : ℝ) (C : Set (ℕ → ℝ)) (Bs : List (Set ℝ)) (pos : ℕ) :
    (∃ fuel l p, randncFrom { E with randn := x, fuel := fuel } cut Bs.length pos = .ok (l, p) ∧
      List.Forall₂ (fun x B => x ∈ B) l Bs ∧ streamFrom x p ∈ C) ↔
    streamFrom x pos ∈ Serving (within cut) C Bs := by
  have h := resample_served x cut C ((List.range Bs.length).map (fun k => x (pos + k))) Bs (pos + Bs.length)
  unfold randncFrom
  dsimp only
  rw [h]
  have hr := redraw_replicate x cut Bs.length pos
  have hw := waiting_replicate cut Bs
  constructor
  · rintro ⟨h1, M, h2⟩
    have := (served_pass x cut C M (List.replicate Bs.length (|cut| + 1)) Bs [] pos).2
      ⟨by rw [hr]; exact h1, by rw [hr]; simpa using h2⟩
    rw [hw.1] at this
    exact ⟨_, by simpa using this.2⟩
  · rintro ⟨N, hN⟩
    have hlen := served_length hN
    obtain ⟨M, rfl⟩ : ∃ M, N = M + Bs.length := ⟨N - Bs.length, by omega⟩
    have := (served_pass x cut C M (List.replicate Bs.length (|cut| + 1)) Bs [] pos).1
      ⟨hw.2, by rw [hw.1]; simpa using hN⟩
    rw [hr] at this
    exact ⟨this.1, M, by simpa using this.2⟩

end PySC
