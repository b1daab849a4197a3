import Verif.Lemmas.Random
import Mathlib.Probability.ProductMeasure
import Mathlib.Probability.Independence.InfinitePi
import Mathlib.Probability.ConditionalProbability
/-
The law of the numbers made by `randnc`: the slots of the output wait in a queue for acceptable numbers; a slot whose
number is beyond the cut-off goes to the end of the queue.  The probability that a queue is served with numbers from
given sets is found from the first number drawn.
-/
set_option linter.unusedSectionVars false
namespace PySC
open MeasureTheory ProbabilityTheory

/-- the stream without its first number -/
def tailOf (x : ℕ → ℝ) : ℕ → ℝ := fun k => x (k + 1)

/-- the stream from a position on -/
def streamFrom (x : ℕ → ℝ) (pos : ℕ) : ℕ → ℝ := fun k => x (pos + k)

/-- the slots in the queue `q` are served from the stream `x` by at most `N` numbers: every slot gets the first number in
`A` offered to it, which is in the set wanted of it, and the numbers left over are in `C` -/
def Served (A : Set ℝ) (C : Set (ℕ → ℝ)) : ℕ → List (Set ℝ) → (ℕ → ℝ) → Prop
  | _, [], x => x ∈ C
  | 0, _ :: _, _ => False
  | N + 1, B :: q, x =>
    (x 0 ∈ A ∧ x 0 ∈ B ∧ Served A C N q (tailOf x)) ∨ (x 0 ∉ A ∧ Served A C N (q ++ [B]) (tailOf x))

/-- the streams from which the queue is served -/
def Serving (A : Set ℝ) (C : Set (ℕ → ℝ)) (q : List (Set ℝ)) : Set (ℕ → ℝ) := {x | ∃ N, Served A C N q x}

theorem serving_nil (A : Set ℝ) (C : Set (ℕ → ℝ)) : Serving A C [] = C := by
  ext x; simp [Serving, Served]

theorem serving_cons (A B : Set ℝ) (C : Set (ℕ → ℝ)) (q : List (Set ℝ)) : Serving A C (B :: q) =
    {x | x 0 ∈ A ∩ B ∧ tailOf x ∈ Serving A C q} ∪ {x | x 0 ∈ Aᶜ ∧ tailOf x ∈ Serving A C (q ++ [B])} := by
  ext x
  simp only [Serving, Set.mem_setOf_eq, Set.mem_union, Set.mem_inter_iff, Set.mem_compl_iff]
  constructor
  · rintro ⟨N, h⟩
    cases N with
    | zero => exact h.elim
    | succ N =>
      rcases h with ⟨a, b, h⟩ | ⟨a, h⟩
      · exact Or.inl ⟨⟨a, b⟩, N, h⟩
      · exact Or.inr ⟨a, N, h⟩
  · rintro (⟨⟨a, b⟩, N, h⟩ | ⟨a, N, h⟩)
    · exact ⟨N + 1, Or.inl ⟨a, b, h⟩⟩
    · exact ⟨N + 1, Or.inr ⟨a, h⟩⟩

theorem measurable_tailOf : Measurable tailOf := by
  unfold tailOf; fun_prop

theorem measurable_served {A : Set ℝ} {C : Set (ℕ → ℝ)} (hA : MeasurableSet A) (hC : MeasurableSet C) :
    ∀ (N : ℕ) (q : List (Set ℝ)), (∀ B ∈ q, MeasurableSet B) → MeasurableSet {x | Served A C N q x} := by
  intro N
  induction N with
  | zero =>
    intro q hq
    cases q with
    | nil => simpa [Served] using hC
    | cons B q => simp [Served]
  | succ N ih =>
    intro q hq
    cases q with
    | nil => simpa [Served] using hC
    | cons B q =>
      have e0 : Measurable (fun x : ℕ → ℝ => x 0) := by fun_prop
      have hB := hq B (by simp)
      have h1 := ih q (fun b hb => hq b (by simp [hb]))
      have h2 := ih (q ++ [B]) (fun b hb => hq b (by simp at hb ⊢; tauto))
      exact (((e0 hA).inter ((e0 hB).inter (measurable_tailOf h1)))).union
        ((e0 hA.compl).inter (measurable_tailOf h2))

theorem measurable_serving {A : Set ℝ} {C : Set (ℕ → ℝ)} (hA : MeasurableSet A) (hC : MeasurableSet C)
    (q : List (Set ℝ)) (hq : ∀ B ∈ q, MeasurableSet B) : MeasurableSet (Serving A C q) := by
  have : Serving A C q = ⋃ N, {x | Served A C N q x} := by ext x; simp [Serving]
  rw [this]
  exact MeasurableSet.iUnion (fun N => measurable_served hA hC N q hq)

/-- the law of a stream of independent numbers, each distributed by `μ` -/
noncomputable abbrev streamLaw (μ : Measure ℝ) [IsProbabilityMeasure μ] : Measure (ℕ → ℝ) :=
  Measure.infinitePi (fun _ : ℕ => μ)

/-- a number before a stream -/
def consStream (p : ℝ × (ℕ → ℝ)) : ℕ → ℝ
  | 0 => p.1
  | k + 1 => p.2 k

theorem measurable_consStream : Measurable consStream := by
  refine measurable_pi_iff.2 (fun k => ?_)
  cases k with
  | zero => exact measurable_fst
  | succ k => exact (measurable_pi_apply k).comp measurable_snd

/-- a stream is a number and an independent stream of the same law -/
theorem map_consStream (μ : Measure ℝ) [IsProbabilityMeasure μ] :
    (μ.prod (streamLaw μ)).map consStream = streamLaw μ := by
  classical
  refine Measure.eq_infinitePi _ (fun s t ht => ?_)
  let t' : ℕ → Set ℝ := fun i => if i ∈ s then t i else Set.univ
  have ht' : ∀ i, MeasurableSet (t' i) := by
    intro i; dsimp only [t']; split
    · exact ht i
    · exact .univ
  obtain ⟨N, hN⟩ : ∃ N, ∀ i ∈ s, i < N + 1 := ⟨s.sup id, fun i hi => Nat.lt_succ_of_le (Finset.le_sup (f := id) hi)⟩
  have hpi : Set.pi (↑s) t = Set.pi (↑(Finset.range (N + 1))) t' := by
    ext x
    simp only [Set.mem_pi, Finset.mem_coe, Finset.mem_range, t']
    constructor
    · intro h i _
      split
      · exact h i ‹_›
      · trivial
    · intro h i hi
      have := h i (hN i hi)
      rwa [if_pos hi] at this
  have hprod : ∏ i ∈ s, μ (t i) = ∏ i ∈ Finset.range (N + 1), μ (t' i) := by
    rw [← Finset.prod_subset (s₁ := s) (fun i hi => Finset.mem_range.2 (hN i hi))]
    · exact Finset.prod_congr rfl (fun i hi => by simp [t', hi])
    · intro i _ hi; simp [t', hi]
  rw [hprod, hpi, Measure.map_apply measurable_consStream
    (MeasurableSet.pi (Finset.countable_toSet _) (fun i _ => ht' i))]
  have hpre : consStream ⁻¹' (Set.pi (↑(Finset.range (N + 1))) t') =
      t' 0 ×ˢ Set.pi (↑(Finset.range N)) (fun i => t' (i + 1)) := by
    ext ⟨a, y⟩
    simp only [Set.mem_preimage, Set.mem_pi, Finset.mem_coe, Finset.mem_range, Set.mem_prod]
    constructor
    · intro h
      exact ⟨h 0 (Nat.succ_pos _), fun i hi => h (i + 1) (Nat.succ_lt_succ hi)⟩
    · rintro ⟨h0, h⟩ i hi
      cases i with
      | zero => exact h0
      | succ i => exact h i (Nat.lt_of_succ_lt_succ hi)
  rw [hpre, Measure.prod_prod, Measure.infinitePi_pi _ (fun i _ => ht' (i + 1)), Finset.prod_range_succ', mul_comm]

/-- the first number and the rest of the stream are independent -/
theorem streamLaw_head (μ : Measure ℝ) [IsProbabilityMeasure μ] {S : Set ℝ} {T : Set (ℕ → ℝ)}
    (hS : MeasurableSet S) (hT : MeasurableSet T) :
    streamLaw μ {x | x 0 ∈ S ∧ tailOf x ∈ T} = μ S * streamLaw μ T := by
  have e0 : Measurable (fun x : ℕ → ℝ => x 0) := by fun_prop
  have hm : MeasurableSet {x : ℕ → ℝ | x 0 ∈ S ∧ tailOf x ∈ T} := (e0 hS).inter (measurable_tailOf hT)
  conv_lhs => rw [← map_consStream μ]
  rw [Measure.map_apply measurable_consStream hm]
  have : consStream ⁻¹' {x : ℕ → ℝ | x 0 ∈ S ∧ tailOf x ∈ T} = S ×ˢ T := by
    ext ⟨a, y⟩; rfl
  rw [this, Measure.prod_prod]

/-- first-step analysis of the queue -/
theorem serving_step (μ : Measure ℝ) [IsProbabilityMeasure μ] {A B : Set ℝ} {C : Set (ℕ → ℝ)} (hA : MeasurableSet A)
    (hC : MeasurableSet C) (q : List (Set ℝ)) (hB : MeasurableSet B) (hq : ∀ B ∈ q, MeasurableSet B) :
    streamLaw μ (Serving A C (B :: q)) =
      μ (A ∩ B) * streamLaw μ (Serving A C q) + μ Aᶜ * streamLaw μ (Serving A C (q ++ [B])) := by
  have h1 := measurable_serving hA hC q hq
  have h2 := measurable_serving hA hC (q ++ [B]) (fun b hb => by
    simp at hb; rcases hb with hb | rfl
    · exact hq b hb
    · exact hB)
  have e0 : Measurable (fun x : ℕ → ℝ => x 0) := by fun_prop
  rw [serving_cons, measure_union, streamLaw_head μ (hA.inter hB) h1, streamLaw_head μ hA.compl h2]
  · rw [Set.disjoint_left]
    rintro x ⟨⟨a, -⟩, -⟩ ⟨b, -⟩
    exact b a
  · exact (e0 hA.compl).inter (measurable_tailOf h2)

/-- the probability that a queue is served -/
theorem serving_law (μ : Measure ℝ) [IsProbabilityMeasure μ] {A : Set ℝ} {C : Set (ℕ → ℝ)} (hA : MeasurableSet A)
    (hpos : μ A ≠ 0) (hC : MeasurableSet C) : ∀ (q : List (Set ℝ)), (∀ B ∈ q, MeasurableSet B) →
    streamLaw μ (Serving A C q) = (q.map (fun B => μ (A ∩ B) / μ A)).prod * streamLaw μ C := by
  have key : ∀ (n : ℕ) (q : List (Set ℝ)), q.length = n → (∀ B ∈ q, MeasurableSet B) →
      (streamLaw μ).real (Serving A C q) = (q.map (fun B => μ.real (A ∩ B) / μ.real A)).prod * (streamLaw μ).real C := by
    have hrho : μ.real Aᶜ = 1 - μ.real A := by rw [measureReal_compl hA]; simp
    have hApos : 0 < μ.real A := ENNReal.toReal_pos hpos (measure_ne_top _ _)
    have hAle : μ.real A ≤ 1 := measureReal_le_one
    intro n
    induction n with
    | zero =>
      intro q hq _
      rw [List.length_eq_zero_iff] at hq
      subst hq; simp [serving_nil]
    | succ n ih =>
      -- the defect of the product formula shrinks by the same factor at every turn of the queue
      let v : Set ℝ → ℝ := fun B => μ.real (A ∩ B) / μ.real A
      let δ : List (Set ℝ) → ℝ := fun q => (streamLaw μ).real (Serving A C q) - (q.map v).prod * (streamLaw μ).real C
      have turn : ∀ B q, (B :: q).length = n + 1 → (∀ b ∈ B :: q, MeasurableSet b) →
          δ (B :: q) = μ.real Aᶜ * δ (q ++ [B]) := by
        intro B q hl hm
        have hq : ∀ b ∈ q, MeasurableSet b := fun b hb => hm b (by simp [hb])
        have hB := hm B (by simp)
        have hst := serving_step μ hA hC q hB hq
        have hst' : (streamLaw μ).real (Serving A C (B :: q)) = μ.real (A ∩ B) * (streamLaw μ).real (Serving A C q) +
            μ.real Aᶜ * (streamLaw μ).real (Serving A C (q ++ [B])) := by
          simp only [measureReal_def]
          rw [hst, ENNReal.toReal_add, ENNReal.toReal_mul, ENNReal.toReal_mul]
          · exact ENNReal.mul_ne_top (measure_ne_top _ _) (measure_ne_top _ _)
          · exact ENNReal.mul_ne_top (measure_ne_top _ _) (measure_ne_top _ _)
        have hv : μ.real (A ∩ B) = μ.real A * v B := by
          simp only [v]; field_simp
        simp only [δ]
        rw [hst', ih q (by simpa using hl) hq, hv, hrho]
        simp only [List.map_cons, List.prod_cons, List.map_append, List.prod_append, List.map_nil, List.prod_nil, v]
        ring
      have turns : ∀ (a b : List (Set ℝ)), (a ++ b).length = n + 1 → (∀ s ∈ a ++ b, MeasurableSet s) →
          δ (a ++ b) = μ.real Aᶜ ^ a.length * δ (b ++ a) := by
        intro a
        induction a with
        | nil => intro b _ _; simp
        | cons B a iha =>
          intro b hl hm
          rw [List.cons_append, turn B (a ++ b) (by simpa using hl) (by simpa using hm), List.append_assoc,
            iha (b ++ [B]) (by simp at hl ⊢; omega) (by
              simp at hm ⊢; rintro s (h | h | rfl)
              · exact hm.2 s (Or.inl h)
              · exact hm.2 s (Or.inr h)
              · exact hm.1)]
          simp only [List.append_assoc, List.singleton_append, List.length_cons]
          ring
      intro q hq hm
      have h := turns q [] (by simpa using hq) (by simpa using hm)
      simp only [List.append_nil, List.nil_append, hq] at h
      have hlt : μ.real Aᶜ ^ (n + 1) < 1 := by
        apply pow_lt_one₀ measureReal_nonneg _ (Nat.succ_ne_zero n)
        rw [hrho]; linarith
      have h0 : δ q = 0 := by
        by_contra hne
        have : μ.real Aᶜ ^ (n + 1) = 1 := by
          have h' : δ q * (μ.real Aᶜ ^ (n + 1) - 1) = 0 := by linarith
          rcases mul_eq_zero.1 h' with h' | h'
          · exact (hne h').elim
          · linarith
        linarith
      simp only [δ, v] at h0
      linarith
  intro q hq
  have h := key q.length q rfl hq
  rw [← ENNReal.ofReal_toReal (measure_ne_top (streamLaw μ) (Serving A C q)), ← measureReal_def, h,
    ENNReal.ofReal_mul (by
      apply List.prod_nonneg
      intro r hr
      obtain ⟨B, -, rfl⟩ := List.mem_map.1 hr
      positivity), measureReal_def (streamLaw μ) C, ENNReal.ofReal_toReal (measure_ne_top _ _)]
  congr 1
  clear h hq
  induction q with
  | nil => simp
  | cons B q ih =>
    simp only [List.map_cons, List.prod_cons]
    rw [ENNReal.ofReal_mul (by positivity), ih, measureReal_def μ A,
      ENNReal.ofReal_div_of_pos (ENNReal.toReal_pos hpos (measure_ne_top _ _))]
    simp [measureReal_def]

end PySC
