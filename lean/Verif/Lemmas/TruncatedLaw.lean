import Verif.Lemmas.TruncatedRandnc
import Verif.Spec.Truncated
/- the numbers returned by calls of `randnc` as random variables -/
set_option linter.unusedSectionVars false
namespace PySC
open MeasureTheory ProbabilityTheory Spec

variable {Ω : Type} [MeasurableSpace Ω] {P : Measure Ω} [IsProbabilityMeasure P]

theorem Spec.Returns.unique {E : Env ℝ} {x : ℕ → ℝ} {cut : ℝ} {n pos : ℕ} {o o' : List ℝ} {p p' : ℕ}
    (h : Returns E x cut n pos o p) (h' : Returns E x cut n pos o' p') : o = o' ∧ p = p' := by
  obtain ⟨f, h⟩ := h
  obtain ⟨f', h'⟩ := h'
  unfold randncFrom at h h'
  dsimp only at h h'
  have a := resample_mono (Nat.le_max_left f f') h
  have b := resample_mono (Nat.le_max_right f f') h'
  rw [a] at b
  cases b
  exact ⟨rfl, rfl⟩

theorem Spec.ReturnsAll.unique {E : Env ℝ} {x : ℕ → ℝ} {calls : List (ℝ × ℕ)} : ∀ {pos : ℕ} {o o' : List (List ℝ)} {p p' : ℕ},
    ReturnsAll E x calls pos o p → ReturnsAll E x calls pos o' p' → o = o' ∧ p = p' := by
  induction calls with
  | nil =>
    rintro pos o o' p p' ⟨rfl, rfl⟩ ⟨rfl, rfl⟩
    exact ⟨rfl, rfl⟩
  | cons c calls ih =>
    rintro pos o o' p p' ⟨a, m, r, rfl, h1, h2⟩ ⟨a', m', r', rfl, h1', h2'⟩
    obtain ⟨rfl, rfl⟩ := h1.unique h1'
    obtain ⟨rfl, rfl⟩ := ih h2 h2'
    exact ⟨rfl, rfl⟩

/-- the calls behind lists of wanted sets -/
def callsOf (w : List (ℝ × List (Set ℝ))) : List (ℝ × ℕ) := w.map (fun c => (c.1, c.2.length))

/-- the streams from which all calls are served -/
def ServingAll (C : Set (ℕ → ℝ)) : List (ℝ × List (Set ℝ)) → Set (ℕ → ℝ)
  | [] => C
  | c :: w => Serving (within c.1) (ServingAll C w) c.2

theorem measurable_servingAll {C : Set (ℕ → ℝ)} (hC : MeasurableSet C) : ∀ (w : List (ℝ × List (Set ℝ))),
    (∀ c ∈ w, ∀ B ∈ c.2, MeasurableSet B) → MeasurableSet (ServingAll C w) := by
  intro w
  induction w with
  | nil => intro _; exact hC
  | cons c w ih =>
    intro h
    exact measurable_serving (measurable_within c.1) (ih (fun d hd => h d (by simp [hd]))) _ (h c (by simp))

theorem servingAll_law (μ : Measure ℝ) [IsProbabilityMeasure μ] {C : Set (ℕ → ℝ)} (hC : MeasurableSet C) :
    ∀ (w : List (ℝ × List (Set ℝ))), (∀ c ∈ w, μ (within c.1) ≠ 0) → (∀ c ∈ w, ∀ B ∈ c.2, MeasurableSet B) →
    streamLaw μ (ServingAll C w) = ((w.flatMap (fun c => c.2.map (fun B => μ[|within c.1] B))).prod) * streamLaw μ C := by
  intro w
  induction w with
  | nil => intro _ _; simp [ServingAll]
  | cons c w ih =>
    intro hp h
    have hm := measurable_servingAll hC w (fun d hd => h d (by simp [hd]))
    simp only [ServingAll]
    rw [serving_law μ (measurable_within c.1) (hp c (by simp)) hm c.2 (h c (by simp)),
      ih (fun d hd => hp d (by simp [hd])) (fun d hd => h d (by simp [hd])), List.flatMap_cons, List.prod_append, mul_assoc]
    congr 2
    refine List.map_congr_left (fun B _ => ?_)
    rw [cond_apply (measurable_within c.1), ENNReal.div_eq_inv_mul]

/-- the calls return numbers from the sets wanted exactly if all are served -/
theorem returnsAll_served (E : Env ℝ) (x : ℕ → ℝ) (C : Set (ℕ → ℝ)) : ∀ (w : List (ℝ × List (Set ℝ))) (pos : ℕ),
    (∃ outs p, ReturnsAll E x (callsOf w) pos outs p ∧ List.Forall₂ (List.Forall₂ (fun x B => x ∈ B)) outs (w.map Prod.snd) ∧
      streamFrom x p ∈ C) ↔ streamFrom x pos ∈ ServingAll C w := by
  intro w
  induction w with
  | nil =>
    intro pos
    simp [callsOf, ReturnsAll, ServingAll]
  | cons c w ih =>
    intro pos
    simp only [ServingAll]
    rw [← randncFrom_served E]
    constructor
    · rintro ⟨outs, p, ⟨o, m, r, rfl, ⟨f, h1⟩, h2⟩, h3, h4⟩
      simp only [List.map_cons, List.forall₂_cons] at h3
      exact ⟨f, o, m, h1, h3.1, (ih m).1 ⟨r, p, h2, h3.2, h4⟩⟩
    · rintro ⟨f, o, m, h1, h2, h3⟩
      obtain ⟨r, p, h4, h5, h6⟩ := (ih m).2 h3
      exact ⟨o :: r, p, ⟨o, m, r, rfl, ⟨f, h1⟩, h4⟩, List.Forall₂.cons h2 h5, h6⟩

/-- the stream from a position on has the same law -/
theorem Spec.IndependentWithLaws.streamFrom_law {X : ℕ → Ω → ℝ} {μ : Measure ℝ} [IsProbabilityMeasure μ]
    (hX : IndependentWithLaws P X (fun _ => μ)) (pos : ℕ) :
    Measurable (fun ω => streamFrom (fun k => X k ω) pos) ∧ P.map (fun ω => streamFrom (fun k => X k ω) pos) = streamLaw μ := by
  constructor
  · exact measurable_pi_iff.2 (fun k => hX.measurable (pos + k))
  · have hi : iIndepFun (fun k => X (pos + k)) P := hX.independent.precomp (g := fun k => pos + k) (fun a b h => by simpa using h)
    have := hi.map_fun_eq_infinitePi_map (fun k => hX.measurable (pos + k))
    simp only [hX.law] at this
    exact this

/-- the event that the calls return numbers from given sets and leave a rest of the stream in a given set -/
def Hits (E : Env ℝ) (X : ℕ → Ω → ℝ) (pos : ℕ) (w : List (ℝ × List (Set ℝ))) (C : Set (ℕ → ℝ)) : Set Ω :=
  {ω | ∃ outs p, ReturnsAll E (fun k => X k ω) (callsOf w) pos outs p ∧
    List.Forall₂ (List.Forall₂ (fun x B => x ∈ B)) outs (w.map Prod.snd) ∧ streamFrom (fun k => X k ω) p ∈ C}

theorem hits_eq (E : Env ℝ) (X : ℕ → Ω → ℝ) (pos : ℕ) (w : List (ℝ × List (Set ℝ))) (C : Set (ℕ → ℝ)) :
    Hits E X pos w C = (fun ω => streamFrom (fun k => X k ω) pos) ⁻¹' (ServingAll C w) := by
  ext ω
  rw [Set.mem_preimage, ← returnsAll_served E]
  rfl

theorem hits_measurable (E : Env ℝ) {X : ℕ → Ω → ℝ} {μ : Measure ℝ} [IsProbabilityMeasure μ]
    (hX : IndependentWithLaws P X (fun _ => μ)) (pos : ℕ) (w : List (ℝ × List (Set ℝ))) (C : Set (ℕ → ℝ))
    (hB : ∀ c ∈ w, ∀ B ∈ c.2, MeasurableSet B) (hC : MeasurableSet C) : MeasurableSet (Hits E X pos w C) := by
  rw [hits_eq]
  exact (hX.streamFrom_law pos).1 (measurable_servingAll hC w hB)

theorem hits_prob (E : Env ℝ) {X : ℕ → Ω → ℝ} {μ : Measure ℝ} [IsProbabilityMeasure μ]
    (hX : IndependentWithLaws P X (fun _ => μ)) (pos : ℕ) (w : List (ℝ × List (Set ℝ))) (hpos : ∀ c ∈ w, μ (within c.1) ≠ 0)
    (C : Set (ℕ → ℝ)) (hB : ∀ c ∈ w, ∀ B ∈ c.2, MeasurableSet B) (hC : MeasurableSet C) :
    P (Hits E X pos w C) = ((w.flatMap (fun c => c.2.map (fun B => μ[|within c.1] B))).prod) * streamLaw μ C := by
  have hm := measurable_servingAll hC w hB
  rw [hits_eq, ← Measure.map_apply (hX.streamFrom_law pos).1 hm, (hX.streamFrom_law pos).2, servingAll_law μ hC w hpos hB]

/-- the wanted sets of all numbers, cut into the pieces returned by the calls -/
def pieces : List (ℝ × ℕ) → List (Set ℝ) → List (ℝ × List (Set ℝ))
  | [], _ => []
  | (c, n) :: calls, Bs => (c, Bs.take n) :: pieces calls (Bs.drop n)

/-- the number of numbers returned -/
def total (calls : List (ℝ × ℕ)) : ℕ := (cutoffs calls).length

theorem total_cons (c : ℝ × ℕ) (calls : List (ℝ × ℕ)) : total (c :: calls) = c.2 + total calls := by
  simp [total, cutoffs]

theorem pieces_spec : ∀ (calls : List (ℝ × ℕ)) (Bs : List (Set ℝ)), Bs.length = total calls →
    callsOf (pieces calls Bs) = calls ∧
    (∀ (g : ℝ → Set ℝ → ENNReal), (pieces calls Bs).flatMap (fun c => c.2.map (fun B => g c.1 B)) =
      List.zipWith (fun c B => g c B) (cutoffs calls) Bs) ∧
    (∀ c ∈ pieces calls Bs, ∀ B ∈ c.2, B ∈ Bs) ∧ (∀ c ∈ pieces calls Bs, ∃ d ∈ calls, d.1 = c.1) := by
  intro calls
  induction calls with
  | nil =>
    intro Bs h
    simp [total, cutoffs] at h
    subst h
    simp [pieces, callsOf, cutoffs]
  | cons c calls ih =>
    intro Bs h
    obtain ⟨c, n⟩ := c
    rw [total_cons] at h
    obtain ⟨h1, h2, h3, h4⟩ := ih (Bs.drop n) (by simp at h ⊢; omega)
    have hn : (Bs.take n).length = n := by simp at h ⊢; omega
    refine ⟨?_, fun g => ?_, ?_, ?_⟩
    · simp only [pieces, callsOf, List.map_cons, hn] at h1 ⊢
      rw [h1]
    · simp only [pieces, List.flatMap_cons, h2]
      conv_rhs => rw [← List.take_append_drop n Bs]
      simp only [cutoffs, List.flatMap_cons]
      rw [List.zipWith_append (by simp [hn])]
      congr 1
      apply List.ext_getElem
      · simp at h; simp
      · intro i h1 h2
        simp
    · intro d hd B hB
      simp only [pieces, List.mem_cons] at hd
      rcases hd with rfl | hd
      · exact List.mem_of_mem_take hB
      · exact List.mem_of_mem_drop (h3 d hd B hB)
    · intro d hd
      simp only [pieces, List.mem_cons] at hd
      rcases hd with rfl | hd
      · exact ⟨(c, n), by simp, rfl⟩
      · obtain ⟨e, he, hee⟩ := h4 d hd
        exact ⟨e, by simp [he], hee⟩

theorem returns_length {E : Env ℝ} {x : ℕ → ℝ} {cut : ℝ} {n pos : ℕ} {o : List ℝ} {p : ℕ} (h : Returns E x cut n pos o p) :
    o.length = n := by
  obtain ⟨f, h⟩ := h
  exact (randncFrom_eq_ok h).2.1

theorem returnsAll_length {E : Env ℝ} {x : ℕ → ℝ} {calls : List (ℝ × ℕ)} : ∀ {pos : ℕ} {outs : List (List ℝ)} {p : ℕ},
    ReturnsAll E x calls pos outs p → outs.flatten.length = total calls := by
  induction calls with
  | nil =>
    rintro pos outs p ⟨rfl, -⟩
    simp [total, cutoffs]
  | cons c calls ih =>
    rintro pos outs p ⟨o, m, r, rfl, h1, h2⟩
    rw [List.flatten_cons, List.length_append, ih h2, returns_length h1, total_cons]

theorem forall₂_append_iff {α β : Type} {R : α → β → Prop} {a a' : List α} {b b' : List β} (h : a.length = b.length) :
    List.Forall₂ R (a ++ a') (b ++ b') ↔ List.Forall₂ R a b ∧ List.Forall₂ R a' b' := by
  induction a generalizing b with
  | nil =>
    cases b with
    | nil => simp
    | cons _ _ => simp at h
  | cons x a ih =>
    cases b with
    | nil => simp at h
    | cons y b =>
      simp only [List.cons_append, List.forall₂_cons, ih (by simpa using h)]
      tauto

theorem forall₂_pieces {E : Env ℝ} {x : ℕ → ℝ} {calls : List (ℝ × ℕ)} : ∀ {Bs : List (Set ℝ)} (_ : Bs.length = total calls)
    {pos : ℕ} {outs : List (List ℝ)} {p : ℕ} (_ : ReturnsAll E x calls pos outs p),
    List.Forall₂ (List.Forall₂ (fun x B => x ∈ B)) outs ((pieces calls Bs).map Prod.snd) ↔
      List.Forall₂ (fun x B => x ∈ B) outs.flatten Bs := by
  induction calls with
  | nil =>
    rintro Bs h pos outs p ⟨rfl, -⟩
    simp [total, cutoffs] at h
    subst h
    simp [pieces]
  | cons c calls ih =>
    rintro Bs h pos outs p ⟨o, m, r, rfl, h1, h2⟩
    obtain ⟨c, n⟩ := c
    rw [total_cons] at h
    have hl : o.length = n := returns_length h1
    have := ih (Bs := Bs.drop n) (by simp at h ⊢; omega) h2
    simp only [pieces, List.map_cons, List.forall₂_cons, this, List.flatten_cons]
    conv_rhs => rw [← List.take_append_drop n Bs]
    rw [forall₂_append_iff]
    rw [hl]; simp at h ⊢; omega

theorem forall₂_ofFn {α β : Type} {n : ℕ} {R : α → β → Prop} {f : Fin n → α} {g : Fin n → β} :
    List.Forall₂ R (List.ofFn f) (List.ofFn g) ↔ ∀ k, R (f k) (g k) := by
  rw [List.forall₂_iff_get]
  simp only [List.length_ofFn, true_and, List.get_eq_getElem, List.getElem_ofFn]
  constructor
  · intro h k; simpa using h k.1 k.2 k.2
  · intro h i h1 h2; exact h ⟨i, h1⟩

/-- the numbers and the rest of the stream, as random variables (zero where the loops never end) -/
noncomputable def returned (E : Env ℝ) (X : ℕ → Ω → ℝ) (calls : List (ℝ × ℕ)) (pos : ℕ) (ω : Ω) :
    (Fin (total calls) → ℝ) × (ℕ → ℝ) := by
  classical
  exact if h : ∃ (z : Fin (total calls) → ℝ) (p : ℕ) (outs : List (List ℝ)), ReturnsAll E (fun k => X k ω) calls pos outs p ∧
      outs.flatten = List.ofFn z
    then (h.choose, streamFrom (fun k => X k ω) h.choose_spec.choose) else (fun _ => 0, fun _ => 0)

theorem returned_of {E : Env ℝ} {X : ℕ → Ω → ℝ} {calls : List (ℝ × ℕ)} {pos : ℕ} {ω : Ω} {z : Fin (total calls) → ℝ} {p : ℕ}
    {outs : List (List ℝ)} (h : ReturnsAll E (fun k => X k ω) calls pos outs p) (hz : outs.flatten = List.ofFn z) :
    returned E X calls pos ω = (z, streamFrom (fun k => X k ω) p) := by
  have hex : ∃ (z : Fin (total calls) → ℝ) (p : ℕ) (outs : List (List ℝ)), ReturnsAll E (fun k => X k ω) calls pos outs p ∧
      outs.flatten = List.ofFn z := ⟨z, p, outs, h, hz⟩
  obtain ⟨h1, h2⟩ := hex.choose_spec.choose_spec.choose_spec
  obtain ⟨e1, e2⟩ := h.unique h1
  unfold returned
  rw [dif_pos hex, ← e2]
  rw [← e1, hz] at h2
  rw [List.ofFn_injective h2]

/-- the event that the loops end -/
def Ends (E : Env ℝ) (X : ℕ → Ω → ℝ) (calls : List (ℝ × ℕ)) (pos : ℕ) : Set Ω :=
  {ω | ∃ (outs : List (List ℝ)) (p : ℕ), ReturnsAll E (fun k => X k ω) calls pos outs p}

theorem hits_ofFn (E : Env ℝ) (X : ℕ → Ω → ℝ) (calls : List (ℝ × ℕ)) (pos : ℕ) (B : Fin (total calls) → Set ℝ) (C : Set (ℕ → ℝ)) :
    Hits E X pos (pieces calls (List.ofFn B)) C = Ends E X calls pos ∩
      {ω | (∀ k, (returned E X calls pos ω).1 k ∈ B k) ∧ (returned E X calls pos ω).2 ∈ C} := by
  have hp := pieces_spec calls (List.ofFn B) (by simp)
  ext ω
  simp only [Hits, Ends, Set.mem_setOf_eq, Set.mem_inter_iff]
  rw [hp.1]
  have key : ∀ outs p, ReturnsAll E (fun k => X k ω) calls pos outs p → ∃ z : Fin (total calls) → ℝ, outs.flatten = List.ofFn z := by
    intro outs p h
    have hl := returnsAll_length h
    refine ⟨fun k => outs.flatten[k.1]'(by rw [hl]; exact k.2), ?_⟩
    apply List.ext_getElem
    · simp only [List.length_ofFn]; exact hl
    · intro i h1 h2; simp
  constructor
  · rintro ⟨outs, p, h1, h2, h3⟩
    obtain ⟨z, hz⟩ := key outs p h1
    refine ⟨⟨outs, p, h1⟩, ?_⟩
    rw [returned_of h1 hz]
    rw [forall₂_pieces (by simp) h1, hz] at h2
    exact ⟨forall₂_ofFn (R := fun x B => x ∈ B).1 h2, h3⟩
  · rintro ⟨⟨outs, p, h⟩, h2, h3⟩
    obtain ⟨z, hz⟩ := key outs p h
    rw [returned_of h hz] at h2 h3
    refine ⟨outs, p, h, ?_, h3⟩
    rw [forall₂_pieces (by simp) h, hz]
    exact forall₂_ofFn (R := fun x B => x ∈ B).2 h2

theorem ends_eq (E : Env ℝ) (X : ℕ → Ω → ℝ) (calls : List (ℝ × ℕ)) (pos : ℕ) :
    Ends E X calls pos = Hits E X pos (pieces calls (List.ofFn (fun _ : Fin (total calls) => Set.univ))) Set.univ := by
  rw [hits_ofFn]; simp

theorem returned_notin {E : Env ℝ} {X : ℕ → Ω → ℝ} {calls : List (ℝ × ℕ)} {pos : ℕ} {ω : Ω} (h : ω ∉ Ends E X calls pos) :
    returned E X calls pos ω = (fun _ => 0, fun _ => 0) := by
  unfold returned
  rw [dif_neg]
  rintro ⟨z, p, outs, hr, -⟩
  exact h ⟨outs, p, hr⟩

theorem returned_ends {E : Env ℝ} {X : ℕ → Ω → ℝ} {calls : List (ℝ × ℕ)} {pos : ℕ} {ω : Ω} {outs : List (List ℝ)} {p : ℕ}
    (h : ReturnsAll E (fun k => X k ω) calls pos outs p) :
    outs.flatten = List.ofFn (returned E X calls pos ω).1 ∧ (returned E X calls pos ω).2 = streamFrom (fun k => X k ω) p := by
  have hl := returnsAll_length h
  obtain ⟨z, hz⟩ : ∃ z : Fin (total calls) → ℝ, outs.flatten = List.ofFn z := by
    refine ⟨fun k => outs.flatten[k.1]'(by rw [hl]; exact k.2), ?_⟩
    apply List.ext_getElem
    · simp only [List.length_ofFn]; exact hl
    · intro i h1 h2; simp
  rw [returned_of h hz]
  exact ⟨hz, rfl⟩

section Law
variable {μ : Measure ℝ} [IsProbabilityMeasure μ] (E : Env ℝ) {X : ℕ → Ω → ℝ} (hX : IndependentWithLaws P X (fun _ => μ))
  (calls : List (ℝ × ℕ)) (pos : ℕ)
include hX

theorem hits_box_measurable (B : Fin (total calls) → Set ℝ) (hB : ∀ k, MeasurableSet (B k)) (C : Set (ℕ → ℝ))
    (hC : MeasurableSet C) : MeasurableSet (Hits E X pos (pieces calls (List.ofFn B)) C) := by
  refine hits_measurable E hX pos _ _ (fun c hc b hb => ?_) hC
  have := (pieces_spec calls (List.ofFn B) (by simp)).2.2.1 c hc b hb
  simp only [List.mem_ofFn] at this
  obtain ⟨k, rfl⟩ := this
  exact hB k

theorem ends_measurable : MeasurableSet (Ends E X calls pos) := by
  rw [ends_eq]
  exact hits_box_measurable E hX calls pos _ (fun _ => .univ) _ .univ

theorem box_measurable (B : Fin (total calls) → Set ℝ) (hB : ∀ k, MeasurableSet (B k)) (C : Set (ℕ → ℝ)) (hC : MeasurableSet C) :
    MeasurableSet {ω | (∀ k, (returned E X calls pos ω).1 k ∈ B k) ∧ (returned E X calls pos ω).2 ∈ C} := by
  classical
  have he := ends_measurable E hX calls pos
  have : {ω | (∀ k, (returned E X calls pos ω).1 k ∈ B k) ∧ (returned E X calls pos ω).2 ∈ C} =
      Hits E X pos (pieces calls (List.ofFn B)) C ∪
        ((Ends E X calls pos)ᶜ ∩ {_ω | (∀ k, (0 : ℝ) ∈ B k) ∧ (fun _ => (0 : ℝ)) ∈ C}) := by
    rw [hits_ofFn]
    ext ω
    by_cases h : ω ∈ Ends E X calls pos
    · simp [h]
    · simp only [Set.mem_setOf_eq, Set.mem_union, Set.mem_inter_iff, h, false_and, Set.mem_compl_iff, not_false_eq_true,
        true_and, false_or, returned_notin h]
  rw [this]
  exact (hits_box_measurable E hX calls pos B hB C hC).union (he.compl.inter (MeasurableSet.const _))

theorem returned_measurable_rest : Measurable (fun ω => (returned E X calls pos ω).2) := by
  intro C hC
  have := box_measurable E hX calls pos (fun _ => Set.univ) (fun _ => .univ) C hC
  simpa [Set.preimage] using this

theorem returned_measurable (k : Fin (total calls)) : Measurable (fun ω => (returned E X calls pos ω).1 k) := by
  classical
  intro B hB
  have := box_measurable E hX calls pos (fun j => if j = k then B else Set.univ)
    (fun j => by by_cases h : j = k <;> simp [h, hB]) Set.univ .univ
  have e : {ω | (∀ j, (returned E X calls pos ω).1 j ∈ (if j = k then B else Set.univ)) ∧
      (returned E X calls pos ω).2 ∈ Set.univ} = (fun ω => (returned E X calls pos ω).1 k) ⁻¹' B := by
    ext ω
    simp only [Set.mem_setOf_eq, Set.mem_univ, and_true, Set.mem_preimage]
    constructor
    · intro h; simpa using h k
    · intro h j
      by_cases hj : j = k
      · subst hj; simpa using h
      · simp [hj]
  rwa [e] at this

variable (hpos : ∀ c ∈ calls, μ (within c.1) ≠ 0)
include hpos

/-- the cut-off of the number `k` -/
abbrev cutAt (calls : List (ℝ × ℕ)) (k : Fin (total calls)) : ℝ := (cutoffs calls)[k.1]'k.2

omit hX in
theorem cutAt_pos (k : Fin (total calls)) : μ (within (cutAt calls k)) ≠ 0 := by
  have : cutAt calls k ∈ cutoffs calls := List.getElem_mem _
  simp only [cutoffs, List.mem_flatMap, List.mem_replicate] at this
  obtain ⟨c, hc, -, h⟩ := this
  rw [h]
  exact hpos c hc

theorem hits_box_prob (B : Fin (total calls) → Set ℝ) (hB : ∀ k, MeasurableSet (B k)) (C : Set (ℕ → ℝ)) (hC : MeasurableSet C) :
    P (Hits E X pos (pieces calls (List.ofFn B)) C) = (∏ k, μ[|within (cutAt calls k)] (B k)) * streamLaw μ C := by
  have hp := pieces_spec calls (List.ofFn B) (by simp)
  rw [hits_prob E hX pos _ (fun c hc => by
    obtain ⟨d, hd, e⟩ := hp.2.2.2 c hc
    rw [← e]; exact hpos d hd) C (fun c hc b hb => by
    have := hp.2.2.1 c hc b hb
    simp only [List.mem_ofFn] at this
    obtain ⟨k, rfl⟩ := this
    exact hB k) hC, hp.2.1 (fun c B => μ[|within c] B), ← List.prod_ofFn]
  congr 2
  apply List.ext_getElem
  · rw [List.length_zipWith, List.length_ofFn, List.length_ofFn]
    exact min_self _
  · intro i h1 h2
    rw [List.getElem_zipWith, List.getElem_ofFn, List.getElem_ofFn]
    rfl

theorem ends_prob : P (Ends E X calls pos) = 1 := by
  have hc := fun k => cond_isProbabilityMeasure (μ := μ) (cutAt_pos calls hpos k)
  rw [ends_eq, hits_box_prob E hX calls pos hpos _ (fun _ => .univ) _ .univ]
  simp

theorem box_prob (B : Fin (total calls) → Set ℝ) (hB : ∀ k, MeasurableSet (B k)) (C : Set (ℕ → ℝ)) (hC : MeasurableSet C) :
    P {ω | (∀ k, (returned E X calls pos ω).1 k ∈ B k) ∧ (returned E X calls pos ω).2 ∈ C} =
      (∏ k, μ[|within (cutAt calls k)] (B k)) * streamLaw μ C := by
  have h := hits_box_prob E hX calls pos hpos B hB C hC
  rw [hits_ofFn] at h
  have hfull : P (Ends E X calls pos)ᶜ = 0 := by
    rw [prob_compl_eq_zero_iff (ends_measurable E hX calls pos)]
    exact ends_prob E hX calls pos hpos
  rw [Set.inter_comm, measure_inter_conull hfull] at h
  exact h

/-- the joint law -/
theorem returned_law : P.map (returned E X calls pos) =
    (Measure.pi (fun k : Fin (total calls) => μ[|within (cutAt calls k)])).prod (streamLaw μ) := by
  have hcp := fun k => cond_isProbabilityMeasure (μ := μ) (cutAt_pos calls hpos k)
  have hm1 : Measurable (fun ω => (returned E X calls pos ω).1) :=
    measurable_pi_iff.2 (returned_measurable E hX calls pos)
  have hm2 := returned_measurable_rest E hX calls pos
  have hm : Measurable (returned E X calls pos) := hm1.prodMk hm2
  symm
  refine Measure.prod_eq (fun s C hs hC => ?_)
  rw [Measure.map_apply hm (hs.prod hC)]
  -- for a fixed set of rests both sides are measures of `s` which agree on boxes
  let ν : Measure (Fin (total calls) → ℝ) := (P.restrict ((fun ω => (returned E X calls pos ω).2) ⁻¹' C)).map
    (fun ω => (returned E X calls pos ω).1)
  have hν : ∀ s, MeasurableSet s → ν s = P ((returned E X calls pos) ⁻¹' (s ×ˢ C)) := by
    intro s hs
    simp only [ν]
    rw [Measure.map_apply hm1 hs, Measure.restrict_apply (hm1 hs)]
    rfl
  have hbox : ∀ B : Fin (total calls) → Set ℝ, (∀ k, MeasurableSet (B k)) →
      ν (Set.pi Set.univ B) = (∏ k, μ[|within (cutAt calls k)] (B k)) * streamLaw μ C := by
    intro B hB
    rw [hν _ (MeasurableSet.univ_pi hB), ← box_prob E hX calls pos hpos B hB C hC]
    congr 1
    ext ω; simp [Set.mem_pi]
  rw [← hν s hs]
  by_cases h0 : streamLaw μ C = 0
  · have : ν Set.univ = 0 := by
      have := hbox (fun _ => Set.univ) (fun _ => .univ)
      rw [Set.pi_univ] at this
      rw [this, h0, mul_zero]
    rw [h0, mul_zero]
    exact measure_mono_null (Set.subset_univ _) this
  · have hfin : streamLaw μ C ≠ ⊤ := measure_ne_top _ _
    have hpi : Measure.pi (fun k : Fin (total calls) => μ[|within (cutAt calls k)]) = (streamLaw μ C)⁻¹ • ν := by
      refine Measure.pi_eq (fun B hB => ?_)
      rw [Measure.smul_apply, hbox B hB, smul_eq_mul, mul_comm, mul_assoc, ENNReal.mul_inv_cancel h0 hfin, mul_one]
    rw [hpi, Measure.smul_apply, smul_eq_mul, mul_comm, ← mul_assoc, ENNReal.mul_inv_cancel h0 hfin, one_mul]

/-- the numbers returned are independent, each with the law of the generator given the cut-off, and independent of the
rest of the stream, which is as good as the stream itself -/
theorem returned_independent :
    IndependentWithLaws P (fun k ω => (returned E X calls pos ω).1 k) (fun k => μ[|within (cutAt calls k)]) ∧
    IndependentWithLaws P (fun j ω => (returned E X calls pos ω).2 j) (fun _ => μ) ∧
    IndepFun (fun ω => (returned E X calls pos ω).1) (fun ω => (returned E X calls pos ω).2) P := by
  have hcp := fun k => cond_isProbabilityMeasure (μ := μ) (cutAt_pos calls hpos k)
  have hm1 : Measurable (fun ω => (returned E X calls pos ω).1) :=
    measurable_pi_iff.2 (returned_measurable E hX calls pos)
  have hm2 := returned_measurable_rest E hX calls pos
  have hm : Measurable (returned E X calls pos) := hm1.prodMk hm2
  have hl := returned_law E hX calls pos hpos
  have l1 : P.map (fun ω => (returned E X calls pos ω).1) = Measure.pi (fun k : Fin (total calls) => μ[|within (cutAt calls k)]) := by
    have : P.map (fun ω => (returned E X calls pos ω).1) = (P.map (returned E X calls pos)).map Prod.fst := by
      rw [Measure.map_map measurable_fst hm]; rfl
    rw [this, hl, Measure.map_fst_prod]; simp
  have l2 : P.map (fun ω => (returned E X calls pos ω).2) = streamLaw μ := by
    have : P.map (fun ω => (returned E X calls pos ω).2) = (P.map (returned E X calls pos)).map Prod.snd := by
      rw [Measure.map_map measurable_snd hm]; rfl
    rw [this, hl, Measure.map_snd_prod]; simp
  have e1 : ∀ k, P.map (fun ω => (returned E X calls pos ω).1 k) = μ[|within (cutAt calls k)] := by
    intro k
    have : P.map (fun ω => (returned E X calls pos ω).1 k) =
        (P.map (fun ω => (returned E X calls pos ω).1)).map (fun z => z k) := by
      rw [Measure.map_map (measurable_pi_apply k) hm1]; rfl
    rw [this, l1]
    exact (measurePreserving_eval (fun k : Fin (total calls) => μ[|within (cutAt calls k)]) k).map_eq
  have e2 : ∀ k, P.map (fun ω => (returned E X calls pos ω).2 k) = μ := by
    intro k
    have : P.map (fun ω => (returned E X calls pos ω).2 k) =
        (P.map (fun ω => (returned E X calls pos ω).2)).map (fun z => z k) := by
      rw [Measure.map_map (measurable_pi_apply k) hm2]; rfl
    rw [this, l2]; exact Measure.infinitePi_map_eval (fun _ : ℕ => μ) k
  have m2 : ∀ j, Measurable (fun ω => (returned E X calls pos ω).2 j) := fun j => measurable_pi_iff.1 hm2 j
  refine ⟨⟨returned_measurable E hX calls pos, ?_, e1⟩, ⟨m2, ?_, e2⟩, ?_⟩
  · rw [iIndepFun_iff_map_fun_eq_pi_map (fun k => (returned_measurable E hX calls pos k).aemeasurable)]
    simp only [e1]
    exact l1
  · rw [iIndepFun_iff_map_fun_eq_infinitePi_map m2]
    simp only [e2]
    exact l2
  · rw [indepFun_iff_map_prod_eq_prod_map_map hm1.aemeasurable hm2.aemeasurable, l1, l2]
    exact hl

end Law
end PySC
