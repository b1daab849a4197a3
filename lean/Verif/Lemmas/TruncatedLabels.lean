import Verif.Lemmas.TruncatedLaw
/- the numbers returned by calls of `randnc` which are made for given purposes -/
set_option linter.unusedSectionVars false
namespace PySC
open MeasureTheory ProbabilityTheory Spec

variable {Ω : Type} [MeasurableSpace Ω] {P : Measure Ω} [IsProbabilityMeasure P]

/-- the numbers returned for each purpose, one after another -/
def labels {ι : Type} (srcs : List ι) (call : ι → ℝ × ℕ) : List (ι × ℕ) :=
  srcs.flatMap (fun x => (List.range (call x).2).map (fun k => (x, k)))

theorem mem_labels {ι : Type} {srcs : List ι} {call : ι → ℝ × ℕ} {p : ι × ℕ} :
    p ∈ labels srcs call ↔ p.1 ∈ srcs ∧ p.2 < (call p.1).2 := by
  obtain ⟨x, k⟩ := p
  simp only [labels, List.mem_flatMap, List.mem_map, List.mem_range, Prod.mk.injEq]
  constructor
  · rintro ⟨y, hy, j, hj, rfl, rfl⟩; exact ⟨hy, hj⟩
  · rintro ⟨h1, h2⟩; exact ⟨x, h1, k, h2, rfl, rfl⟩

theorem cutoffs_labels {ι : Type} (srcs : List ι) (call : ι → ℝ × ℕ) :
    cutoffs (srcs.map call) = (labels srcs call).map (fun p => (call p.1).1) := by
  induction srcs with
  | nil => rfl
  | cons x srcs ih =>
    simp only [cutoffs, labels, List.map_cons, List.flatMap_cons, List.map_append, List.map_map] at ih ⊢
    rw [ih]
    congr 1
    symm
    rw [List.eq_replicate_iff]
    refine ⟨by simp, fun b hb => ?_⟩
    simp at hb
    exact hb.2.symm

theorem flatten_labels {ι : Type} {srcs : List ι} {call : ι → ℝ × ℕ} {o : ι → List ℝ}
    (ho : ∀ x ∈ srcs, (o x).length = (call x).2) :
    (srcs.map o).flatten = (labels srcs call).map (fun p => (o p.1).getD p.2 0) := by
  induction srcs with
  | nil => rfl
  | cons x srcs ih =>
    simp only [labels, List.map_cons, List.flatMap_cons, List.map_append, List.map_map, List.flatten_cons] at ih ⊢
    rw [ih (fun y hy => ho y (by simp [hy]))]
    congr 1
    apply List.ext_getElem
    · simp [ho x (by simp)]
    · intro i h1 h2; simp [h1]

theorem returnsAll_lengths {ι : Type} {E : Env ℝ} {x : ℕ → ℝ} {call : ι → ℝ × ℕ} {o : ι → List ℝ} : ∀ {srcs : List ι} {pos p : ℕ},
    ReturnsAll E x (srcs.map call) pos (srcs.map o) p → ∀ y ∈ srcs, (o y).length = (call y).2 := by
  intro srcs
  induction srcs with
  | nil => simp
  | cons a srcs ih =>
    rintro pos p ⟨out, m, r, h0, h1, h2⟩ y hy
    simp only [List.map_cons, List.cons.injEq] at h0
    obtain ⟨rfl, rfl⟩ := h0
    rcases List.mem_cons.1 hy with rfl | hy
    · exact returns_length h1
    · exact ih h2 y hy

theorem labelled_law {ι : Type} [DecidableEq ι] (srcs : List ι) (call : ι → ℝ × ℕ) {μ : Measure ℝ} [IsProbabilityMeasure μ]
    (hcut : ∀ x ∈ srcs, μ (within (call x).1) ≠ 0) (E : Env ℝ) {X : ℕ → Ω → ℝ} (hX : IndependentWithLaws P X (fun _ => μ))
    (pos : ℕ) :
    ∃ Z : ι → ℕ → Ω → ℝ,
      (∀ {κ : Type} (e : κ → ι × ℕ), Function.Injective e → (∀ p, (e p).1 ∈ srcs ∧ (e p).2 < (call (e p).1).2) →
        IndependentWithLaws P (fun p => Z (e p).1 (e p).2) (fun p => μ[|within (call (e p).1).1])) ∧
      (∀ ω (o : ι → List ℝ) next, ReturnsAll E (fun k => X k ω) (srcs.map call) pos (srcs.map o) next →
        ∀ x ∈ srcs, ∀ k < (call x).2, (o x).getD k 0 = Z x k ω) := by
  classical
  have hpos : ∀ c ∈ srcs.map call, μ (within c.1) ≠ 0 := by
    intro c hc
    obtain ⟨x, hx, rfl⟩ := List.mem_map.1 hc
    exact hcut x hx
  have hlen : (labels srcs call).length = total (srcs.map call) := by
    unfold total; rw [cutoffs_labels]; simp
  have hidx : ∀ p, p ∈ labels srcs call → (labels srcs call).idxOf p < total (srcs.map call) := by
    intro p hp; rw [← hlen]; exact List.idxOf_lt_length_of_mem hp
  let Z : ι → ℕ → Ω → ℝ := fun x k ω => if h : (x, k) ∈ labels srcs call then
    (returned E X (srcs.map call) pos ω).1 ⟨(labels srcs call).idxOf (x, k), hidx _ h⟩ else 0
  refine ⟨Z, ?_, ?_⟩
  · intro κ e he hmem
    have hm : ∀ p, e p ∈ labels srcs call := fun p => mem_labels.2 (hmem p)
    let g : κ → Fin (total (srcs.map call)) := fun p => ⟨(labels srcs call).idxOf (e p), hidx _ (hm p)⟩
    have hg : Function.Injective g := by
      intro p q hpq
      simp only [g, Fin.mk.injEq] at hpq
      exact he ((List.idxOf_inj (hm p)).1 hpq)
    have hZ : ∀ p, Z (e p).1 (e p).2 = fun ω => (returned E X (srcs.map call) pos ω).1 (g p) := by
      intro p; funext ω
      simp only [Z]
      rw [dif_pos (hm p)]
    have hc : ∀ p, cutAt (srcs.map call) (g p) = (call (e p).1).1 := by
      intro p
      simp only [cutAt, cutoffs_labels, List.getElem_map, g]
      rw [List.getElem_idxOf]
    obtain ⟨h1, -, -⟩ := returned_independent E hX (srcs.map call) pos hpos
    refine ⟨fun p => ?_, ?_, fun p => ?_⟩
    · rw [hZ]; exact h1.measurable _
    · simp only [hZ]
      exact h1.independent.precomp hg
    · rw [hZ, h1.law, hc]
  · intro ω o next h x hx k hk
    have hl := returnsAll_lengths h
    have hm : (x, k) ∈ labels srcs call := mem_labels.2 ⟨hx, hk⟩
    obtain ⟨hf, -⟩ := returned_ends h
    rw [flatten_labels hl] at hf
    simp only [Z]
    rw [dif_pos hm]
    have hi : (labels srcs call).idxOf (x, k) < (labels srcs call).length := List.idxOf_lt_length_of_mem hm
    have e1 : ((labels srcs call).map (fun p => (o p.1).getD p.2 0))[(labels srcs call).idxOf (x, k)]'(by simpa using hi) =
        (o x).getD k 0 := by
      rw [List.getElem_map, List.getElem_idxOf]
    rw [← e1]
    simp only [hf, List.getElem_ofFn]

end PySC
