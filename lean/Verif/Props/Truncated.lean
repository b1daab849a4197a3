import Verif.Lemmas.TruncatedLabels
import Verif.Lemmas.TruncatedMoments
import Verif.Spec.Example
import Verif.Props.Supports
/-
C95: the truncated random numbers are independent and normal within the cut-off.
-/
namespace PySC
open Py Spec MeasureTheory ProbabilityTheory
set_option linter.unusedSectionVars false
variable {Ω : Type} [MeasurableSpace Ω] {P : Measure Ω} [IsProbabilityMeasure P]

/-- **C95**: if the generator produces independent standard normal numbers, calls of `randnc` with non-zero cut-offs, made one after
another, almost surely all return; all numbers they return are independent, and each has the standard normal law given that its magnitude
is within the cut-off of its call. -/
theorem C95_calls (E : Env ℝ) {X : ℕ → Ω → ℝ} (hX : StandardNormal P X) (calls : List (ℝ × ℕ)) (hc : ∀ c ∈ calls, c.1 ≠ 0) (pos : ℕ) :
    ∃ Z : (Σ j : Fin calls.length, Fin (calls.get j).2) → Ω → ℝ,
      IndependentWithLaws P Z (fun p => truncatedNormal (calls.get p.1).1) ∧
      ∀ᵐ ω ∂P, ∃ next, ReturnsAll E (fun k => X k ω) calls pos (List.ofFn (fun j => List.ofFn (fun k => Z ⟨j, k⟩ ω))) next := by
  classical
  have hm : (List.finRange calls.length).map calls.get = calls := by
    rw [← List.ofFn_eq_map]; exact List.ofFn_get calls
  obtain ⟨Z, h1, h2⟩ := labelled_law (P := P) (List.finRange calls.length) calls.get (μ := gaussianReal 0 1)
    (fun j _ => gaussian_within_pos (hc _ (List.get_mem _ _))) E hX pos
  refine ⟨fun p => Z p.1 p.2, h1 (fun p : (Σ j : Fin calls.length, Fin (calls.get j).2) => (p.1, p.2.1)) ?_ (fun p => ⟨List.mem_finRange _, p.2.2⟩), ?_⟩
  · rintro ⟨i, a⟩ ⟨j, b⟩ h
    simp only [Prod.mk.injEq] at h
    obtain ⟨rfl, h⟩ := h
    rw [Fin.ext h]
  · have hp := ends_prob E hX calls pos (fun c h => gaussian_within_pos (hc c h))
    have hae : ∀ᵐ ω ∂P, ω ∈ Ends E X calls pos := by
      rw [← prob_compl_eq_zero_iff (ends_measurable E hX calls pos)] at hp
      exact hp
    filter_upwards [hae] with ω hω
    obtain ⟨outs, next, h⟩ := hω
    refine ⟨next, ?_⟩
    have hl : outs.length = calls.length := by
      clear h1 h2 hm hp hae Z
      clear hc
      induction calls generalizing pos outs with
      | nil => obtain ⟨rfl, -⟩ := h; rfl
      | cons c calls ih =>
        obtain ⟨o, m, r, rfl, -, hr⟩ := h
        simp [ih _ _ hr]
    have ho : (List.finRange calls.length).map (fun j : Fin calls.length => outs.getD j []) = outs := by
      apply List.ext_getElem
      · simp [hl]
      · intro i a b; simp [b]
    have h' : ReturnsAll E (fun k => X k ω) ((List.finRange calls.length).map calls.get) pos
        ((List.finRange calls.length).map (fun j : Fin calls.length => outs.getD j [])) next := by rw [hm, ho]; exact h
    have hlen := returnsAll_lengths h'
    have hz := h2 ω _ _ h'
    have : List.ofFn (fun j : Fin calls.length => List.ofFn (fun k : Fin (calls.get j).2 => Z j k ω)) = outs := by
      apply List.ext_getElem
      · simp [hl]
      · intro i a b
        have hi : i < calls.length := by simpa using a
        have e1 := hlen ⟨i, hi⟩ (List.mem_finRange _)
        simp only [List.getElem_ofFn]
        apply List.ext_getElem
        · simp [b] at e1; simp [e1]
        · intro k a' b'
          have hk : k < (calls.get ⟨i, hi⟩).2 := by simpa using a'
          have := hz ⟨i, hi⟩ (List.mem_finRange _) k hk
          simp only [List.getElem_ofFn]
          rw [← this]
          simp [b, b']
    rw [this]; exact h

/-- **C95**: one call returns independent numbers of the truncated normal law, and whatever the generator produces afterwards is as good as
new: independent, standard normal and independent of what was returned. -/
theorem C95_randnc (E : Env ℝ) {X : ℕ → Ω → ℝ} (hX : StandardNormal P X) {cut : ℝ} (hc : cut ≠ 0) (n pos : ℕ) :
    ∃ (Z : Fin n → Ω → ℝ) (rest : ℕ → Ω → ℝ), IndependentWithLaws P Z (fun _ => truncatedNormal cut) ∧ StandardNormal P rest ∧
      IndepFun (fun ω k => Z k ω) (fun ω k => rest k ω) P ∧
      ∀ᵐ ω ∂P, ∃ next, Returns E (fun k => X k ω) cut n pos (List.ofFn (fun k => Z k ω)) next ∧ ∀ j, rest j ω = X (next + j) ω := by
  have hpos : ∀ c ∈ [(cut, n)], gaussianReal 0 1 (within c.1) ≠ 0 := by
    intro c h; simp at h; subst h; exact gaussian_within_pos hc
  have ht : total [(cut, n)] = n := by simp [total, cutoffs]
  have hcut : ∀ k, cutAt [(cut, n)] k = cut := by intro k; simp [cutAt, cutoffs]
  obtain ⟨h1, h2, h3⟩ := returned_independent E hX [(cut, n)] pos hpos
  have hp := ends_prob E hX [(cut, n)] pos hpos
  have hae : ∀ᵐ ω ∂P, ω ∈ Ends E X [(cut, n)] pos := by
    rw [← prob_compl_eq_zero_iff (ends_measurable E hX [(cut, n)] pos)] at hp
    exact hp
  have he : ∀ ω ∈ Ends E X [(cut, n)] pos, ∃ next, Returns E (fun k => X k ω) cut n pos (List.ofFn (returned E X [(cut, n)] pos ω).1) next ∧
      ∀ j, (returned E X [(cut, n)] pos ω).2 j = X (next + j) ω := by
    rintro ω ⟨outs, next, h⟩
    obtain ⟨e1, e2⟩ := returned_ends h
    obtain ⟨o, m, r, rfl, g1, rfl, rfl⟩ := h
    refine ⟨_, ?_, fun j => by rw [e2]; rfl⟩
    rw [← e1]; simpa using g1
  have h1' : IndependentWithLaws P (fun k ω => (returned E X [(cut, n)] pos ω).1 k) (fun _ => truncatedNormal cut) := by
    refine ⟨h1.measurable, h1.independent, fun k => ?_⟩
    rw [h1.law k, hcut]; rfl
  clear h1 hp
  revert h1' h2 h3 he
  generalize returned E X [(cut, n)] pos = R at *
  revert R
  rw [ht]
  intro R h2 h3 he h1'
  refine ⟨fun k ω => (R ω).1 k, fun k ω => (R ω).2 k, h1', h2, h3, ?_⟩
  filter_upwards [hae] with ω hω using he ω hω

/-- **C95**: the cut-off must not be zero: with a zero cut-off `randnc` almost surely never returns a number. -/
theorem C95_zero_cutoff_never_returns (E : Env ℝ) {X : ℕ → Ω → ℝ} (hX : StandardNormal P X) :
    ∀ᵐ ω ∂P, ∀ n pos out next, 0 < n → ¬ Returns E (fun k => X k ω) 0 n pos out next := by
  have h : ∀ᵐ ω ∂P, ∀ k, X k ω ≠ 0 := by
    rw [ae_all_iff]
    intro k
    have h0 : P.map (X k) {0} = 0 := by
      rw [hX.law k]
      have := gaussian_within_zero
      rwa [show within 0 = {0} by ext x; simp [within]] at this
    rw [Measure.map_apply (hX.measurable k) (measurableSet_singleton 0)] at h0
    exact measure_eq_zero_iff_ae_notMem.1 h0
  filter_upwards [h] with ω hω
  rintro n pos out next hn ⟨fuel, hr⟩
  have hbad : ∀ k, |(0 : ℝ)| < |X k ω| := fun k => by rw [abs_zero]; exact abs_pos.2 (hω k)
  obtain ⟨h1, h2, -, qs, h4, -⟩ := randncFrom_eq_ok hr
  cases out with
  | nil => simp at h2; omega
  | cons a out =>
    cases qs with
    | nil => simp at h4
    | cons q qs =>
      simp only [List.map_cons, List.cons.injEq] at h4
      have := h1 a (by simp)
      rw [h4.1] at this
      exact absurd this (not_le.2 (hbad q))

/-- there is such a generator -/
theorem Example.generator : StandardNormal (streamLaw (gaussianReal 0 1)) (fun k (ω : ℕ → ℝ) => ω k) := by
  have hl : ∀ k, (streamLaw (gaussianReal 0 1)).map (fun ω : ℕ → ℝ => ω k) = gaussianReal 0 1 := fun k =>
    (measurePreserving_eval_infinitePi (fun _ : ℕ => gaussianReal 0 1) k).map_eq
  refine ⟨fun k => measurable_pi_apply k, ?_, hl⟩
  rw [iIndepFun_iff_map_fun_eq_infinitePi_map (fun k => measurable_pi_apply k)]
  simp only [hl]
  exact Measure.map_id

-- three numbers with the cut-off 2 and then one number with the cut-off -1
example : StandardNormal (streamLaw (gaussianReal 0 1)) (fun k (ω : ℕ → ℝ) => ω k) ∧ (∀ c ∈ [((2 : ℝ), 3), (-1, 1)], c.1 ≠ 0) :=
  ⟨Example.generator, by simp⟩

-- a generator which produces 3, 1/2, 5, 1/4, ... : the first number is beyond the cut-off and is redrawn twice
example : ((randncFrom (K := ℚ) { Example.env with randn := fun k => if k % 2 = 0 then 3 + (k : ℚ) else 1 / 2 / (k : ℚ), fuel := 5 } 2 2 0).toOption) =
    some ([1/6, 1/2], 4) := by decide +kernel

end PySC
