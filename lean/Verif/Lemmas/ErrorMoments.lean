import Verif.Lemmas.ErrorLaw
import Verif.Spec.Applicable
import Mathlib.MeasureTheory.Integral.IntegralEqImproper
import Mathlib.Probability.Independence.Integration
/-
Moments of truncated random numbers; a normal generator never stops producing small numbers.
-/
namespace PySC
open Spec MeasureTheory ProbabilityTheory Filter Topology
set_option linter.unusedSectionVars false
variable {Ω : Type} [MeasurableSpace Ω] {P : Measure Ω} [IsProbabilityMeasure P]

/-- almost surely a generator of standard normal numbers never stops producing small numbers -/
theorem standardNormal_keepsDrawing (E : Env ℝ) {X : ℕ → Ω → ℝ} (hX : StandardNormal P X) :
    ∀ᵐ ω ∂P, KeepsDrawing (fun k => X k ω) := by
  have h : ∀ᵐ ω ∂P, ∀ (m k : ℕ), ω ∈ Ends E X [(1 / ((m : ℝ) + 1), 1)] k := by
    rw [ae_all_iff]; intro m
    rw [ae_all_iff]; intro k
    have hpos : ∀ c ∈ [(1 / ((m : ℝ) + 1), 1)], gaussianReal 0 1 (within c.1) ≠ 0 := by
      intro c hc
      simp only [List.mem_singleton] at hc
      subst hc
      exact gaussian_within_pos (by positivity)
    have hp := ends_prob E hX [(1 / ((m : ℝ) + 1), 1)] k hpos
    rw [← prob_compl_eq_zero_iff (ends_measurable E hX _ k)] at hp
    exact hp
  filter_upwards [h] with ω hω
  intro c hc k
  obtain ⟨m, hm⟩ := exists_nat_one_div_lt (abs_pos.2 hc)
  obtain ⟨outs, next, o, mid, rest, -, ⟨fuel, hr⟩, -⟩ := hω m k
  obtain ⟨h1, h2, -, qs, rfl, -, h5⟩ := randncFrom_eq_ok hr
  rw [List.length_map] at h2
  obtain ⟨q, rfl⟩ := List.length_eq_one_iff.1 h2
  refine ⟨q, (h5 q (by simp)).1, ?_⟩
  have := h1 (X q ω) (by simp)
  rw [abs_of_pos (by positivity : (0 : ℝ) < 1 / ((m : ℝ) + 1))] at this
  linarith

theorem integrable_truncated {f : ℝ → ℝ} (hf : Integrable f (gaussianReal 0 1)) {cut : ℝ} (hc : cut ≠ 0) :
    Integrable f (truncatedNormal cut) := by
  rw [truncatedNormal_eq, ProbabilityTheory.cond]
  exact hf.restrict.smul_measure (ENNReal.inv_ne_top.2 (gaussian_within_pos hc))

theorem gaussian_id_integrable : Integrable (fun x : ℝ => x) (gaussianReal 0 1) :=
  (memLp_id_gaussianReal (μ := 0) (v := 1) 1).integrable le_rfl

section number
variable {ι : Type} {Z : ι → Ω → ℝ} {cut : ι → ℝ} (hZ : IndependentWithLaws P Z (fun k => truncatedNormal (cut k)))
include hZ

theorem number_integrable {k : ι} (hc : cut k ≠ 0) : Integrable (Z k) P ∧ Integrable (fun ω => Z k ω ^ 2) P := by
  have hm := (hZ.measurable k).aemeasurable (μ := P)
  constructor
  · have := integrable_truncated gaussian_id_integrable hc
    rw [← hZ.law k] at this
    exact (integrable_map_measure measurable_id'.aestronglyMeasurable hm).1 this
  · have := integrable_truncated gaussian_sq_integrable hc
    rw [← hZ.law k] at this
    exact (integrable_map_measure (measurable_id'.pow_const 2).aestronglyMeasurable hm).1 this

theorem number_mean (k : ι) : ∫ ω, Z k ω ∂P = 0 := by
  have := truncated_mean (cut k)
  rw [← hZ.law k, integral_map (hZ.measurable k).aemeasurable measurable_id'.aestronglyMeasurable] at this
  exact this

theorem number_square (k : ι) : ∫ ω, Z k ω ^ 2 ∂P = ∫ x, x ^ 2 ∂(truncatedNormal (cut k)) := by
  rw [← hZ.law k, integral_map (hZ.measurable k).aemeasurable (measurable_id'.pow_const 2).aestronglyMeasurable]

theorem number_product {j k : ι} (h : j ≠ k) : ∫ ω, Z j ω * Z k ω ∂P = 0 := by
  have := (hZ.independent.indepFun h).integral_fun_mul_eq_mul_integral (hZ.measurable j).aestronglyMeasurable
    (hZ.measurable k).aestronglyMeasurable
  rw [this, number_mean hZ j, zero_mul]

end number

/-- with growing cut-off the mean square approaches one -/
theorem truncated_sq_tendsto : Tendsto (fun cut => ∫ x, x ^ 2 ∂(truncatedNormal cut)) atTop (𝓝 1) := by
  have hw : ∀ cut : ℝ, within cut = Set.Icc (-|cut|) |cut| := by
    intro cut; ext x; simp [within, abs_le]
  have hb : Tendsto (fun cut : ℝ => |cut|) atTop atTop := tendsto_abs_atTop_atTop
  have hcov : AECover (gaussianReal 0 1) atTop (fun cut : ℝ => within cut) := by
    simp only [hw]
    exact aecover_Icc (tendsto_neg_atTop_atBot.comp hb) hb
  have h1 : Tendsto (fun cut => ∫ x in within cut, x ^ 2 ∂(gaussianReal 0 1)) atTop (𝓝 1) := by
    have := hcov.integral_tendsto_of_countably_generated gaussian_sq_integrable
    rwa [gaussian_sq] at this
  have h2 : Tendsto (fun cut => (gaussianReal 0 1).real (within cut)) atTop (𝓝 1) := by
    have := hcov.integral_tendsto_of_countably_generated (integrable_const (1 : ℝ))
    simpa using this
  have := (h2.inv₀ one_ne_zero).mul h1
  simp only [integral_truncated]
  simpa using this

end PySC
