import Verif.Lemmas.TruncatedRandnc
import Verif.Spec.Truncated
import Mathlib.Probability.Moments.Variance
/- mean and scatter of the truncated normal law -/
set_option linter.unusedSectionVars false
namespace PySC
open MeasureTheory ProbabilityTheory Spec

theorem gaussian_pos_of_open {s : Set ℝ} (hs : IsOpen s) (hne : s.Nonempty) : gaussianReal 0 1 s ≠ 0 := by
  intro h
  have := gaussianReal_absolutelyContinuous' 0 (v := 1) one_ne_zero h
  exact (hs.measure_pos volume hne).ne' this

theorem gaussian_within_pos {cut : ℝ} (hc : cut ≠ 0) : gaussianReal 0 1 (within cut) ≠ 0 := by
  have hpos : 0 < |cut| := abs_pos.2 hc
  refine fun h => gaussian_pos_of_open (s := Set.Ioo (-|cut|) |cut|) isOpen_Ioo ⟨0, by simpa using hpos⟩ (measure_mono_null ?_ h)
  intro x hx
  exact (abs_lt.2 hx).le

theorem gaussian_within_zero : gaussianReal 0 1 (within 0) = 0 := by
  have : within 0 = {0} := by
    ext x; simp [within]
  rw [this]
  have := nullSingletonClass_gaussianReal (μ := 0) (v := 1) one_ne_zero
  exact measure_singleton 0

theorem truncatedNormal_eq (cut : ℝ) : truncatedNormal cut = (gaussianReal 0 1)[|within cut] := rfl

instance truncatedNormal_prob {cut : ℝ} [Fact (cut ≠ 0)] : IsProbabilityMeasure (truncatedNormal cut) :=
  cond_isProbabilityMeasure (gaussian_within_pos Fact.out)

theorem integral_truncated (cut : ℝ) (f : ℝ → ℝ) :
    ∫ x, f x ∂(truncatedNormal cut) = ((gaussianReal 0 1).real (within cut))⁻¹ * ∫ x in within cut, f x ∂(gaussianReal 0 1) := by
  rw [truncatedNormal_eq, ProbabilityTheory.cond, integral_smul_measure]
  simp [measureReal_def]

theorem gaussian_map_neg : (gaussianReal 0 1).map (fun x => -x) = gaussianReal 0 1 := by
  rw [gaussianReal_map_neg]; simp

/-- the truncated normal law is centred -/
theorem truncated_mean (cut : ℝ) : ∫ x, x ∂(truncatedNormal cut) = 0 := by
  rw [integral_truncated]
  have h : ∫ x in within cut, x ∂(gaussianReal 0 1) = -∫ x in within cut, x ∂(gaussianReal 0 1) := by
    rw [← integral_indicator (measurable_within cut)]
    conv_lhs => rw [← gaussian_map_neg]
    rw [integral_map measurable_neg.aemeasurable ((measurable_id'.indicator (measurable_within cut)).aestronglyMeasurable),
      ← integral_neg]
    congr 1
    funext x
    by_cases hx : x ∈ within cut
    · have hx' : -x ∈ within cut := by simpa [within] using hx
      rw [Set.indicator_of_mem hx', Set.indicator_of_mem hx]
    · have hx' : -x ∉ within cut := by simpa [within] using hx
      rw [Set.indicator_of_notMem hx', Set.indicator_of_notMem hx, neg_zero]
  have : ∫ x in within cut, x ∂(gaussianReal 0 1) = 0 := by linarith
  rw [this, mul_zero]

theorem gaussian_sq_integrable : Integrable (fun x : ℝ => x ^ 2) (gaussianReal 0 1) :=
  (memLp_id_gaussianReal (μ := 0) (v := 1) 2).integrable_sq

theorem gaussian_sq : ∫ x, x ^ 2 ∂(gaussianReal 0 1) = 1 := by
  have h := variance_id_gaussianReal (μ := 0) (v := 1)
  rw [variance_eq_integral aemeasurable_id] at h
  simpa [integral_id_gaussianReal] using h

/-- numbers which are cut off scatter less -/
theorem gaussian_sq_within {cut : ℝ} (hc : cut ≠ 0) :
    ∫ x in within cut, x ^ 2 ∂(gaussianReal 0 1) < (gaussianReal 0 1).real (within cut) := by
  have hA := measurable_within cut
  have hpos : 0 < |cut| := abs_pos.2 hc
  have hi := gaussian_sq_integrable
  have h1 : Integrable (fun _ : ℝ => (1 : ℝ)) (gaussianReal 0 1) := integrable_const _
  rcases le_or_gt |cut| 1 with hle | hgt
  · have key : 0 < ∫ x in within cut, (1 - x ^ 2) ∂(gaussianReal 0 1) := by
      rw [setIntegral_pos_iff_support_of_nonneg_ae]
      · refine pos_iff_ne_zero.2 (fun h => gaussian_pos_of_open (s := Set.Ioo (-|cut|) |cut|) isOpen_Ioo
          ⟨0, by simpa using hpos⟩ (measure_mono_null ?_ h))
        intro x hx
        have hx' := abs_lt.2 hx
        refine ⟨?_, hx'.le⟩
        simp only [Function.mem_support]
        have : x ^ 2 < 1 := by rw [← sq_abs]; nlinarith [abs_nonneg x]
        linarith
      · refine (ae_restrict_iff' hA).2 (ae_of_all _ (fun x hx => ?_))
        have hx' : |x| ≤ |cut| := hx
        have : x ^ 2 ≤ 1 := by rw [← sq_abs]; nlinarith [abs_nonneg x]
        simpa using this
      · exact (h1.sub hi).integrableOn
    rw [integral_sub h1.integrableOn hi.integrableOn] at key
    simp at key
    exact key
  · have key : 0 < ∫ x in (within cut)ᶜ, (x ^ 2 - 1) ∂(gaussianReal 0 1) := by
      have hin : ∀ x ∈ (within cut)ᶜ, 1 < x ^ 2 := by
        intro x hx
        have hx' : |cut| < |x| := not_le.1 hx
        rw [← sq_abs]; nlinarith [abs_nonneg x]
      rw [setIntegral_pos_iff_support_of_nonneg_ae]
      · refine pos_iff_ne_zero.2 (fun h => gaussian_pos_of_open (s := Set.Ioi |cut|) isOpen_Ioi
          ⟨|cut| + 1, by simp⟩ (measure_mono_null ?_ h))
        intro x hx
        have hx' : x ∈ (within cut)ᶜ := not_le.2 (lt_of_lt_of_le hx (le_abs_self x))
        refine ⟨?_, hx'⟩
        simp only [Function.mem_support]
        have := hin x hx'
        linarith
      · refine (ae_restrict_iff' hA.compl).2 (ae_of_all _ (fun x hx => ?_))
        have := hin x hx
        simp only [Pi.zero_apply]
        linarith
      · exact (hi.sub h1).integrableOn
    rw [integral_sub hi.integrableOn h1.integrableOn] at key
    simp only [integral_const, measureReal_restrict_apply_univ, smul_eq_mul, mul_one] at key
    have hsum := integral_add_compl hA hi
    rw [gaussian_sq] at hsum
    rw [measureReal_compl hA] at key
    simp at key
    linarith

/-- the mean square of the truncated normal law is below one -/
theorem truncated_sq {cut : ℝ} (hc : cut ≠ 0) : ∫ x, x ^ 2 ∂(truncatedNormal cut) < 1 := by
  rw [integral_truncated]
  have hpos : 0 < (gaussianReal 0 1).real (within cut) :=
    ENNReal.toReal_pos (gaussian_within_pos hc) (measure_ne_top _ _)
  rw [inv_mul_lt_iff₀ hpos, mul_one]
  exact gaussian_sq_within hc

end PySC
