import Verif.Lemmas.ReadingLaw
import Verif.Lemmas.ErrorMoments
/-
Mean values of readings.
-/
namespace PySC
open Py Spec MeasureTheory ProbabilityTheory
set_option linter.unusedSectionVars false
variable {Ω : Type} [MeasurableSpace Ω] {P : Measure Ω} [IsProbabilityMeasure P]

/-- measurable and almost surely bounded -/
def BoundedRv (P : Measure Ω) (f : Ω → ℝ) : Prop := Measurable f ∧ ∃ C, ∀ᵐ ω ∂P, |f ω| ≤ C

theorem BoundedRv.integrable {f : Ω → ℝ} (h : BoundedRv P f) : Integrable f P := by
  obtain ⟨h1, C, h2⟩ := h
  exact Integrable.of_bound h1.aestronglyMeasurable C (by simpa only [Real.norm_eq_abs] using h2)

theorem BoundedRv.mul {f g : Ω → ℝ} (hf : BoundedRv P f) (hg : BoundedRv P g) : BoundedRv P (fun ω => f ω * g ω) := by
  obtain ⟨h1, C, h2⟩ := hf
  obtain ⟨h3, D, h4⟩ := hg
  refine ⟨h1.mul h3, C * D, ?_⟩
  filter_upwards [h2, h4] with ω a b
  rw [abs_mul]
  exact mul_le_mul a b (abs_nonneg _) ((abs_nonneg _).trans a)

theorem BoundedRv.sum {ι : Type} {s : Finset ι} {f : ι → Ω → ℝ} (h : ∀ i ∈ s, BoundedRv P (f i)) : BoundedRv P (fun ω => ∑ i ∈ s, f i ω) := by
  classical
  induction s using Finset.induction_on with
  | empty => exact ⟨by simp, 0, by simp⟩
  | insert a s ha ih =>
    obtain ⟨h1, C, h2⟩ := ih (fun i hi => h i (by simp [hi]))
    obtain ⟨h3, D, h4⟩ := h a (by simp)
    simp only [Finset.sum_insert ha]
    refine ⟨h3.add h1, D + C, ?_⟩
    filter_upwards [h2, h4] with ω b c
    exact (abs_add_le _ _).trans (add_le_add c b)

theorem measurable_eval {ι : Type} {T : Finset ι} (i : T) : Measurable (fun v : T → ℝ => v i) := measurable_pi_apply i

theorem measurable_signals {ι : Type} {T : Finset ι} {n : ℕ} (c : ℝ) (i : Fin n → T) :
    Measurable (fun v : T → ℝ => (∑ j, (1 + c * v (i j)))⁻¹) :=
  (Finset.measurable_fun_sum _ (fun j _ => ((measurable_eval (i j)).const_mul c).const_add 1)).inv

section number
variable {ι : Type} {Z : ι → Ω → ℝ} {cut : ι → ℝ} (hZ : IndependentWithLaws P Z (fun k => truncatedNormal (cut k)))
include hZ

theorem number_bounded (k : ι) : ∀ᵐ ω ∂P, |Z k ω| ≤ |cut k| := by
  have h : ∀ᵐ x ∂(P.map (Z k)), |x| ≤ |cut k| := by
    rw [hZ.law k]
    unfold truncatedNormal
    exact ae_cond_mem (measurableSet_le measurable_abs measurable_const)
  exact ae_of_ae_map (hZ.measurable k).aemeasurable h

theorem number_rv (k : ι) : BoundedRv P (Z k) := ⟨hZ.measurable k, _, number_bounded hZ k⟩

/-- a number times a function of other numbers has mean zero -/
theorem number_orthogonal {k : ι} (T : Finset ι) (hk : k ∉ T) (f : (T → ℝ) → ℝ) (hf : Measurable f) :
    ∫ ω, Z k ω * f (fun i : T => Z i ω) ∂P = 0 := by
  classical
  have hi := (hZ.independent.indepFun_finset {k} T (by simpa using hk) hZ.measurable).comp
    (φ := fun v => v ⟨k, by simp⟩) (ψ := f) (measurable_eval _) hf
  have hm : Measurable (fun ω => f (fun i : T => Z i ω)) := hf.comp (measurable_pi_iff.2 (fun i => hZ.measurable i))
  have := IndepFun.integral_fun_mul_eq_mul_integral hi (hZ.measurable k).aestronglyMeasurable hm.aestronglyMeasurable
  simp only [Function.comp_def] at this
  rw [this, number_mean hZ k, zero_mul]

variable {n : ℕ} (hn : n ≠ 0)

/-- sum of signals -/
noncomputable def signals (Z : ι → Ω → ℝ) (c : ℝ) (σ : Fin n → ι) (ω : Ω) : ℝ := ∑ k, (1 + c * Z (σ k) ω)

theorem signals_ge {σ : Fin n → ι} (hcut : ∀ k, cut (σ k) = 2) :
    ∀ᵐ ω ∂P, ∀ c : ℝ, (n : ℝ) * (1 - 2 * |c|) ≤ signals Z c σ ω := by
  have : ∀ᵐ ω ∂P, ∀ k, |Z (σ k) ω| ≤ 2 := by
    rw [ae_all_iff]
    intro k
    have := number_bounded hZ (σ k)
    rwa [hcut k, abs_of_pos (by norm_num : (0 : ℝ) < 2)] at this
  filter_upwards [this] with ω hω c
  have h1 : ∀ k ∈ Finset.univ, (1 - 2 * |c|) ≤ 1 + c * Z (σ k) ω := by
    intro k _
    have : |c * Z (σ k) ω| ≤ |c| * 2 := by rw [abs_mul]; exact mul_le_mul_of_nonneg_left (hω k) (abs_nonneg _)
    have := (abs_le.1 this).1
    linarith
  have := Finset.card_nsmul_le_sum Finset.univ (fun k => 1 + c * Z (σ k) ω) _ h1
  unfold signals
  simpa using this

include hn in
theorem signals_rv {c : ℝ} {σ : Fin n → ι} (hcut : ∀ k, cut (σ k) = 2) (hc : |c| < 1 / 2) :
    BoundedRv P (fun ω => (signals Z c σ ω)⁻¹) ∧ ∀ᵐ ω ∂P, 0 < signals Z c σ ω := by
  have hpos : (0 : ℝ) < n := by exact_mod_cast Nat.pos_of_ne_zero hn
  have key : ∀ᵐ ω ∂P, (n : ℝ) * (1 - 2 * |c|) ≤ signals Z c σ ω := by
    filter_upwards [signals_ge hZ hcut] with ω hω using hω c
  have hp : 0 < (n : ℝ) * (1 - 2 * |c|) := mul_pos hpos (by linarith)
  refine ⟨⟨?_, ((n : ℝ) * (1 - 2 * |c|))⁻¹, ?_⟩, ?_⟩
  · unfold signals
    exact (Finset.measurable_fun_sum _ (fun k _ => ((hZ.measurable (σ k)).const_mul c).const_add 1)).inv
  · filter_upwards [key] with ω hω
    rw [abs_of_pos (inv_pos.2 (hp.trans_le hω))]
    exact inv_anti₀ hp hω
  · filter_upwards [key] with ω hω
    exact hp.trans_le hω

/-- mean noise of several shots -/
noncomputable def meanNoise (Z : ι → Ω → ℝ) (c : ℝ) (a σ : Fin n → ι) (ω : Ω) : ℝ := (∑ k, Z (a k) ω) * (signals Z c σ ω)⁻¹

include hn in
theorem meanNoise_rv {c : ℝ} {a σ : Fin n → ι} (hcut : ∀ k, cut (σ k) = 2) (hc : |c| < 1 / 2) : BoundedRv P (meanNoise Z c a σ) :=
  (BoundedRv.sum (fun k _ => number_rv hZ (a k))).mul (signals_rv hZ hn hcut hc).1

include hn in
theorem meanNoise_mean {c : ℝ} {a σ : Fin n → ι} (hcut : ∀ k, cut (σ k) = 2) (hc : |c| < 1 / 2) (hd : ∀ j k, a j ≠ σ k) :
    ∫ ω, meanNoise Z c a σ ω ∂P = 0 := by
  classical
  unfold meanNoise
  simp only [Finset.sum_mul]
  rw [integral_finsetSum _ (fun k _ => ((number_rv hZ (a k)).mul (signals_rv hZ hn hcut hc).1).integrable)]
  refine Finset.sum_eq_zero (fun k _ => ?_)
  refine number_orthogonal hZ (Finset.univ.image σ) (by simp; exact fun j h => hd k j h.symm)
    (fun v => (∑ j, (1 + c * v ⟨σ j, by simp⟩))⁻¹) ?_
  exact measurable_signals c (fun j => ⟨σ j, by simp⟩)

include hn in
theorem meanNoise_product {c d : ℝ} {a b σ τ : Fin n → ι} (hcut : ∀ k, cut (σ k) = 2) (hcut' : ∀ k, cut (τ k) = 2) (hc : |c| < 1 / 2)
    (hc' : |d| < 1 / 2) (hd : ∀ j k, a j ≠ σ k) (hd' : ∀ j k, a j ≠ τ k) (hab : ∀ j k, a j ≠ b k) :
    ∫ ω, meanNoise Z c a σ ω * meanNoise Z d b τ ω ∂P = 0 := by
  classical
  have hrv := fun k j => ((number_rv hZ (a k)).mul ((number_rv hZ (b j)).mul
    ((signals_rv hZ hn (σ := σ) hcut hc).1.mul (signals_rv hZ hn (σ := τ) hcut' hc').1)))
  have e : ∀ ω, meanNoise Z c a σ ω * meanNoise Z d b τ ω =
      ∑ k, ∑ j, Z (a k) ω * (Z (b j) ω * ((signals Z c σ ω)⁻¹ * (signals Z d τ ω)⁻¹)) := by
    intro ω
    unfold meanNoise
    rw [mul_mul_mul_comm, Finset.sum_mul_sum, Finset.sum_mul]
    refine Finset.sum_congr rfl (fun k _ => ?_)
    rw [Finset.sum_mul]
    exact Finset.sum_congr rfl (fun j _ => by ring)
  simp only [e]
  rw [integral_finsetSum _ (fun k _ => (BoundedRv.sum (fun j _ => hrv k j)).integrable)]
  refine Finset.sum_eq_zero (fun k _ => ?_)
  rw [integral_finsetSum _ (fun j _ => (hrv k j).integrable)]
  refine Finset.sum_eq_zero (fun j _ => ?_)
  refine number_orthogonal hZ (Finset.univ.image σ ∪ Finset.univ.image τ ∪ {b j}) ?_
    (fun v => v ⟨b j, by simp⟩ * ((∑ l, (1 + c * v ⟨σ l, by simp⟩))⁻¹ * (∑ l, (1 + d * v ⟨τ l, by simp⟩))⁻¹)) ?_
  · simp only [Finset.mem_union, Finset.mem_image, Finset.mem_univ, true_and, Finset.mem_singleton, not_or, not_exists]
    exact ⟨⟨fun l h => hd k l h.symm, fun l h => hd' k l h.symm⟩, hab k j⟩
  · exact (measurable_eval _).mul ((measurable_signals c (fun j => ⟨σ j, by simp⟩)).mul (measurable_signals d (fun j => ⟨τ j, by simp⟩)))

include hn in
theorem meanNoise_square {a σ : Fin n → ι} (ha : Function.Injective a) {q : ℝ} (hq : ∀ k, ∫ ω, Z (a k) ω ^ 2 ∂P = q) :
    ∫ ω, meanNoise Z 0 a σ ω ^ 2 ∂P = q / n := by
  classical
  have hn' : (n : ℝ) ≠ 0 := by exact_mod_cast hn
  have e : ∀ ω, meanNoise Z 0 a σ ω ^ 2 = ((n : ℝ)⁻¹) ^ 2 * ∑ k, ∑ j, Z (a k) ω * Z (a j) ω := by
    intro ω
    unfold meanNoise signals
    simp only [zero_mul, add_zero, Finset.sum_const, Finset.card_univ, Fintype.card_fin, nsmul_eq_mul, mul_one]
    rw [← Finset.sum_mul_sum]
    ring
  simp only [e]
  rw [integral_const_mul, integral_finsetSum _ (fun k _ => (BoundedRv.sum (fun j _ => (number_rv hZ (a k)).mul (number_rv hZ (a j)))).integrable)]
  have : ∀ k ∈ Finset.univ, ∫ ω, ∑ j, Z (a k) ω * Z (a j) ω ∂P = q := by
    intro k _
    rw [integral_finsetSum _ (fun j _ => ((number_rv hZ (a k)).mul (number_rv hZ (a j))).integrable)]
    rw [Finset.sum_eq_single k]
    · rw [← hq k]; congr 1; funext ω; ring
    · intro j _ hj
      exact number_product hZ (fun h => hj (ha h).symm)
    · simp
  rw [Finset.sum_congr rfl this]
  simp
  field_simp

include hn in
theorem meanNoise_square_le {c : ℝ} {a σ : Fin n → ι} (ha : Function.Injective a) {q : ℝ} (hq : ∀ k, ∫ ω, Z (a k) ω ^ 2 ∂P = q)
    (hcut : ∀ k, cut (σ k) = 2) (hc : |c| < 1 / 2) :
    ∫ ω, meanNoise Z c a σ ω ^ 2 ∂P ≤ q / n / (1 - 2 * |c|) ^ 2 := by
  have hpos : (0 : ℝ) < n := by exact_mod_cast Nat.pos_of_ne_zero hn
  have hd : 0 < 1 - 2 * |c| := by linarith
  have h0 : ∀ ω, meanNoise Z 0 a σ ω = (∑ k, Z (a k) ω) * (n : ℝ)⁻¹ := by
    intro ω
    unfold meanNoise signals
    simp
  have hle : ∀ᵐ ω ∂P, meanNoise Z c a σ ω ^ 2 ≤ meanNoise Z 0 a σ ω ^ 2 * ((1 - 2 * |c|)⁻¹) ^ 2 := by
    filter_upwards [signals_ge hZ hcut] with ω hω
    rw [h0]
    unfold meanNoise
    have hp : 0 < (n : ℝ) * (1 - 2 * |c|) := mul_pos hpos hd
    have h1 : 0 ≤ (signals Z c σ ω)⁻¹ := inv_nonneg.2 (hp.le.trans (hω c))
    have h2 := pow_le_pow_left₀ h1 (inv_anti₀ hp (hω c)) 2
    have h3 := mul_le_mul_of_nonneg_left h2 (sq_nonneg (∑ k, Z (a k) ω))
    calc ((∑ k, Z (a k) ω) * (signals Z c σ ω)⁻¹) ^ 2 = (∑ k, Z (a k) ω) ^ 2 * (signals Z c σ ω)⁻¹ ^ 2 := by ring
      _ ≤ (∑ k, Z (a k) ω) ^ 2 * ((n : ℝ) * (1 - 2 * |c|))⁻¹ ^ 2 := h3
      _ = ((∑ k, Z (a k) ω) * (n : ℝ)⁻¹) ^ 2 * ((1 - 2 * |c|)⁻¹) ^ 2 := by rw [mul_inv]; ring
  have hcut0 : |(0 : ℝ)| < 1 / 2 := by norm_num
  have e0 : ∀ d ω, meanNoise Z d a σ ω ^ 2 = meanNoise Z d a σ ω * meanNoise Z d a σ ω := fun d ω => by ring
  have hi : Integrable (fun ω => meanNoise Z c a σ ω ^ 2) P := by
    simp only [e0]
    exact ((meanNoise_rv hZ hn hcut hc).mul (meanNoise_rv hZ hn hcut hc)).integrable
  have hi' : Integrable (fun ω => meanNoise Z 0 a σ ω ^ 2 * ((1 - 2 * |c|)⁻¹) ^ 2) P := by
    refine Integrable.mul_const ?_ _
    simp only [e0]
    exact ((meanNoise_rv hZ hn hcut hcut0).mul (meanNoise_rv hZ hn hcut hcut0)).integrable
  refine (integral_mono_ae hi hi' hle).trans ?_
  rw [integral_mul_const, meanNoise_square hZ hn ha hq, inv_pow, div_eq_mul_inv _ ((1 - 2 * |c|) ^ 2)]

end number
end PySC
