import Verif.Props.Circular
import Mathlib.Analysis.Real.Pi.Bounds
/-
C89 Missing data.
-/
set_option linter.unusedSectionVars false
namespace PySC
open Spec Real
variable {K : Type} [Field K] [LinearOrder K]

theorem present_fst {data es : List (Option K)} (h : es.length = data.length) :
    (present data es).map Prod.fst = data.filterMap id := by
  unfold present
  induction data generalizing es with
  | nil => simp
  | cons a l ih =>
    cases es with
    | nil => simp at h
    | cons e es =>
      cases a with
      | none => simpa using ih (by simpa using h)
      | some x => simpa using ih (by simpa using h)

theorem unmasked_eq {data es : List (Option K)} (h : es.length = data.length) :
    unmasked data es = .ok ((present data es).map Prod.snd) := by
  unfold unmasked present
  rw [if_neg (not_not.2 h)]
  congr 1
  induction data generalizing es with
  | nil => simp
  | cons a l ih =>
    cases es with
    | nil => simp at h
    | cons e es =>
      cases a with
      | none => simpa using ih (by simpa using h)
      | some x => simpa using ih (by simpa using h)

/-- **C89** `weighted_nanmean` is the mean of the data which are not missing. -/
theorem C89_mean (S : StatsEnv K) (data es : List (Option K)) (h : es.length = data.length) :
    weightedNanmean S data none = weightedMean S (data.filterMap id) none ∧
    weightedNanmean S data (some es) = weightedMean S ((present data es).map Prod.fst) (some ((present data es).map Prod.snd)) := by
  refine ⟨rfl, ?_⟩
  unfold weightedNanmean
  simp only [unmasked_eq h, bind, Except.bind, present_fst h]

/-- **C89** `weighted_nanrms` is the root mean square of the data which are not missing. -/
theorem C89_rms (S : StatsEnv K) (data es : List (Option K)) (h : es.length = data.length) :
    weightedNanrms S data none = weightedRms S (data.filterMap id) none ∧
    weightedNanrms S data (some es) = weightedRms S ((present data es).map Prod.fst) (some ((present data es).map Prod.snd)) := by
  refine ⟨rfl, ?_⟩
  unfold weightedNanrms
  simp only [unmasked_eq h, bind, Except.bind, present_fst h]

/-- **C89** `circular_nanmean` is the circular mean of the data which are not missing. -/
theorem C89_circular_mean (S : StatsEnv ℝ) (data es : List (Option ℝ)) (period : ℝ) (h : es.length = data.length) :
    circularNanmean S data period none = circularMean S (data.filterMap id) period none ∧
    circularNanmean S data period (some es) =
      circularMean S ((present data es).map Prod.fst) period (some ((present data es).map Prod.snd)) := by
  refine ⟨rfl, ?_⟩
  unfold circularNanmean
  simp only [unmasked_eq h, bind, Except.bind, present_fst h]

/-- **C89** (where it holds) With errors of the data present that can be used to weight, `circular_nanerror` is the error of the
circular mean of the data which are not missing.  Without such errors see `C89_violated_error`. -/
theorem C89_circular_error_partial (S : StatsEnv ℝ) (data es : List (Option ℝ)) (period : ℝ) (tCorr : Bool)
    (h : es.length = data.length) (hu : ∀ p ∈ present data es, ∃ e, p.2 = some e ∧ e ≠ 0) :
    circularNanerror S data period (some es) tCorr =
      circularError S ((present data es).map Prod.fst) period (some ((present data es).map Prod.snd)) tCorr := by
  have hw : ∃ w, weightsFromErrors S (some ((present data es).map Prod.snd)) period = some w := by
    unfold weightsFromErrors
    simp only
    rw [if_neg, if_neg]
    · exact ⟨_, rfl⟩
    · simp only [List.any_eq_true, List.mem_filterMap, not_exists, not_and, List.mem_map, decide_eq_true_eq, id]
      rintro x ⟨o, ⟨p, hp, rfl⟩, ho⟩ hx
      obtain ⟨e, he, hne⟩ := hu p hp
      rw [he] at ho
      cases ho
      exact hne hx
    · simp only [List.any_eq_true, List.mem_map, not_exists, not_and]
      rintro o ⟨p, hp, rfl⟩
      obtain ⟨e, he, -⟩ := hu p hp
      simp [he]
  obtain ⟨w, hw⟩ := hw
  unfold circularNanerror circularError circularErrorOf
  simp only [unmasked_eq h, bind, Except.bind, present_fst h, hw]
  rfl

/-- **C89** Data which are complete have the same error, whatever their errors. -/
theorem C89_complete (S : StatsEnv ℝ) (data : List ℝ) (errors : Option (List (Option ℝ))) (period : ℝ) (tCorr : Bool)
    (h : ∀ es, errors = some es → es.length = data.length) :
    circularNanerror S (data.map some) period errors tCorr = circularError S data period errors tCorr := by
  have hd : (data.map some).filterMap id = data := by simp [List.filterMap_map]
  cases errors with
  | none =>
    unfold circularNanerror circularError
    simp only [hd, List.length_map]
  | some es =>
    have hl := h es rfl
    have hp : (present (data.map some) es).map Prod.snd = es := by
      unfold present
      clear hd h
      induction data generalizing es with
      | nil => cases es with
        | nil => rfl
        | cons => simp at hl
      | cons a l ih =>
        cases es with
        | nil => simp at hl
        | cons e es => simpa using ih es (by simpa using hl)
    unfold circularNanerror circularError
    simp only [unmasked_eq (data := data.map some) (by simpa using hl), hp, bind, Except.bind, hd, List.length_map]

theorem effectiveSampleSize_mono {m n : Nat} (h : m ≤ n) : effectiveSampleSize m (none : Option (List ℝ)) ≤ effectiveSampleSize n none := by
  have : (m : ℝ) ≤ n := by exact_mod_cast h
  unfold effectiveSampleSize
  simp only
  split <;> split <;> linarith

theorem two_le_sampleSize (n : Nat) : 2 ≤ effectiveSampleSize n (none : Option (List ℝ)) := by
  unfold effectiveSampleSize
  simp only
  split <;> linarith

theorem unbiasVariance_anti {m n : Nat} (h : m ≤ n) : unbiasVariance n (none : Option (List ℝ)) ≤ unbiasVariance m none := by
  have h1 := effectiveSampleSize_mono h
  have h2 := two_le_sampleSize m
  unfold unbiasVariance
  simp only
  rw [div_le_div_iff₀ (by linarith) (by linarith)]
  nlinarith

/-- what is made of the error of the phase at the end -/
theorem saturate_mono {x y period : ℝ} (hp : 0 < period) (h : x ≤ y) :
    (if 1 / 4 * (2 * π) < x then 3 / 10 * period else x * period / (2 * π)) ≤
    (if 1 / 4 * (2 * π) < y then 3 / 10 * period else y * period / (2 * π)) := by
  have hpi := Real.pi_pos
  split
  · rw [if_pos (by linarith)]
  · rename_i hx
    have hx := not_lt.1 hx
    split
    · rw [div_le_iff₀ (by positivity)]
      nlinarith [mul_pos hp hpi]
    · have : x * period ≤ y * period := mul_le_mul_of_nonneg_right h hp.le
      gcongr

/-- **C89** What becomes of the error without errors to weight: missing data are counted as if they had been measured, so that the
error is never above the one of the data present. -/
theorem C89_understated (S : StatsEnv ℝ) (data : List (Option ℝ)) (period e e' : ℝ) (tCorr : Bool) (hp : 0 < period)
    (ht0 : ∀ x, 0 ≤ S.tppf x) (ht : ∀ x y, x ≤ y → S.tppf y ≤ S.tppf x)
    (h : circularNanerror S data period none tCorr = .ok e) (h' : circularError S (data.filterMap id) period none tCorr = .ok e') :
    e ≤ e' := by
  have hle : (data.filterMap id).length ≤ data.length := List.length_filterMap_le _ _
  unfold circularNanerror at h
  simp only at h
  unfold circularError at h'
  unfold circularErrorOf at h h'
  simp only [Except.bind_eq_ok'] at h h'
  obtain ⟨a, ha, v, hv, h⟩ := h
  obtain ⟨a', ha', v', hv', h'⟩ := h'
  rw [ha] at ha'
  cases ha'
  rw [hv] at hv'
  cases hv'
  cases h
  cases h'
  have hw : weightsFromErrors S none period = none := rfl
  rw [hw] at hv ⊢
  have hv0 : 0 ≤ v.1 := by
    unfold npAverage at hv
    simp only at hv
    split at hv
    · cases hv
    · cases hv
      refine div_nonneg (List.sum_nonneg ?_) (by positivity)
      intro x hx
      obtain ⟨y, -, rfl⟩ := List.mem_map.1 hx
      positivity
  refine saturate_mono hp ?_
  simp only [Option.isSome_none, Bool.false_eq_true, if_false]
  have hs : √(v.1 * unbiasVariance data.length none) ≤ √(v.1 * unbiasVariance (data.filterMap id).length none) :=
    Real.sqrt_le_sqrt (mul_le_mul_of_nonneg_left (unbiasVariance_anti hle) hv0)
  have hpos : ∀ m, 0 < unbiasVariance m (none : Option (List ℝ)) := by
    intro m
    have h2 := two_le_sampleSize m
    unfold unbiasVariance
    exact div_pos (by linarith) (by linarith)
  have hz : (√(v.1 * unbiasVariance data.length none) = 0) ↔ (√(v.1 * unbiasVariance (data.filterMap id).length none) = 0) := by
    rw [Real.sqrt_eq_zero (mul_nonneg hv0 (hpos _).le), Real.sqrt_eq_zero (mul_nonneg hv0 (hpos _).le)]
    simp [(hpos _).ne']
  generalize √(v.1 * unbiasVariance (data.filterMap id).length none) = s' at hs hz ⊢
  have h0 : 0 ≤ √(v.1 * unbiasVariance data.length none) := Real.sqrt_nonneg _
  generalize √(v.1 * unbiasVariance data.length none) = s at hs hz h0 ⊢
  have hpe : (if ‖a.1‖ = 0 then (if s = 0 then 0 else 2 ^ 1023) else s / ‖a.1‖) ≤
      (if ‖a.1‖ = 0 then (if s' = 0 then 0 else 2 ^ 1023) else s' / ‖a.1‖) ∧
      (0 : ℝ) ≤ (if ‖a.1‖ = 0 then (if s = 0 then 0 else 2 ^ 1023) else s / ‖a.1‖) := by
    by_cases hn : ‖a.1‖ = 0
    · rw [if_pos hn, if_pos hn]
      by_cases hs0 : s = 0
      · rw [if_pos hs0, if_pos (hz.1 hs0)]; exact ⟨le_refl _, le_refl _⟩
      · rw [if_neg hs0, if_neg (fun h => hs0 (hz.2 h))]; exact ⟨le_refl _, by positivity⟩
    · rw [if_neg hn, if_neg hn]
      exact ⟨by gcongr, by positivity⟩
  cases tCorr with
  | false => exact hpe.1
  | true =>
    simp only [if_true]
    refine mul_le_mul hpe.1 ?_ (ht0 _) (le_trans hpe.2 hpe.1)
    unfold tValueCorrection
    refine ht _ _ ?_
    have h1 := effectiveSampleSize_mono hle
    have h2 := two_le_sampleSize data.length
    have h3 := two_le_sampleSize (data.filterMap id).length
    split <;> split <;> linarith

/-- two points a quarter of a period apart, and an array with them of length `n` -/
theorem quarter_error (f : ℝ → ℝ) (n : Nat) (hn : 2 ≤ n) :
    circularErrorOf (realStats f) n [0, 1] 4 none false = .ok (√((n : ℝ) / (n - 1)) * 4 / (2 * π)) := by
  have hpi := Real.pi_pos
  have hz : complexPhases [0, 1] 4 = [1, Complex.I] := by
    unfold complexPhases
    simp only [List.map_cons, List.map_nil]
    congr 1
    · simp
    · congr 1
      rw [show ((1 * (2 * π) / 4 : ℝ) : ℂ) = (π / 2 : ℂ) by push_cast; ring]
      exact Complex.exp_pi_div_two_mul_I
  have ha : npAverageC [1, Complex.I] none = .ok ((1 + Complex.I) / 2, 2) := by
    unfold npAverageC
    simp
  have n1 : ‖(1 : ℂ) - (1 + Complex.I) / 2‖ ^ 2 = 1 / 2 := by
    rw [← Complex.normSq_eq_norm_sq, Complex.normSq_apply]
    simp
    norm_num
  have n2 : ‖Complex.I - (1 + Complex.I) / 2‖ ^ 2 = 1 / 2 := by
    rw [← Complex.normSq_eq_norm_sq, Complex.normSq_apply]
    simp
    norm_num
  have n3 : ‖(1 + Complex.I) / 2‖ ^ 2 = 1 / 2 := by
    rw [← Complex.normSq_eq_norm_sq, Complex.normSq_apply]
    simp
    norm_num
  have n4 : ‖(1 + Complex.I) / 2‖ = √(1 / 2) := by
    rw [← n3, Real.sqrt_sq (norm_nonneg _)]
  have hv : npAverage ([1, Complex.I].map (fun x => ‖x - (1 + Complex.I) / 2‖ ^ 2)) none = .ok (1 / 2, 2) := by
    unfold npAverage
    simp only [List.map_cons, List.map_nil, n1, n2]
    norm_num
  have hn' : (2 : ℝ) ≤ n := by exact_mod_cast hn
  have hub : unbiasVariance n (none : Option (List ℝ)) = n / (n - 1) := by
    have hs : effectiveSampleSize n (none : Option (List ℝ)) = n := by
      unfold effectiveSampleSize
      simp only
      split <;> linarith
    unfold unbiasVariance
    simp only [hs]
  have hw : weightsFromErrors (realStats f) none 4 = none := rfl
  have hq : √(1 / 2 * ((n : ℝ) / (n - 1))) / √(1 / 2) = √((n : ℝ) / (n - 1)) := by
    rw [Real.sqrt_mul (by norm_num), mul_div_cancel_left₀]
    exact (Real.sqrt_pos.2 (by norm_num)).ne'
  have hlt : √((n : ℝ) / (n - 1)) ≤ 3 / 2 := by
    rw [Real.sqrt_le_left (by norm_num), div_le_iff₀ (by linarith)]
    nlinarith
  have hpi3 := Real.pi_gt_three
  unfold circularErrorOf
  simp only [hw, hz, ha, hv, bind, Except.bind, Option.isSome_none, Bool.false_eq_true, if_false, hub, n4]
  rw [if_neg (Real.sqrt_pos.2 (by norm_num)).ne', hq, if_neg (by linarith)]

/-- **C89 violated**: without errors to weight, missing data make the error of the circular mean smaller.  Two points a quarter of a
period apart and any number of missing ones. -/
theorem C89_violated_error (f : ℝ → ℝ) (k : Nat) (hk : 0 < k) :
    ∃ e e', circularNanerror (realStats f) (some 0 :: some 1 :: List.replicate k none) 4 none false = .ok e ∧
      circularError (realStats f) [0, 1] 4 none false = .ok e' ∧ e < e' := by
  have hpi := Real.pi_pos
  have hf : (some (0 : ℝ) :: some 1 :: List.replicate k none).filterMap id = [0, 1] := by simp
  have hl : (some (0 : ℝ) :: some 1 :: List.replicate k none).length = k + 2 := by simp
  refine ⟨_, _, Eq.trans ?_ (quarter_error f (k + 2) (by omega)), quarter_error f 2 (le_refl _), ?_⟩
  · unfold circularNanerror
    simp only [hf, hl]
  · have hk' : (1 : ℝ) ≤ k := by exact_mod_cast hk
    have : √(((k + 2 : ℕ) : ℝ) / ((k + 2 : ℕ) - 1)) < √(((2 : ℕ) : ℝ) / ((2 : ℕ) - 1)) := by
      push_cast
      refine Real.sqrt_lt_sqrt (div_nonneg (by linarith) (by linarith)) ?_
      rw [div_lt_div_iff₀ (by linarith) (by norm_num)]
      linarith
    gcongr

/-- three data of which one is missing, together with its error -/
example : ∃ S : StatsEnv ℚ, weightedNanmean S [some 1, none, some 4] (some [some 1, none, some (1 / 2)]) = .ok (17 / 5) ∧
    weightedNanrms S [some 1, none, some 7] (some [some 1, none, some 1]) = .ok 5 ∧
    present [some 1, none, some 4] [some 1, none, some (1 / 2)] = [((1 : ℚ), some 1), (4, some (1 / 2))] :=
  ⟨⟨Example.qsqrt, 6, fun _ => 1⟩, by decide +kernel, by decide +kernel, by decide +kernel⟩

/-- the hypotheses of `C89_circular_error_partial` -/
example : circularNanerror (realStats id) [some 1, none, some 3] 4 (some [some 1, none, some 2]) true =
    circularError (realStats id) [1, 3] 4 (some [some 1, some 2]) true :=
  C89_circular_error_partial _ _ _ _ _ rfl (by simp [present])

/-- the hypotheses of `C89_understated`, with a case in which the error is really smaller -/
example : ∃ e e', circularNanerror (realStats fun _ => 1) [some 0, some 1, none] 4 none false = .ok e ∧
    circularError (realStats fun _ => 1) [0, 1] 4 none false = .ok e' ∧ e < e' ∧ e ≤ e' := by
  obtain ⟨e, e', h, h', hlt⟩ := C89_violated_error (fun _ => 1) 1 (by norm_num)
  exact ⟨e, e', h, h', hlt, C89_understated _ _ 4 e e' false (by norm_num) (fun _ => by simp [realStats]) (fun _ _ _ => le_refl _) h
    (by simpa using h')⟩

end PySC
