import Verif.Model.Circular
import Verif.Props.Stats
import Mathlib.Tactic.NormNum
/-
C70 Circular averages.
-/
set_option linter.unusedSectionVars false
namespace PySC
open Spec Real

/-- the point of the unit circle which belongs to `x` -/
noncomputable def onCircle (period x : ℝ) : ℂ := Complex.exp ((x * (2 * π) / period : ℝ) * Complex.I)

theorem onCircle_norm (period x : ℝ) : ‖onCircle period x‖ = 1 := Complex.norm_exp_ofReal_mul_I _

theorem onCircle_ne (period x : ℝ) : onCircle period x ≠ 0 := Complex.exp_ne_zero _

theorem onCircle_add (period x y : ℝ) : onCircle period (x + y) = onCircle period x * onCircle period y := by
  unfold onCircle
  rw [← Complex.exp_add]
  congr 1
  push_cast
  ring

theorem onCircle_same {period x y : ℝ} (hp : period ≠ 0) (h : SamePhase period x y) : onCircle period x = onCircle period y := by
  obtain ⟨k, hk⟩ := h
  have hx : x = y + k * period := by linear_combination hk
  rw [hx, onCircle_add]
  have : onCircle period (k * period) = 1 := by
    unfold onCircle
    rw [← Complex.exp_int_mul_two_pi_mul_I k]
    congr 1
    push_cast
    have : (period : ℂ) ≠ 0 := by exact_mod_cast hp
    field_simp
  rw [this, mul_one]

/-- equal directions mean equal arguments up to whole periods -/
theorem samePhase_of_arg {period : ℝ} (hp : period ≠ 0) {z : ℂ} (hz : z ≠ 0) (x : ℝ) {a : ℝ}
    (ha : Complex.arg z = a) {z' : ℂ} (hz' : z' = z * onCircle period x) :
    SamePhase period (Complex.arg z' * period / (2 * π)) (a * period / (2 * π) + x) := by
  subst hz' ha
  have h1 := Complex.arg_mul_coe_angle hz (onCircle_ne period x)
  have h2 : ((Complex.arg (onCircle period x) : ℝ) : Real.Angle) = ((x * (2 * π) / period : ℝ) : Real.Angle) := by
    unfold onCircle
    rw [Complex.exp_mul_I]
    have := Complex.arg_cos_add_sin_mul_I_coe_angle ((x * (2 * π) / period : ℝ) : Real.Angle)
    rw [← this]
    simp
  rw [h2, ← Real.Angle.coe_add, Real.Angle.angle_eq_iff_two_pi_dvd_sub] at h1
  obtain ⟨k, hk⟩ := h1
  refine ⟨k, ?_⟩
  have hpi := Real.pi_ne_zero
  field_simp at hk ⊢
  linear_combination hk

theorem npAverageC_map (data : List ℂ) (w : Option (List ℝ)) (c : ℂ) :
    npAverageC (data.map (fun z => z * c)) w = (npAverageC data w).map (fun a => (a.1 * c, a.2)) := by
  have hsum : ∀ l : List ℂ, (l.map (fun z => z * c)).sum = l.sum * c := by
    intro l
    induction l with
    | nil => simp
    | cons a l ih => simp only [List.map_cons, List.sum_cons, ih, add_mul]
  unfold npAverageC
  cases w with
  | none =>
    simp only [List.isEmpty_map, List.length_map, hsum]
    split
    · rfl
    · simp only [Except.map]
      congr 2
      ring
  | some w =>
    simp only [List.length_map]
    split
    · rfl
    · split
      · rfl
      · simp only [Except.map]
        congr 2
        rw [List.zipWith_map_left, div_mul_eq_mul_div, ← hsum, List.map_zipWith]
        congr 3
        funext a b
        ring

theorem circularMean_eq_ok {S : StatsEnv ℝ} {data : List ℝ} {period m : ℝ} {errors : Option (List (Option ℝ))} :
    circularMean S data period errors = .ok m ↔ ∃ a, npAverageC (data.map (onCircle period)) (weightsFromErrors S errors period) = .ok a ∧
      m = Complex.arg a.1 * period / (2 * π) := by
  unfold circularMean
  rw [Except.bind_eq_ok']
  constructor
  · rintro ⟨a, h, h2⟩; cases h2; exact ⟨a, h, rfl⟩
  · rintro ⟨a, h, rfl⟩; exact ⟨a, h, rfl⟩

/-- **C70** The circular mean lies within half a period of zero. -/
theorem C70_range (S : StatsEnv ℝ) (data : List ℝ) (period m : ℝ) (errors : Option (List (Option ℝ))) (hp : 0 < period)
    (h : circularMean S data period errors = .ok m) : -(period / 2) < m ∧ m ≤ period / 2 := by
  obtain ⟨a, -, rfl⟩ := circularMean_eq_ok.1 h
  have h1 := Complex.neg_pi_lt_arg a.1
  have h2 := Complex.arg_le_pi a.1
  have hpi := Real.pi_pos
  constructor
  · rw [lt_div_iff₀ (by positivity)]
    nlinarith
  · rw [div_le_iff₀ (by positivity)]
    nlinarith

/-- **C70** Whole periods in the data do not matter. -/
theorem C70_periods (S : StatsEnv ℝ) (data data' : List ℝ) (period : ℝ) (errors : Option (List (Option ℝ))) (hp : period ≠ 0)
    (h : List.Forall₂ (SamePhase period) data data') : circularMean S data period errors = circularMean S data' period errors := by
  have : data.map (onCircle period) = data'.map (onCircle period) := by
    induction h with
    | nil => rfl
    | cons h1 _ ih => simp only [List.map_cons, ih, onCircle_same hp h1]
  have h2 : complexPhases data period = complexPhases data' period := this
  unfold circularMean
  rw [h2]

/-- **C70** Shifting the data shifts the circular mean, up to whole periods, unless the directions cancel. -/
theorem C70_shift (S : StatsEnv ℝ) (data : List ℝ) (period m m' c : ℝ) (errors : Option (List (Option ℝ))) (hp : period ≠ 0)
    (hz : ∀ a, npAverageC (data.map (onCircle period)) (weightsFromErrors S errors period) = .ok a → a.1 ≠ 0)
    (h : circularMean S data period errors = .ok m) (h' : circularMean S (data.map (fun x => x + c)) period errors = .ok m') :
    SamePhase period m' (m + c) := by
  obtain ⟨a, ha, rfl⟩ := circularMean_eq_ok.1 h
  obtain ⟨a', ha', rfl⟩ := circularMean_eq_ok.1 h'
  have e : (data.map (fun x => x + c)).map (onCircle period) = (data.map (onCircle period)).map (fun z => z * onCircle period c) := by
    rw [List.map_map, List.map_map]
    exact List.map_congr_left (fun x _ => onCircle_add period x c)
  rw [e, npAverageC_map, ha] at ha'
  cases ha'
  exact samePhase_of_arg hp (hz a ha) c rfl rfl

/-- **C70** If all data agree up to whole periods, so does the circular mean. -/
theorem C70_constant (S : StatsEnv ℝ) (data : List ℝ) (period c m : ℝ) (errors : Option (List (Option ℝ))) (hp : period ≠ 0)
    (hc : ∀ x ∈ data, SamePhase period x c) (h : circularMean S data period errors = .ok m) : SamePhase period m c := by
  obtain ⟨a, ha, rfl⟩ := circularMean_eq_ok.1 h
  have e : data.map (onCircle period) = (List.replicate data.length (1 : ℂ)).map (fun z => z * onCircle period c) := by
    rw [List.map_replicate, one_mul]
    refine List.eq_replicate_iff.2 ⟨by simp, fun z hz => ?_⟩
    obtain ⟨x, hx, rfl⟩ := List.mem_map.1 hz
    exact onCircle_same hp (hc x hx)
  rw [e, npAverageC_map] at ha
  have h1 : ∀ b, npAverageC (List.replicate data.length (1 : ℂ)) (weightsFromErrors S errors period) = .ok b → b.1 = 1 := by
    intro b hb
    unfold npAverageC at hb
    cases hw : weightsFromErrors S errors period with
    | none =>
      rw [hw] at hb
      simp only at hb
      split at hb
      · cases hb
      · rename_i hne
        cases hb
        have : (data.length : ℂ) ≠ 0 := by
          have : data.length ≠ 0 := by
            intro h0; rw [h0] at hne; simp at hne
          exact_mod_cast this
        simp [this]
    | some w =>
      rw [hw] at hb
      simp only at hb
      split at hb
      · cases hb
      · rename_i hl
        split at hb
        · cases hb
        · rename_i h0
          cases hb
          have : (List.zipWith (fun z (x : ℝ) => z * (x : ℂ)) (List.replicate data.length 1) w).sum = (w.sum : ℂ) := by
            have hl : w.length = data.length := by simpa using hl
            rw [← hl]
            clear * -
            induction w with
            | nil => simp
            | cons a l ih =>
              simp only [List.length_cons, List.replicate_succ, List.zipWith_cons_cons, List.sum_cons, ih, one_mul]
              push_cast
              rfl
          simp only [this]
          exact div_self (by exact_mod_cast h0)
  cases hb : npAverageC (List.replicate data.length (1 : ℂ)) (weightsFromErrors S errors period) with
  | error e => rw [hb] at ha; cases ha
  | ok b =>
    rw [hb] at ha
    cases ha
    have hb1 := h1 b hb
    simpa using samePhase_of_arg hp one_ne_zero c Complex.arg_one (z' := b.1 * onCircle period c) (by rw [hb1])

/-- **C70** Two points less than half a period apart have their midpoint as circular mean. -/
theorem C70_midpoint (S : StatsEnv ℝ) (period x y m : ℝ) (hp : 0 < period) (hxy : |x - y| < period / 2)
    (h : circularMean S [x, y] period none = .ok m) : SamePhase period m ((x + y) / 2) := by
  obtain ⟨a, ha, rfl⟩ := circularMean_eq_ok.1 h
  have hw : weightsFromErrors S none period = none := rfl
  rw [hw] at ha
  simp only [npAverageC, List.map_cons, List.map_nil, List.isEmpty_cons, Bool.false_eq_true, if_false] at ha
  cases ha
  simp only [List.sum_cons, List.sum_nil, add_zero, List.length_cons, List.length_nil]
  have hpi := Real.pi_pos
  have hcos : 0 < Real.cos ((x - y) * π / period) := by
    refine Real.cos_pos_of_mem_Ioo ⟨?_, ?_⟩
    · rw [lt_div_iff₀ hp]
      have := (abs_lt.1 hxy).1
      nlinarith
    · rw [div_lt_iff₀ hp]
      have := (abs_lt.1 hxy).2
      nlinarith
  have key : (onCircle period x + onCircle period y) / ((0 + 1 + 1 : ℕ) : ℂ) =
      (Real.cos ((x - y) * π / period) : ℂ) * onCircle period ((x + y) / 2) := by
    have e1 : onCircle period x = Complex.exp (((x - y) * π / period : ℝ) * Complex.I) * onCircle period ((x + y) / 2) := by
      unfold onCircle
      rw [← Complex.exp_add]
      congr 1
      push_cast
      ring
    have e2 : onCircle period y = Complex.exp (-((x - y) * π / period : ℝ) * Complex.I) * onCircle period ((x + y) / 2) := by
      unfold onCircle
      rw [← Complex.exp_add]
      congr 1
      push_cast
      ring
    rw [e1, e2, Complex.ofReal_cos, Complex.cos]
    push_cast
    ring
  rw [key]
  have := samePhase_of_arg hp.ne' (z := (Real.cos ((x - y) * π / period) : ℂ)) (by exact_mod_cast hcos.ne') ((x + y) / 2)
    (Complex.arg_ofReal_of_nonneg hcos.le) rfl
  simpa using this

/-- **C70** The error of the circular mean is neither negative nor above 0.3 periods. -/
theorem C70_error (S : StatsEnv ℝ) (data : List ℝ) (period e : ℝ) (errors : Option (List (Option ℝ))) (tCorr : Bool) (hp : 0 < period)
    (ht : ∀ x, 0 ≤ S.tppf x) (h : circularError S data period errors tCorr = .ok e) : 0 ≤ e ∧ e ≤ 3 / 10 * period := by
  unfold circularError circularErrorOf at h
  simp only [Except.bind_eq_ok'] at h
  obtain ⟨a, -, v, -, h⟩ := h
  cases h
  have hpi := Real.pi_pos
  have hpe : ∀ pe0 : ℝ, 0 ≤ pe0 → ∀ pe, pe = (if tCorr then pe0 * tValueCorrection S (effectiveSampleSize data.length
      (weightsFromErrors S errors period)) else pe0) →
      0 ≤ (if 1 / 4 * (2 * π) < pe then 3 / 10 * period else pe * period / (2 * π)) ∧
      (if 1 / 4 * (2 * π) < pe then 3 / 10 * period else pe * period / (2 * π)) ≤ 3 / 10 * period := by
    intro pe0 h0 pe hpe
    have hpos : 0 ≤ pe := by
      rw [hpe]
      split
      · exact mul_nonneg h0 (ht _)
      · exact h0
    split
    · exact ⟨by positivity, le_refl _⟩
    · rename_i hle
      refine ⟨by positivity, ?_⟩
      rw [div_le_iff₀ (by positivity)]
      have := not_lt.1 hle
      nlinarith [mul_pos hp hpi]
  refine hpe _ ?_ _ rfl
  by_cases h0 : ‖a.1‖ = 0
  · rw [if_pos h0]
    have hif : ∀ c : Prop, ∀ [Decidable c], (0 : ℝ) ≤ if c then 0 else 2 ^ 1023 := by
      intro c _
      split
      · exact le_refl _
      · positivity
    exact hif _
  · rw [if_neg h0]
    positivity

theorem weights_period (f : ℝ → ℝ) (errors : Option (List (Option ℝ))) {period : ℝ} (hp : 0 < period) :
    weightsFromErrors (realStats f) errors period =
      (weightsFromErrors (realStats f) errors (realStats f).pi2).map (fun l => l.map (fun x => x * (period / (2 * π)) ^ 2)) := by
  have hpi := Real.pi_pos
  unfold weightsFromErrors
  cases errors with
  | none => rfl
  | some es =>
    simp only
    split
    · rfl
    · split
      · rfl
      · rename_i h0
        simp only [Option.map_some, List.map_map, Option.some.injEq]
        refine List.map_congr_left (fun e he => ?_)
        have hne : e ≠ 0 := fun h => h0 (List.any_eq_true.2 ⟨e, he, by simpa using h⟩)
        simp only [Function.comp, realStats]
        field_simp

theorem weights_nonneg {f : ℝ → ℝ} {errors : Option (List (Option ℝ))} {period : ℝ} {w : List ℝ}
    (h : weightsFromErrors (realStats f) errors period = some w) : ∀ x ∈ w, 0 ≤ x := by
  unfold weightsFromErrors at h
  cases errors with
  | none => cases h
  | some es =>
    simp only at h
    split at h
    · cases h
    · split at h
      · cases h
      · cases h
        intro x hx
        obtain ⟨e, -, rfl⟩ := List.mem_map.1 hx
        positivity

theorem sampleSize_scaled (n : Nat) (w : Option (List ℝ)) {c : ℝ} (hc : c ≠ 0) :
    effectiveSampleSize n (w.map (fun l => l.map (fun x => x * c))) = effectiveSampleSize n w := by
  cases w with
  | none => rfl
  | some l =>
    unfold effectiveSampleSize
    simp only [Option.map_some, List.map_map]
    have h1 : (l.map (fun x => x * c)).sum = l.sum * c := sum_map_mul l c
    have h2 : (l.map ((fun x => x ^ 2) ∘ fun x => x * c)).sum = (l.map (fun x => x ^ 2)).sum * c ^ 2 := by
      rw [← sum_map_mul, List.map_map]
      congr 1
      refine List.map_congr_left (fun x _ => ?_)
      simp only [Function.comp]; ring
    rw [h1, h2, mul_pow, mul_div_mul_right _ _ (pow_ne_zero 2 hc)]

theorem zipWith_const (data w : List ℝ) (h : w.length = data.length) (c : ℝ) :
    (List.zipWith (· * ·) (data.map (fun _ => c)) w).sum = c * w.sum := by
  induction data generalizing w with
  | nil => cases w <;> simp_all
  | cons a l ih =>
    cases w with
    | nil => simp at h
    | cons b w => simp only [List.map_cons, List.zipWith_cons_cons, List.sum_cons, ih w (by simpa using h)]; ring

theorem zipWith_constC (data w : List ℝ) (h : w.length = data.length) (c : ℂ) :
    (List.zipWith (fun z (x : ℝ) => z * (x : ℂ)) (data.map (fun _ => c)) w).sum = c * (w.sum : ℂ) := by
  induction data generalizing w with
  | nil => cases w <;> simp_all
  | cons a l ih =>
    cases w with
    | nil => simp at h
    | cons b w =>
      simp only [List.map_cons, List.zipWith_cons_cons, List.sum_cons, ih w (by simpa using h)]
      push_cast
      ring

/-- **C70** If all data agree up to whole periods, the error of the circular mean is the error of the mean of equal data, which comes from the
given errors only; 0.3 periods stand for errors above a quarter of a period. -/
theorem C70_error_constant (f : ℝ → ℝ) (data : List ℝ) (period c err : ℝ) (errors : Option (List (Option ℝ))) (tCorr : Bool) (hp : 0 < period)
    (hc : ∀ x ∈ data, SamePhase period x c)
    (h : weightedError (realStats f) (data.map (fun _ => c)) errors tCorr = .ok err) :
    circularError (realStats f) data period errors tCorr = .ok (if period / 4 < err then 3 / 10 * period else err) := by
  have hpi := Real.pi_pos
  have hz : complexPhases data period = data.map (fun _ => onCircle period c) :=
    List.map_congr_left (fun x hx => onCircle_same hp.ne' (hc x hx))
  have hk : (period / (2 * π)) ^ 2 ≠ 0 := by positivity
  have hW := weights_period f errors hp
  have hsize := sampleSize_scaled data.length (weightsFromErrors (realStats f) errors (realStats f).pi2) hk
  rw [← hW] at hsize
  have hu : unbiasVariance data.length (weightsFromErrors (realStats f) errors period) =
      unbiasVariance data.length (weightsFromErrors (realStats f) errors (realStats f).pi2) := by
    unfold unbiasVariance; rw [hsize]
  have hu0 : 0 ≤ unbiasVariance data.length (weightsFromErrors (realStats f) errors (realStats f).pi2) := by
    unfold unbiasVariance
    have : 2 ≤ effectiveSampleSize data.length (weightsFromErrors (realStats f) errors (realStats f).pi2) := by
      have hif : ∀ z : ℝ, 2 ≤ if 2 < z then z else 2 := by
        intro z
        split
        · rename_i h; exact h.le
        · exact le_refl _
      exact hif _
    exact div_nonneg (by linarith) (by linarith)
  -- the averages of equal data
  obtain ⟨v, hv, n', hC, hR, e0, hm1, hm2, herr⟩ : ∃ v : ℝ, 0 ≤ v ∧ ∃ n' : ℝ,
      npAverageC (data.map (fun _ => onCircle period c)) (weightsFromErrors (realStats f) errors period) = .ok (onCircle period c, n') ∧
      npAverage (data.map (fun _ => (0 : ℝ))) (weightsFromErrors (realStats f) errors period) = .ok (0, n') ∧
      ∃ n, npAverage (data.map (fun _ => c)) (weightsFromErrors (realStats f) errors (realStats f).pi2) = .ok (c, n) ∧
      npAverage (data.map (fun _ => (0 : ℝ))) (weightsFromErrors (realStats f) errors (realStats f).pi2) = .ok (0, n) ∧
      (if (weightsFromErrors (realStats f) errors (realStats f).pi2).isSome then 0 + 1 / n else 0) = v ∧
      (if (weightsFromErrors (realStats f) errors period).isSome then 0 + 1 / n' else 0) = v * ((2 * π) / period) ^ 2 := by
    unfold weightedError at h
    simp only [Except.bind_eq_ok'] at h
    obtain ⟨a, ha, -⟩ := h
    cases hw : weightsFromErrors (realStats f) errors (realStats f).pi2 with
    | none =>
      rw [hw] at ha hW
      simp only [Option.map_none] at hW
      rw [hW]
      unfold npAverage at ha
      simp only at ha
      split at ha
      · cases ha
      · rename_i hne
        have hl : (data.length : ℝ) ≠ 0 := by
          have : data.length ≠ 0 := by
            intro h0; rw [List.length_eq_zero_iff.1 h0] at hne; simp at hne
          exact_mod_cast this
        have hlC : (data.length : ℂ) ≠ 0 := by exact_mod_cast hl
        have hne' : data ≠ [] := by rintro rfl; simp at hl
        refine ⟨0, le_refl _, data.length, ?_, ?_, data.length, ?_, ?_, by simp, by simp⟩
        · simp [npAverageC, hne', hlC]
        · simp [npAverage, hne']
        · simp [npAverage, hne', hl]
        · simp [npAverage, hne']
    | some w =>
      rw [hw] at ha hW
      simp only [Option.map_some] at hW
      have hnn := weights_nonneg hw
      rw [hW]
      unfold npAverage at ha
      simp only [List.length_map] at ha
      split at ha
      · cases ha
      · rename_i hlen
        have hlen := not_not.1 hlen
        split at ha
        · cases ha
        · rename_i hs
          have hs0 : 0 ≤ w.sum := List.sum_nonneg hnn
          have hs' : (w.map (fun x => x * (period / (2 * π)) ^ 2)).sum = w.sum * (period / (2 * π)) ^ 2 := sum_map_mul _ _
          have hs2 : (w.map (fun x => x * (period / (2 * π)) ^ 2)).sum ≠ 0 := by rw [hs']; exact mul_ne_zero hs hk
          refine ⟨1 / w.sum, by positivity, (w.map (fun x => x * (period / (2 * π)) ^ 2)).sum, ?_, ?_, w.sum, ?_, ?_, by simp, ?_⟩
          · unfold npAverageC
            simp only [List.length_map]
            rw [if_neg (by simpa using hlen), if_neg hs2, zipWith_constC _ _ (by simpa using hlen),
              mul_div_cancel_right₀ _ (by exact_mod_cast hs2)]
          · unfold npAverage
            simp only [List.length_map]
            rw [if_neg (by simpa using hlen), if_neg hs2, zipWith_const _ _ (by simpa using hlen)]
            simp
          · unfold npAverage
            simp only [List.length_map]
            rw [if_neg (by simpa using hlen), if_neg hs, zipWith_const _ _ (by simpa using hlen), mul_div_cancel_right₀ _ hs]
          · unfold npAverage
            simp only [List.length_map]
            rw [if_neg (by simpa using hlen), if_neg hs, zipWith_const _ _ (by simpa using hlen)]
            simp
          · rw [hs']
            simp only [Option.isSome_some, if_true, zero_add]
            field_simp
  obtain ⟨herr1, herr2⟩ := herr
  unfold weightedError at h
  simp only [Except.bind_eq_ok'] at h
  obtain ⟨a, ha, b, hb, h⟩ := h
  rw [hm1] at ha
  cases ha
  have hzero : (data.map (fun _ => c)).map (fun x => |x - c| ^ 2) = data.map (fun _ => (0 : ℝ)) := by
    rw [List.map_map]
    refine List.map_congr_left (fun x _ => ?_)
    simp
  rw [hzero, hm2] at hb
  cases hb
  simp only [List.length_map] at h
  rw [herr1] at h
  have hsq : (realStats f).sqrt (v * unbiasVariance data.length (weightsFromErrors (realStats f) errors (realStats f).pi2)) =
      some √(v * unbiasVariance data.length (weightsFromErrors (realStats f) errors (realStats f).pi2)) := by
    simp only [realStats]
    rw [if_pos]
    exact mul_nonneg hv hu0
  rw [hsq] at h
  simp only [Option.getD_some] at h
  unfold circularError circularErrorOf
  simp only [hz]
  rw [hC]
  simp only [bind, Except.bind]
  have hzero' : (data.map (fun _ => onCircle period c)).map (fun x => ‖x - onCircle period c‖ ^ 2) = data.map (fun _ => (0 : ℝ)) := by
    rw [List.map_map]
    refine List.map_congr_left (fun x _ => ?_)
    simp
  rw [hzero', hR]
  simp only
  rw [herr2, hu, hsize, onCircle_norm, if_neg one_ne_zero, div_one]
  have hroot : √(v * (2 * π / period) ^ 2 * unbiasVariance data.length (weightsFromErrors (realStats f) errors (realStats f).pi2)) =
      √(v * unbiasVariance data.length (weightsFromErrors (realStats f) errors (realStats f).pi2)) * (2 * π / period) := by
    rw [show ∀ a b d : ℝ, a * b ^ 2 * d = (a * d) * b ^ 2 by intros; ring, Real.sqrt_mul (mul_nonneg hv hu0), Real.sqrt_sq (by positivity)]
  rw [hroot]
  have hfin : ∀ x y : ℝ, y = x * (2 * π / period) →
      (if 1 / 4 * (2 * π) < y then 3 / 10 * period else y * period / (2 * π)) = if period / 4 < x then 3 / 10 * period else x := by
    rintro x y rfl
    have h1 : 1 / 4 * (2 * π) < x * (2 * π / period) ↔ period / 4 < x := by
      rw [← mul_div_assoc, lt_div_iff₀ hp]
      constructor <;> intro hh <;> nlinarith
    by_cases hh : period / 4 < x
    · rw [if_pos (h1.2 hh), if_pos hh]
    · rw [if_neg (fun h' => hh (h1.1 h')), if_neg hh]
      field_simp
  have hE := Except.ok.inj h
  rw [← hE]
  congr 1
  refine hfin _ _ ?_
  split
  · ring
  · rfl

theorem arg_onCircle_small {x : ℝ} (h1 : -(1 / 2) < x) (h2 : x ≤ 1 / 2) : Complex.arg (onCircle 1 x) = 2 * π * x := by
  have hpi := Real.pi_pos
  unfold onCircle
  rw [Complex.exp_mul_I]
  have e : ((x * (2 * π) / 1 : ℝ)) = 2 * π * x := by ring
  rw [e]
  exact Complex.arg_cos_add_sin_mul_I ⟨by nlinarith, by nlinarith⟩

/-- **C70 violated**: the circular root mean square of a single value is neither its modulus (for a period of 4) nor a number
(for a period of one and 0.8, whose square is folded to a negative number). -/
theorem C70_violated_rms (f : ℝ → ℝ) : circularRms (realStats f) [1] 4 = .ok (1 / 2) ∧
    circularRms (realStats f) [4 / 5] 1 = .error .nonFinite := by
  have hpi := Real.pi_pos
  have hm : ∀ y, circularMean (realStats f) [y] 1 none = .ok (Complex.arg (onCircle 1 y) * 1 / (2 * π)) := by
    intro y
    refine circularMean_eq_ok.2 ⟨(onCircle 1 y, 1), ?_, rfl⟩
    simp [npAverageC, weightsFromErrors]
  constructor
  · unfold circularRms
    simp only [List.map_cons, List.map_nil, hm, bind, Except.bind]
    rw [arg_onCircle_small (by norm_num) (by norm_num)]
    have e : 2 * π * (1 / 4) ^ 2 * 1 / (2 * π) * 4 = (1 / 2 : ℝ) ^ 2 := by field_simp; norm_num
    rw [e]
    simp only [realStats]
    rw [if_pos (by positivity), Real.sqrt_sq (by norm_num)]
  · unfold circularRms
    simp only [List.map_cons, List.map_nil, hm, bind, Except.bind]
    have hs : onCircle 1 ((4 / 5 / 1) ^ 2) = onCircle 1 (-(9 / 25)) := onCircle_same one_ne_zero ⟨1, by norm_num⟩
    rw [hs, arg_onCircle_small (by norm_num) (by norm_num)]
    have e : 2 * π * (-(9 / 25)) * 1 / (2 * π) * 1 = (-(9 / 25) : ℝ) := by field_simp
    rw [e]
    simp only [realStats]
    rw [if_neg (by norm_num)]

/-- two points on either side of zero, given a period apart -/
example : ∃ m, circularMean (realStats id) [1 / 10, 39 / 10] 4 none = .ok m ∧ SamePhase 4 m 0 := by
  refine ⟨_, circularMean_eq_ok.2 ⟨_, rfl, rfl⟩, ?_⟩
  have h : circularMean (realStats id) [1 / 10, 39 / 10] 4 none = circularMean (realStats id) [1 / 10, -1 / 10] 4 none := by
    refine C70_periods _ _ _ _ _ (by norm_num) (.cons ⟨0, by norm_num⟩ (.cons ⟨1, by norm_num⟩ .nil))
  have := C70_midpoint (realStats id) 4 (1 / 10) (-1 / 10) _ (by norm_num) (by norm_num [abs_lt]) (by
    rw [← h]; exact circularMean_eq_ok.2 ⟨_, rfl, rfl⟩)
  rwa [show ((1 / 10 + -1 / 10) / 2 : ℝ) = 0 by norm_num] at this

/-- two measurements of the same phase, given a period apart, with the error one half each -/
example : circularError (realStats id) [1 / 2, 9 / 2] 4 (some [some (1 / 2), some (1 / 2)]) false = .ok (1 / 2) := by
  have hpi := Real.pi_ne_zero
  have hs : (√(4 : ℝ))⁻¹ = 1 / 2 := by
    rw [show (4 : ℝ) = 2 ^ 2 by norm_num, Real.sqrt_sq (by norm_num), one_div]
  have h : weightedError (realStats id) ([1 / 2, 9 / 2].map (fun _ => (1 / 2 : ℝ))) (some [some (1 / 2), some (1 / 2)]) false = .ok (1 / 2) := by
    have hw : weightsFromErrors (realStats id) (some [some (1 / 2), some (1 / 2)]) (realStats id).pi2 = some [4, 4] := by
      simp only [weightsFromErrors, realStats]
      simp [hpi]
      norm_num
    unfold weightedError
    rw [hw]
    simp only [npAverage, unbiasVariance, effectiveSampleSize, List.map_cons, List.map_nil, List.length_cons, List.length_nil]
    norm_num [bind, Except.bind, realStats]
    exact hs
  have := C70_error_constant id [1 / 2, 9 / 2] 4 (1 / 2) (1 / 2) (some [some (1 / 2), some (1 / 2)]) false (by norm_num)
    (by intro x hx; rcases List.mem_cons.1 hx with rfl | hx
        · exact ⟨0, by norm_num⟩
        · rw [List.mem_singleton.1 hx]; exact ⟨1, by norm_num⟩) h
  rw [this, if_neg (by norm_num)]

end PySC
