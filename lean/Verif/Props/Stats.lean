import Verif.Lemmas.Stats
import Verif.Props.Orbit
import Mathlib.Analysis.SpecialFunctions.Trigonometric.Basic
/-
C49 Weighted statistics.
-/
set_option linter.unusedSectionVars false
namespace PySC
open Spec
variable {K : Type} [Field K] [LinearOrder K]

section
variable [IsStrictOrderedRing K] {S : StatsEnv K} (hpi : S.pi2 ≠ 0)

theorem weightedMean_eq_ok {data : List K} {errors : Option (List (Option K))} {m : K} :
    weightedMean S data errors = .ok m ↔ ∃ w, npAverage data (weightsFromErrors S errors S.pi2) = .ok (m, w) := by
  unfold weightedMean
  rw [Except.bind_eq_ok']
  constructor
  · rintro ⟨⟨a, b⟩, h, h2⟩; cases h2; exact ⟨_, h⟩
  · rintro ⟨w, h⟩; exact ⟨_, h, rfl⟩

omit [LinearOrder K] [IsStrictOrderedRing K] in
theorem sum_map_mul (l : List K) (c : K) : (l.map (fun x => x * c)).sum = l.sum * c := by
  induction l with
  | nil => simp
  | cons a l ih => simp only [List.map_cons, List.sum_cons, ih, add_mul]

include hpi

/-- **C49** With usable errors the weighted mean is the one with the inverse squares of the errors as weights. -/
theorem C49_weighted_mean (data e : List K) (errors : Option (List (Option K))) (h : Usable errors e) (hlen : e.length = data.length)
    (hne : data ≠ []) : ∃ m, weightedMean S data errors = .ok m ∧
      m * weigh data e (fun _ e => 1 / e ^ 2) = weigh data e (fun x e => x / e ^ 2) ∧ 0 < weigh data e (fun _ e => 1 / e ^ 2) := by
  have hw := weights_default hpi h
  have hen : e ≠ [] := fun he => hne (List.length_eq_zero_iff.1 (by rw [← hlen, he]; rfl))
  have hs : 0 < (e.map (fun x => 1 / x ^ 2)).sum := sum_pos_of (weights_pos h.2) (by simpa using hen)
  have e1 : weigh data e (fun _ e => 1 / e ^ 2) = (e.map (fun x => 1 / x ^ 2)).sum := by
    unfold weigh
    rw [show (fun p : K × K => 1 / p.2 ^ 2) = (fun x => 1 / x ^ 2) ∘ Prod.snd from rfl, ← List.map_map, List.map_snd_zip (by omega)]
  have e2 : weigh data e (fun x e => x / e ^ 2) = (List.zipWith (· * ·) data (e.map (fun x => 1 / x ^ 2))).sum := by
    unfold weigh
    rw [List.zipWith_map_right, List.zip, List.map_zipWith]
    congr 2
    funext a b
    rw [mul_one_div]
  refine ⟨(List.zipWith (· * ·) data (e.map (fun x => 1 / x ^ 2))).sum / (e.map (fun x => 1 / x ^ 2)).sum,
    weightedMean_eq_ok.2 ⟨(e.map (fun x => 1 / x ^ 2)).sum, ?_⟩, ?_, by rw [e1]; exact hs⟩
  · unfold npAverage
    rw [hw]
    simp only
    rw [if_neg (by simpa using hlen), if_neg hs.ne']
  · rw [e1, e2]
    exact div_mul_cancel₀ _ hs.ne'

/-- **C49** Among all numbers, the weighted mean has the least sum of squared distances to the data in units of their
errors. -/
theorem C49_least_squares (data e : List K) (errors : Option (List (Option K))) (m c : K) (h : Usable errors e)
    (hlen : e.length = data.length) (hm : weightedMean S data errors = .ok m) :
    weigh data e (fun x e => ((x - m) / e) ^ 2) ≤ weigh data e (fun x e => ((x - c) / e) ^ 2) := by
  have hne : data ≠ [] := by
    obtain ⟨w, hw⟩ := weightedMean_eq_ok.1 hm
    exact (npAverage_cases (weightsFromErrors_pos hpi) hw).choose_spec.2.2.2.2.2.2
  obtain ⟨m', hm', hmul, hpos⟩ := C49_weighted_mean hpi data e errors h hlen hne
  rw [hm] at hm'; cases hm'
  have key : ∀ c, weigh data e (fun x e => ((x - c) / e) ^ 2) =
      weigh data e (fun x e => x ^ 2 / e ^ 2) - 2 * c * weigh data e (fun x e => x / e ^ 2) + c ^ 2 * weigh data e (fun _ e => 1 / e ^ 2) := by
    intro c
    unfold weigh
    clear * -
    induction data.zip e with
    | nil => simp
    | cons p l ih =>
      simp only [List.map_cons, List.sum_cons, ih]
      ring
  rw [key, key, ← hmul]
  nlinarith [mul_nonneg (sq_nonneg (m - c)) hpos.le]

/-- **C49** Without usable errors it is the mean. -/
theorem C49_unusable_errors (data : List K) (errors : Option (List (Option K))) (h : Unusable errors) (hne : data ≠ []) :
    weightedMean S data errors = .ok (data.sum / data.length) := by
  refine weightedMean_eq_ok.2 ⟨data.length, ?_⟩
  rw [weightsFromErrors_unusable _ h]
  unfold npAverage
  simp only
  rw [if_neg (by simpa using hne)]

/-- **C49** The weighted mean lies between the smallest and the largest of the data. -/
theorem C49_bounds (data : List K) (errors : Option (List (Option K))) (m lo hi : K) (hm : weightedMean S data errors = .ok m)
    (hb : ∀ x ∈ data, lo ≤ x ∧ x ≤ hi) : lo ≤ m ∧ m ≤ hi := by
  obtain ⟨w, hw⟩ := weightedMean_eq_ok.1 hm
  exact npAverage_bounds (weightsFromErrors_pos hpi) hw lo hi hb

/-- **C49** Shifting all data shifts the weighted mean (also in the cases in which it raises). -/
theorem C49_shift (data : List K) (errors : Option (List (Option K))) (c : K) :
    weightedMean S (data.map (fun x => x + c)) errors = (weightedMean S data errors).map (fun m => m + c) := by
  unfold weightedMean
  rw [npAverage_shift]
  cases npAverage data (weightsFromErrors S errors S.pi2) <;> rfl

/-- **C49** A common factor of the errors does not matter. -/
theorem C49_scaling (data : List K) (es : List (Option K)) (c : K) (hc : c ≠ 0) :
    weightedMean S data (some (es.map (fun e => e.map (fun x => c * x)))) = weightedMean S data (some es) := by
  rcases usable_or (some es) with ⟨e, he⟩ | hu
  · have he' : Usable (some (es.map (fun e => e.map (fun x => c * x)))) (e.map (fun x => c * x)) := by
      obtain ⟨h1, h2⟩ := he
      cases h1
      refine ⟨by simp [Function.comp_def], ?_⟩
      intro x hx
      obtain ⟨y, hy, rfl⟩ := List.mem_map.1 hx
      exact mul_ne_zero hc (h2 y hy)
    unfold weightedMean
    rw [weights_default hpi he, weights_default hpi he', List.map_map]
    have hw : e.map ((fun x => 1 / x ^ 2) ∘ fun x => c * x) = (e.map (fun x => 1 / x ^ 2)).map (fun x => x * (c⁻¹ ^ 2)) := by
      rw [List.map_map]
      refine List.map_congr_left (fun x _ => ?_)
      simp only [Function.comp, one_div, mul_pow, mul_inv, inv_pow]
      ring
    rw [hw]
    generalize e.map (fun x => 1 / x ^ 2) = l
    have hc2 : (c⁻¹ ^ 2 : K) ≠ 0 := pow_ne_zero _ (inv_ne_zero hc)
    have hs : (l.map (fun x => x * (c⁻¹ ^ 2))).sum = l.sum * c⁻¹ ^ 2 := sum_map_mul _ _
    have hz : (List.zipWith (· * ·) data (l.map (fun x => x * (c⁻¹ ^ 2)))).sum = (List.zipWith (· * ·) data l).sum * c⁻¹ ^ 2 := by
      rw [List.zipWith_map_right, ← sum_map_mul, List.map_zipWith]
      congr 2
      funext a b
      ring
    unfold npAverage
    simp only [List.length_map, hs, hz]
    by_cases h1 : l.length ≠ data.length
    · rw [if_pos h1, if_pos h1]
    · rw [if_neg h1, if_neg h1]
      by_cases h2 : l.sum = 0
      · rw [if_pos h2, if_pos (by rw [h2, zero_mul])]
      · rw [if_neg h2, if_neg (mul_ne_zero h2 hc2)]
        simp only [bind, Except.bind]
        rw [mul_div_mul_right _ _ hc2]
  · have hu' : Unusable (some (es.map (fun e => e.map (fun x => c * x)))) := by
      intro es' h; cases h
      rcases hu es rfl with h | h
      · exact Or.inl (List.mem_map.2 ⟨none, h, rfl⟩)
      · exact Or.inr (List.mem_map.2 ⟨some 0, h, by simp⟩)
    unfold weightedMean
    rw [weightsFromErrors_unusable _ hu, weightsFromErrors_unusable _ hu']

/-- **C49** Missing data are left out together with their errors, which need not be numbers then. -/
theorem C49_missing (data : List (Option K)) (es : List (Option K)) (hlen : es.length = data.length) :
    weightedNanmean S data none = weightedMean S (data.filterMap id) none ∧
    ∃ pairs : List (K × Option K), pairs.map (fun p => (some p.1, p.2)) = (data.zip es).filter (fun p => p.1.isSome) ∧
      weightedNanmean S data (some es) = weightedMean S (pairs.map Prod.fst) (some (pairs.map Prod.snd)) := by
  refine ⟨rfl, ((data.zip es).filterMap (fun p => p.1.map (fun x => (x, p.2)))), ?_, ?_⟩
  · clear hpi hlen
    induction data.zip es with
    | nil => rfl
    | cons p l ih =>
      obtain ⟨_ | x, e⟩ := p
      · simpa using ih
      · simpa using ih
  · unfold weightedNanmean unmasked
    simp only
    rw [if_neg (not_not.2 hlen)]
    simp only [bind, Except.bind]
    congr 1
    · clear hpi
      induction data generalizing es with
      | nil => simp
      | cons a l ih =>
        cases es with
        | nil => simp at hlen
        | cons e es =>
          cases a with
          | none => simpa using ih es (by simpa using hlen)
          | some x => simpa using ih es (by simpa using hlen)
    · congr 1
      clear hpi
      induction data generalizing es with
      | nil => simp
      | cons a l ih =>
        cases es with
        | nil => simp at hlen
        | cons e es =>
          cases a with
          | none => simpa using ih es (by simpa using hlen)
          | some x => simpa using ih es (by simpa using hlen)

omit hpi in
/-- **C49** The effective sample size is at least two, and at most the number of points if there are two points or more; it is
the number of points if all weights are the same. -/
theorem C49_sample_size (n : Nat) (w : Option (List K)) (hw : ∀ l, w = some l → l.length = n ∧ ∀ x ∈ l, 0 < x) :
    2 ≤ effectiveSampleSize n w ∧ (2 ≤ n → effectiveSampleSize n w ≤ n ∧ ∀ l c, w = some l → (∀ x ∈ l, x = c) →
      effectiveSampleSize n w = n) := by
  have hbound : ∀ l : List K, l.length = n → (∀ x ∈ l, 0 < x) → 2 ≤ n →
      l.sum ^ 2 / (l.map (fun x => x ^ 2)).sum ≤ n ∧ ∀ c, (∀ x ∈ l, x = c) → l.sum ^ 2 / (l.map (fun x => x ^ 2)).sum = n := by
    intro l hl hpos hn
    have hne : l ≠ [] := by rintro rfl; simp at hl; omega
    have hs : 0 < (l.map (fun x => x ^ 2)).sum := by
      refine sum_pos_of ?_ (by simpa using hne)
      intro x hx
      obtain ⟨y, hy, rfl⟩ := List.mem_map.1 hx
      have := hpos y hy
      positivity
    refine ⟨?_, fun c hc => ?_⟩
    · rw [div_le_iff₀ hs, ← hl]
      exact sq_sum_le l
    · have hrep : l = List.replicate n c := List.eq_replicate_iff.2 ⟨hl, hc⟩
      have hc0 : 0 < c := by
        obtain ⟨x, hx⟩ := List.exists_mem_of_ne_nil l hne
        rw [← hc x hx]; exact hpos x hx
      have hn0 : (n : K) ≠ 0 := by exact_mod_cast (by omega : n ≠ 0)
      rw [hrep]
      simp only [List.sum_replicate, List.map_replicate, nsmul_eq_mul]
      field_simp
  unfold effectiveSampleSize
  have h2n : 2 ≤ n → (2 : K) ≤ n := fun h => by exact_mod_cast h
  constructor
  · have hif : ∀ z : K, 2 ≤ if 2 < z then z else 2 := by
      intro z
      split
      · rename_i h; exact h.le
      · exact le_refl _
    exact hif _
  · intro hn
    cases w with
    | none =>
      simp only
      refine ⟨by split <;> [exact le_refl _; exact h2n hn], fun l c h => by cases h⟩
    | some l =>
      obtain ⟨hl, hpos⟩ := hw l rfl
      obtain ⟨b1, b2⟩ := hbound l hl hpos hn
      simp only
      refine ⟨by split <;> [exact b1; exact h2n hn], fun l' c h hc => ?_⟩
      cases h
      rw [b2 c hc]
      split
      · rfl
      · rename_i h2
        exact le_antisymm (h2n hn) (not_lt.1 h2)

omit hpi in
/-- **C49** The factor that makes the variance unbiased is above one and at most two; for equal weights it is `n / (n - 1)`. -/
theorem C49_unbias (n : Nat) (w : Option (List K)) (hw : ∀ l, w = some l → l.length = n ∧ ∀ x ∈ l, 0 < x) :
    1 < unbiasVariance n w ∧ unbiasVariance n w ≤ 2 ∧
    (2 ≤ n → (w = none ∨ ∃ l c, w = some l ∧ ∀ x ∈ l, x = c) → unbiasVariance n w = n / (n - 1)) := by
  obtain ⟨h2, hn⟩ := C49_sample_size n w hw
  unfold unbiasVariance
  simp only
  have hp : 0 < effectiveSampleSize n w - 1 := by linarith
  refine ⟨by rw [lt_div_iff₀ hp]; linarith, by rw [div_le_iff₀ hp]; linarith, fun h hc => ?_⟩
  have : effectiveSampleSize n w = n := by
    rcases hc with rfl | ⟨l, c, hl, hc⟩
    · have hk : (2 : K) ≤ n := by exact_mod_cast h
      unfold effectiveSampleSize
      simp only
      split
      · rfl
      · rename_i h3; exact le_antisymm hk (not_lt.1 h3)
    · exact (hn h).2 l c hl hc
  rw [this]

/-- **C49** The error of the mean (without the correction for small samples): its square is the unbiased mean squared
distance to the weighted mean, to which the error of the weighted mean expected from the errors of the data is added. -/
theorem C49_error (hsq : SqrtSound S.sqrt) (htot : ∀ v, 0 ≤ v → ∃ r, S.sqrt v = some r) (data e : List K)
    (errors : Option (List (Option K))) (h : Usable errors e) (hlen : e.length = data.length) (hne : data ≠ []) :
    ∃ m err, weightedMean S data errors = .ok m ∧ weightedError S data errors false = .ok err ∧ 0 ≤ err ∧
      err ^ 2 = (weigh data e (fun x e => ((x - m) / e) ^ 2) + 1) / weigh data e (fun _ e => 1 / e ^ 2) *
        unbiasVariance data.length (some (e.map (fun x => 1 / x ^ 2))) := by
  obtain ⟨m, hm, hmul, hpos⟩ := C49_weighted_mean hpi data e errors h hlen hne
  have hw := weights_default hpi h
  obtain ⟨w, hav⟩ := weightedMean_eq_ok.1 hm
  rw [hw] at hav
  have e1 : weigh data e (fun _ e => 1 / e ^ 2) = (e.map (fun x => 1 / x ^ 2)).sum := by
    unfold weigh
    rw [show (fun p : K × K => 1 / p.2 ^ 2) = (fun x => 1 / x ^ 2) ∘ Prod.snd from rfl, ← List.map_map, List.map_snd_zip (by omega)]
  have e2 : weigh data e (fun x e => ((x - m) / e) ^ 2) =
      (List.zipWith (· * ·) (data.map (fun x => |x - m| ^ 2)) (e.map (fun x => 1 / x ^ 2))).sum := by
    unfold weigh
    rw [List.zipWith_map, List.zip, List.map_zipWith]
    congr 2
    funext a b
    simp only
    rw [mul_one_div, sq_abs, div_pow]
  rw [e1] at hpos
  have hav2 : npAverage (data.map (fun x => |x - m| ^ 2)) (some (e.map (fun x => 1 / x ^ 2))) =
      .ok (weigh data e (fun x e => ((x - m) / e) ^ 2) / (e.map (fun x => 1 / x ^ 2)).sum, (e.map (fun x => 1 / x ^ 2)).sum) := by
    unfold npAverage
    simp only
    rw [if_neg (by simpa using hlen), if_neg hpos.ne', e2]
  have hvar : 0 ≤ weigh data e (fun x e => ((x - m) / e) ^ 2) := by
    unfold weigh
    refine List.sum_nonneg ?_
    intro x hx
    obtain ⟨p, -, rfl⟩ := List.mem_map.1 hx
    exact sq_nonneg _
  have hun := (C49_unbias data.length (some (e.map (fun x => 1 / x ^ 2))) (by
    intro l hl; cases hl; exact ⟨by simpa using hlen, weights_pos h.2⟩)).1
  obtain ⟨r, hr⟩ := htot ((weigh data e (fun x e => ((x - m) / e) ^ 2) / (e.map (fun x => 1 / x ^ 2)).sum +
    1 / (e.map (fun x => 1 / x ^ 2)).sum) * unbiasVariance data.length (some (e.map (fun x => 1 / x ^ 2)))) (by positivity)
  obtain ⟨hr0, hr2⟩ := hsq _ _ hr
  refine ⟨m, r, hm, ?_, hr0, ?_⟩
  · unfold weightedError
    simp only [hw, hav, bind, Except.bind, hav2, Option.isSome_some, if_true, hr, Option.getD_some]
    rfl
  · rw [hr2, e1, add_div]

/-- **C49** The root mean square is not smaller than the modulus of the mean, and its square is the mean of the squares. -/
theorem C49_rms (hsq : SqrtSound S.sqrt) (data : List K) (errors : Option (List (Option K))) (r m : K)
    (hr : weightedRms S data errors = .ok r) (hm : weightedMean S data errors = .ok m) :
    weightedMean S (data.map (fun x => x ^ 2)) errors = .ok (r ^ 2) ∧ |m| ≤ r := by
  unfold weightedRms at hr
  rw [Except.bind_eq_ok'] at hr
  obtain ⟨a, ha, hr⟩ := hr
  cases hq : S.sqrt a.1 with
  | none => simp only [hq] at hr; cases hr
  | some q =>
    simp only [hq] at hr
    cases hr
    obtain ⟨h0, h2⟩ := hsq _ _ hq
    refine ⟨weightedMean_eq_ok.2 ⟨a.2, by rw [ha, h2]⟩, ?_⟩
    obtain ⟨w, hav⟩ := weightedMean_eq_ok.1 hm
    obtain ⟨l, hl, hlen, hpos, hs, -, h3, -⟩ := npAverage_cases (weightsFromErrors_pos hpi) hav
    obtain ⟨l', hl', -, -, -, -, h4, -⟩ := npAverage_cases (weightsFromErrors_pos hpi) ha
    have : l' = l := by rw [hl, hl']; simp
    subst this
    simp only at h3
    refine abs_le_of_sq_le_sq ?_ h0
    rw [h2]
    refine le_of_mul_le_mul_right ?_ (mul_pos hs hs)
    have cs : (List.zipWith (· * ·) data l').sum ^ 2 ≤ l'.sum * (List.zipWith (· * ·) (data.map (fun x => x ^ 2)) l').sum := by
      have key : ∀ c : K, 2 * c * (List.zipWith (· * ·) data l').sum ≤
          (List.zipWith (· * ·) (data.map (fun x => x ^ 2)) l').sum + c ^ 2 * l'.sum := by
        intro c
        clear * - hlen hpos
        induction data generalizing l' with
        | nil => cases l' with
          | nil => simp
          | cons => simp at hlen
        | cons a d ih => cases l' with
          | nil => simp at hlen
          | cons b l =>
            simp only [List.map_cons, List.zipWith_cons_cons, List.sum_cons]
            have hb := hpos b (by simp)
            have := ih l (by simpa using hlen) (fun x hx => hpos x (by simp [hx]))
            nlinarith [mul_nonneg hb.le (sq_nonneg (a - c))]
      have := key ((List.zipWith (· * ·) data l').sum / l'.sum)
      rw [div_pow] at this
      field_simp at this
      nlinarith
    calc m ^ 2 * (l'.sum * l'.sum) = (m * l'.sum) ^ 2 := by ring
      _ ≤ l'.sum * (a.1 * l'.sum) := by rw [h3, h4]; exact cs
      _ = a.1 * (l'.sum * l'.sum) := by ring

end
/-! ### Examples -/

def Example.stats : StatsEnv ℚ where
  sqrt := Example.qsqrt
  pi2 := 44/7
  tppf := fun x => 1 + 1 / x

/-- means with and without usable errors, the error and the root mean square -/
example : weightedMean Example.stats [1, 2, 4] (some [some 1, some (-1/2), some 1]) = .ok (13/6) ∧
    weightedMean Example.stats [1, 2, 4] (some [some 1, some 0, some 1]) = .ok (7/3) ∧
    weightedMean Example.stats [1, 2, 4] (some [some 1, some 0]) = .ok (7/3) ∧
    weightedNanmean Example.stats [some 1, none, some 2] (some [some 1, none, some (1/2)]) = .ok (9/5) ∧
    weightedNanmean Example.stats [some 1, none, some 2] none = .ok (3/2) ∧
    weightedRms Example.stats [1, 7] (some [some 2, some 2]) = .ok 5 ∧
    weightedError Example.stats [1, 1, 1, 3] none false = .ok 1 ∧
    weightedError Example.stats [1, 1, 1, 3] (some [some 3, some 3, some 3, some 3]) false = .ok 2 ∧
    weightedError Example.stats [1, 1, 1, 3] (some [some 3, some 3, some 3, some 3]) true = .ok (8/3) := by decide +kernel

example : Usable (some [some (1 : ℚ), some (-1/2), some 1]) [1, -1/2, 1] ∧ Unusable (some [some (1 : ℚ), some 0]) ∧
    Example.stats.pi2 ≠ 0 ∧ SqrtSound Example.stats.sqrt := by
  refine ⟨⟨rfl, by decide +kernel⟩, ?_, by decide +kernel, Example.qsqrt_sound⟩
  intro es h; cases h; right; decide +kernel

/-- the statistics of real numbers -/
noncomputable def realStats (tppf : ℝ → ℝ) : StatsEnv ℝ where
  sqrt := fun v => if 0 ≤ v then some (Real.sqrt v) else none
  pi2 := 2 * Real.pi
  tppf := tppf

theorem realStats_pi (f : ℝ → ℝ) : (realStats f).pi2 ≠ 0 := by
  simp [realStats, Real.pi_ne_zero]

theorem realStats_sound (f : ℝ → ℝ) : SqrtSound (realStats f).sqrt := by
  intro v r h
  simp only [realStats] at h
  split at h
  · rename_i h0
    cases h
    exact ⟨Real.sqrt_nonneg v, Real.sq_sqrt h0⟩
  · cases h

theorem realStats_total (f : ℝ → ℝ) : ∀ v, 0 ≤ v → ∃ r, (realStats f).sqrt v = some r :=
  fun v hv => ⟨Real.sqrt v, by simp [realStats, hv]⟩

/-- the hypotheses of `C49_error` for real numbers -/
example : ∃ m err, weightedMean (realStats id) [1, 3] (some [some 1, some 1]) = .ok m ∧
    weightedError (realStats id) [1, 3] (some [some 1, some 1]) false = .ok err ∧ 0 ≤ err := by
  obtain ⟨m, err, h1, h2, h3, -⟩ := C49_error (realStats_pi id) (realStats_sound id) (realStats_total id) [1, 3] [1, 1] _
    ⟨rfl, by simp⟩ rfl (by simp)
  exact ⟨m, err, h1, h2, h3⟩

end PySC
