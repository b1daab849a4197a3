import Verif.Spec.Apertures
import Mathlib.Algebra.Order.Archimedean.Basic
import Mathlib.Algebra.Order.Field.Basic
import Mathlib.Tactic.Linarith
import Mathlib.Tactic.Ring
import Mathlib.Tactic.FieldSimp
/-
C55 (dynamic and momentum aperture).
-/
set_option linter.unusedSectionVars false
namespace PySC
open Spec
variable {K : Type} [Field K] [LinearOrder K] [IsStrictOrderedRing K]

theorem mean2_mem (l : K × K) : min l.1 l.2 ≤ mean2 l ∧ mean2 l ≤ max l.1 l.2 := by
  unfold mean2
  constructor
  · rw [le_div_iff₀ (by norm_num)]
    have h1 := min_le_left l.1 l.2; have h2 := min_le_right l.1 l.2
    linarith
  · rw [div_le_iff₀ (by norm_num)]
    have h1 := le_max_left l.1 l.2; have h2 := le_max_right l.1 l.2
    linarith

theorem mean2_sub (l : K × K) : |l.2 - mean2 l| = |l.2 - l.1| / 2 ∧ |mean2 l - l.1| = |l.2 - l.1| / 2 := by
  have h2 : |(2 : K)| = 2 := abs_of_pos (by norm_num)
  constructor
  · rw [show |l.2 - l.1| / 2 = |(l.2 - l.1) / 2| by rw [abs_div, h2]]; congr 1; unfold mean2; ring
  · rw [show |l.2 - l.1| / 2 = |(l.2 - l.1) / 2| by rw [abs_div, h2]]; congr 1; unfold mean2; ring

/-- **C55**: each step of the bisection halves the interval, keeps it within the former one, and keeps a lower end which survives and
an upper end which does not. -/
theorem C55_halves (alive : K → Bool) (l : K × K) : ∃ l', refineBounds (answering alive) l = .ok l' ∧ extent l' = extent l / 2 ∧ PartOf l' l ∧
    (Brackets alive l → Brackets alive l') := by
  obtain ⟨h1, h2⟩ := mean2_mem l
  obtain ⟨h3, h4⟩ := mean2_sub l
  unfold refineBounds answering
  cases ha : alive (mean2 l) with
  | true =>
    refine ⟨(mean2 l, l.2), rfl, h3, ⟨?_, ?_⟩, fun hb => ⟨ha, hb.2⟩⟩
    · exact le_min h1 (min_le_right _ _)
    · exact max_le h2 (le_max_right _ _)
  | false =>
    refine ⟨(l.1, mean2 l), rfl, h4, ⟨?_, ?_⟩, fun hb => ⟨hb.1, ha⟩⟩
    · exact le_min (min_le_left _ _) h1
    · exact max_le (le_max_left _ _) h2

/-- **C55**: when the bisection ends, the interval is not longer than the accuracy and lies within the start interval, and it still has a
lower end which survives and an upper end which does not. -/
theorem C55_result (alive : K → Bool) (accuracy : K) (fuel : Nat) (l l' : K × K) (h : refineLoop (answering alive) accuracy fuel l = .ok l') :
    extent l' ≤ accuracy ∧ PartOf l' l ∧ (Brackets alive l → Brackets alive l') := by
  induction fuel generalizing l with
  | zero =>
    unfold refineLoop at h
    by_cases hw : accuracy < |l.2 - l.1|
    · rw [if_pos hw] at h; cases h
    · rw [if_neg hw] at h; cases h
      exact ⟨not_lt.1 hw, ⟨le_rfl, le_rfl⟩, id⟩
  | succ fuel ih =>
    unfold refineLoop at h
    by_cases hw : accuracy < |l.2 - l.1|
    · rw [if_pos hw] at h
      obtain ⟨l1, h1, h2, h3, h4⟩ := C55_halves alive l
      rw [h1] at h
      obtain ⟨k1, k2, k3⟩ := ih l1 h
      exact ⟨k1, ⟨h3.1.trans k2.1, k2.2.trans h3.2⟩, fun hb => k3 (h4 hb)⟩
    · rw [if_neg hw] at h; cases h
      exact ⟨not_lt.1 hw, ⟨le_rfl, le_rfl⟩, id⟩

/-- enough steps -/
theorem refineLoop_enough (alive : K → Bool) {accuracy : K} {n : Nat} {l : K × K} (hn : extent l ≤ accuracy * 2 ^ n) :
    ∃ l', ∀ fuel, n ≤ fuel → refineLoop (answering alive) accuracy fuel l = .ok l' := by
  induction n generalizing l with
  | zero =>
    have hw : ¬ accuracy < |l.2 - l.1| := by
      unfold extent at hn
      rw [pow_zero, mul_one] at hn
      exact not_lt.2 hn
    refine ⟨l, fun fuel _ => ?_⟩
    cases fuel <;> · unfold refineLoop; rw [if_neg hw]
  | succ n ih =>
    obtain ⟨l1, h1, h2, -, -⟩ := C55_halves alive l
    have : extent l1 ≤ accuracy * 2 ^ n := by
      rw [h2, div_le_iff₀ (by norm_num)]
      calc extent l ≤ _ := hn
        _ = _ := by rw [pow_succ]; ring
    obtain ⟨l', hl'⟩ := ih this
    by_cases hw : accuracy < |l.2 - l.1|
    · refine ⟨l', fun fuel hf => ?_⟩
      obtain ⟨f, rfl⟩ : ∃ f, fuel = f + 1 := ⟨fuel - 1, by omega⟩
      unfold refineLoop
      rw [if_pos hw, h1]
      exact hl' f (by omega)
    · refine ⟨l, fun fuel _ => ?_⟩
      cases fuel <;> · unfold refineLoop; rw [if_neg hw]

/-- **C55**: the bisection ends for every start interval, every positive accuracy and whatever survives, after a number of
steps which only depends on the length of the interval and the accuracy. -/
theorem C55_terminates [Archimedean K] (accuracy : K) (ha : 0 < accuracy) (w : K) : ∃ n, ∀ (alive : K → Bool) (l : K × K), extent l ≤ w →
    ∃ l', ∀ fuel, n ≤ fuel → refineLoop (answering alive) accuracy fuel l = .ok l' := by
  obtain ⟨n, hn⟩ := pow_unbounded_of_one_lt (w / accuracy) (one_lt_two : (1 : K) < 2)
  refine ⟨n, fun alive l hl => refineLoop_enough alive ?_⟩
  rw [div_lt_iff₀ ha] at hn
  rw [mul_comm]
  exact hl.trans hn.le

/-- **C55**: with a negative accuracy it never ends; with accuracy zero only if the bounds are equal. -/
theorem C55_diverges (alive : K → Bool) (accuracy : K) (l : K × K) (h : accuracy < 0 ∨ accuracy = 0 ∧ l.1 ≠ l.2) (fuel : Nat) :
    refineLoop (answering alive) accuracy fuel l = .error .outOfFuel := by
  have hw : ∀ l : K × K, (accuracy < 0 ∨ accuracy = 0 ∧ l.1 ≠ l.2) → accuracy < |l.2 - l.1| := by
    rintro l (h | ⟨h0, h⟩)
    · exact lt_of_lt_of_le h (abs_nonneg _)
    · rw [h0]; exact abs_pos.2 (sub_ne_zero.2 (Ne.symm h))
  induction fuel generalizing l with
  | zero => unfold refineLoop; rw [if_pos (hw l h)]
  | succ fuel ih =>
    unfold refineLoop
    rw [if_pos (hw l h)]
    obtain ⟨l1, h1, h2, -, -⟩ := C55_halves alive l
    rw [h1]
    refine ih l1 ?_
    rcases h with h | ⟨h, hl⟩
    · exact Or.inl h
    · refine Or.inr ⟨h, fun he => ?_⟩
      unfold extent at h2
      rw [he, sub_self, abs_zero] at h2
      have : 0 < |l.2 - l.1| := abs_pos.2 (sub_ne_zero.2 hl.symm)
      linarith

/-- **C55**: bounds are sorted by their absolute value. -/
theorem C55_sorted (l : K × K) : (sortBounds l = l ∨ sortBounds l = (l.2, l.1)) ∧ |(sortBounds l).1| ≤ |(sortBounds l).2| := by
  unfold sortBounds
  by_cases h : |l.1| ≤ |l.2|
  · rw [if_pos h]; exact ⟨Or.inl rfl, h⟩
  · rw [if_neg h]; exact ⟨Or.inr rfl, (not_le.1 h).le⟩

/-- **C55**: bounds on the positive side stay there when scaled, and the new interval contains the former one. -/
theorem C55_widens (alpha : K) (ha : 1 ≤ alpha) (l : K × K) (h0 : 0 ≤ l.1) (h1 : l.1 ≤ l.2) :
    0 ≤ (scaleBounds alpha l).1 ∧ (scaleBounds alpha l).1 ≤ l.1 ∧ l.2 ≤ (scaleBounds alpha l).2 ∧
    (l.1 < l.2 → (scaleBounds alpha l).2 = l.2 + (alpha - 1) * (l.2 - l.1) / 2) := by
  have e1 : mean2 l - (mean2 l - l.1) * alpha = l.1 - (alpha - 1) * (l.2 - l.1) / 2 := by unfold mean2; ring
  have e2 : mean2 l - (mean2 l - l.2) * alpha = l.2 + (alpha - 1) * (l.2 - l.1) / 2 := by unfold mean2; ring
  have hp : 0 ≤ (alpha - 1) * (l.2 - l.1) / 2 := by
    have := mul_nonneg (sub_nonneg.2 ha) (sub_nonneg.2 h1)
    linarith
  unfold scaleBounds
  simp only [e1, e2]
  refine ⟨?_, ?_, ?_, ?_⟩
  · by_cases hs : SignType.sign (l.1 - (alpha - 1) * (l.2 - l.1) / 2) ≠ SignType.sign l.1
    · rw [if_pos hs]
    · rw [if_neg hs]
      rcases h0.eq_or_lt with h | h
      · rw [not_not, ← h, sign_zero, sign_eq_zero_iff] at hs
        rw [← h, hs]
      · rw [not_not, sign_pos h, sign_eq_one_iff] at hs
        exact hs.le
  · by_cases hs : SignType.sign (l.1 - (alpha - 1) * (l.2 - l.1) / 2) ≠ SignType.sign l.1
    · rw [if_pos hs]; exact h0
    · rw [if_neg hs]; linarith
  · by_cases hs : SignType.sign (l.2 + (alpha - 1) * (l.2 - l.1) / 2) ≠ SignType.sign l.2
    · exfalso
      apply hs
      rcases (h0.trans h1).eq_or_lt with h | h
      · have h3 : l.1 = 0 := le_antisymm (h ▸ h1) h0
        rw [← h, h3]; simp
      · rw [sign_pos h, sign_pos (by linarith)]
    · rw [if_neg hs]; linarith
  · intro hl
    have h : 0 < l.2 := lt_of_le_of_lt h0 hl
    rw [if_neg]
    rw [not_not, sign_pos h, sign_pos (by linarith)]

/-- the search never accepts a start interval -/
theorem checkShared_false (alive : K → Bool) (l : K × K) : checkShared (answering alive) l = .ok false := by
  unfold checkShared answering
  show Except.ok (alive l.2 && !alive l.2) = _
  simp

/-- **C55** (the start interval): even if the result of tracking were read out correctly, no interval would ever be accepted, as both
particles start at the same point.  The bounds are always scaled sixteen times. -/
theorem C55_always_scaled (alive : K → Bool) (n : Nat) (l : K × K) :
    scaleLoop (checkShared (answering alive)) n l = .ok ((scaleBounds 10)^[n] l) := by
  induction n generalizing l with
  | zero => rfl
  | succ n ih =>
    unfold scaleLoop
    rw [checkShared_false, Function.iterate_succ_apply]
    exact ih _

theorem scaled_bounds (n : Nat) (l : K × K) (h0 : 0 ≤ l.1) (h1 : l.1 ≤ l.2) :
    0 ≤ ((scaleBounds 10)^[n] l).1 ∧ ((scaleBounds 10)^[n] l).1 ≤ l.1 ∧ l.2 ≤ ((scaleBounds 10)^[n] l).2 := by
  induction n generalizing l with
  | zero => exact ⟨h0, le_rfl, le_rfl⟩
  | succ n ih =>
    rw [Function.iterate_succ_apply]
    obtain ⟨a, b, c, -⟩ := C55_widens (10 : K) (by norm_num) l h0 h1
    obtain ⟨a', b', c'⟩ := ih (scaleBounds 10 l) a (b.trans (h1.trans c))
    exact ⟨a', b'.trans b, c.trans c'⟩

/-- **C55**: if the result of tracking were read out correctly and the particles which survive were those started within the radius `R`, the
result would be off by at most half the accuracy, for all bounds on the positive side around `R` and every positive accuracy. -/
theorem C55_radius_partial [Archimedean K] (alive : K → Bool) (R accuracy : K) (ha : 0 < accuracy) (bounds : K × K) (h0 : 0 ≤ bounds.1)
    (h1 : bounds.1 < R) (h2 : R ≤ bounds.2) (hR : ∀ r, 0 ≤ r → (alive r = true ↔ r < R)) :
    ∃ n r, (∀ fuel, n ≤ fuel → apertureRadius (checkShared (answering alive)) (answering alive) accuracy fuel bounds = .ok r) ∧
      |r - R| ≤ accuracy / 2 := by
  obtain ⟨a, b, c⟩ := scaled_bounds 16 bounds h0 (h1.le.trans h2)
  obtain ⟨n, hn⟩ := C55_terminates accuracy ha (extent ((scaleBounds 10)^[16] bounds))
  obtain ⟨l', hl'⟩ := hn alive ((scaleBounds 10)^[16] bounds) le_rfl
  refine ⟨n, mean2 l', fun fuel hf => ?_, ?_⟩
  · unfold apertureRadius
    rw [C55_always_scaled]
    show (refineLoop (answering alive) accuracy fuel ((scaleBounds 10)^[16] bounds) >>= fun l => Except.ok (mean2 l)) = _
    rw [hl' fuel hf]; rfl
  · obtain ⟨k1, k2, k3⟩ := C55_result alive accuracy n _ _ (hl' n le_rfl)
    have hb : Brackets alive ((scaleBounds 10)^[16] bounds) := by
      refine ⟨(hR _ a).2 (lt_of_le_of_lt b h1), ?_⟩
      rw [Bool.eq_false_iff]
      intro hh
      have := (hR _ (h0.trans (h1.le.trans (h2.trans c)))).1 hh
      exact absurd (h2.trans c) (not_le.2 this)
    obtain ⟨m1, m2⟩ := k3 hb
    have hpos : 0 ≤ min l'.1 l'.2 := by
      refine le_trans ?_ k2.1
      exact le_min a (h0.trans (h1.le.trans (h2.trans c)))
    have p1 : l'.1 < R := (hR _ (hpos.trans (min_le_left _ _))).1 m1
    have p2 : R ≤ l'.2 := by
      by_contra hh
      rw [(hR _ (hpos.trans (min_le_right _ _))).2 (not_le.1 hh)] at m2
      cases m2
    unfold extent at k1
    rw [abs_of_nonneg (by linarith)] at k1
    unfold mean2
    rw [abs_le]
    constructor <;> linarith

/-- e.g. 1/3 with an accuracy of 1/1000 -/
example : apertureRadius (checkShared (answering (fun r : ℚ => decide (r < 1/3)))) (answering (fun r => decide (r < 1/3))) (1/1000) 100
    ((1/10, 1) : ℚ × ℚ) = .ok (98303181170858514983 / 295147905179352825856) := by decide +kernel
example : ∀ r : ℚ, 0 ≤ r → (decide (r < 1/3) = true ↔ r < 1/3) := by simp
example : Brackets (fun r : ℚ => decide (r < 1/3)) (1/10, 1) := by constructor <;> decide +kernel
example : refineLoop (answering (fun r : ℚ => decide (r < 1/3))) (1/10) 5 (1/10, 1) = .ok (13/40, 61/160) := by decide +kernel
example : scaleBounds (10 : ℚ) (1, 2) = (0, 13/2) := by decide +kernel
example : scaleBounds (10 : ℚ) (-1, -2) = (0, -13/2) := by decide +kernel

/-- **C55** is violated: as it is, the function raises IndexError for every lattice (whatever tracking gives for one or two particles), all
bounds, accuracies and non-empty lists of angles. -/
theorem C55_violated (out2 out1 : K → K → List (Option K)) (h2 : ∀ t r, (out2 t r).length = 2) (accuracy : K) (fuel : Nat)
    (bounds : K × K) (theta : K) (thetas : List K) :
    apertureRadii (fun t => checkRead (out2 t)) (fun t => aliveRead (out1 t)) accuracy fuel bounds (theta :: thetas) = .error .indexError := by
  have hc : ∀ t l, checkRead (out2 t) l = .error .indexError := by
    intro t l
    unfold checkRead
    have : ((out2 t l.2).drop 5) = [] := by rw [List.drop_eq_nil_iff, h2]; norm_num
    simp [this]
  unfold apertureRadii
  rw [List.mapM_cons]
  have : apertureRadius (checkRead (out2 theta)) (aliveRead (out1 theta)) accuracy fuel (sortBounds bounds) = .error .indexError := by
    unfold apertureRadius scaleLoop
    rw [hc]; rfl
  rw [this]; rfl

/-- **C55** is violated: the same holds for the step of the bisection. -/
theorem C55_violated_refine (out1 : K → List (Option K)) (h1 : ∀ r, (out1 r).length = 1) (l : K × K) :
    refineBounds (aliveRead out1) l = .error .indexError := by
  unfold refineBounds aliveRead
  rw [List.getElem?_eq_none (by rw [h1]; norm_num)]
  rfl

/-- **C55** (area): the area is the one of the polygon through the points at the given angles and radii, and the origin. -/
theorem C55_area (l : List (ℝ × ℝ)) : apertureArea l = polygonArea l := by
  unfold polygonArea
  induction l with
  | nil => simp [apertureArea]
  | cons p l ih =>
    cases l with
    | nil => simp [apertureArea]
    | cons q l =>
      obtain ⟨r0, t0⟩ := p
      obtain ⟨r1, t1⟩ := q
      unfold apertureArea
      rw [ih]
      simp only [List.tail_cons, List.zip_cons_cons, List.map_cons, List.sum_cons, cross]
      rw [Real.sin_sub]
      ring

/-- **C55** (momentum aperture) is violated: the middle of the interval is added to the closed orbit of the former step, so another momentum
than the middle is tested.  Particles up to 3 % survive; the interval from 1 % to 4 % ends with an upper end which survives.  (With
pyAT this part of the code is not reached, as `findorbit6` returns a tuple, which has no method `flatten`.) -/
theorem C55_violated_momentum : ∃ (alive : ℚ → Bool) (l l' : ℚ × ℚ), Brackets alive l ∧ momentumLoop alive (1/10) 10 (l, 0) = .ok l' ∧
    ¬ Brackets alive l' := by
  refine ⟨fun z => decide (z ≤ 3/100), (1/100, 4/100), (1/40, 43/1600), ?_, by decide +kernel, ?_⟩
  · constructor <;> decide +kernel
  · rintro ⟨-, h⟩
    exact absurd h (by decide +kernel)

/-- **C55** (momentum aperture): incrementing moves the end closer to the nominal momentum towards it and the other one away from it. -/
theorem C55_increments (step : K) (l : K × K) :
    (incrementBounds step l).1 = (if l.1 < 0 then l.1 + step else l.1 - step) ∧
    (incrementBounds step l).2 = (if l.2 < 0 then l.2 - step else l.2 + step) := by
  unfold incrementBounds mySign
  constructor
  · by_cases h : l.1 < 0
    · simp only [if_pos h]; ring
    · simp only [if_neg h]; ring
  · by_cases h : l.2 < 0
    · simp only [if_pos h]; ring
    · simp only [if_neg h]; ring

/-- **C55** (momentum aperture): the interval is halved in each round, and when the loop ends its length relative to its larger end is not more
than the accuracy. -/
theorem C55_momentum_accuracy_partial [IsStrictOrderedRing K] (alive : K → Bool) (accuracy : K) (fuel : Nat) (x : (K × K) × K) (l : K × K)
    (h : momentumLoop alive accuracy fuel x = .ok l) :
    max l.1 l.2 ≠ 0 ∧ |(l.2 - l.1) / max l.1 l.2| ≤ accuracy ∧ ∃ n ≤ fuel, l.2 - l.1 = (x.1.2 - x.1.1) / 2 ^ n := by
  induction fuel generalizing x with
  | zero =>
    unfold momentumLoop at h
    by_cases h0 : max x.1.1 x.1.2 = 0
    · rw [if_pos h0] at h; cases h
    rw [if_neg h0] at h
    by_cases h1 : accuracy < |(x.1.2 - x.1.1) / max x.1.1 x.1.2|
    · rw [if_pos h1] at h; cases h
    rw [if_neg h1] at h
    cases h
    exact ⟨h0, not_lt.1 h1, 0, le_refl _, by simp⟩
  | succ fuel ih =>
    unfold momentumLoop at h
    by_cases h0 : max x.1.1 x.1.2 = 0
    · rw [if_pos h0] at h; cases h
    rw [if_neg h0] at h
    by_cases h1 : accuracy < |(x.1.2 - x.1.1) / max x.1.1 x.1.2|
    · rw [if_pos h1] at h
      obtain ⟨a, b, n, hn, c⟩ := ih _ h
      refine ⟨a, b, n + 1, by omega, ?_⟩
      rw [c, pow_succ]
      have half : (refineMomentum alive x).1.2 - (refineMomentum alive x).1.1 = (x.1.2 - x.1.1) / 2 := by
        unfold refineMomentum mean2
        simp only
        split <;> ring
      rw [half, div_div, mul_comm]
    · rw [if_neg h1] at h
      cases h
      exact ⟨h0, not_lt.1 h1, 0, by omega, by simp⟩

example : momentumLoop (fun z : ℚ => decide (z ≤ 3/100)) (1/10) 10 ((1/100, 4/100), 0) = .ok (1/40, 43/1600) := by decide +kernel
example : momentumLoop (fun z : ℚ => decide (-3/100 ≤ z)) (1/10) 10 ((-1/100, -4/100), 0) ≠ .error .nonFinite := by decide +kernel

end PySC
