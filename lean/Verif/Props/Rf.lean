import Verif.Lemmas.Rf
import Verif.Props.Orbit
/-
C44 RF phase folding.  C45 RF corrections.  C69 Phase and energy error.
-/
set_option linter.unusedSectionVars false
namespace PySC
open Py Spec
variable {K : Type} [Field K] [LinearOrder K] [FloorRing K]

/-! ### C44 -/
section
variable [IsStrictOrderedRing K]

/-- **C44** A phase is mapped into `(-lam/2, lam/2]` and changed by a whole number of periods. -/
theorem C44_folding (x lam : K) (hl : 0 < lam) :
    ∃ y, foldPhase x lam = .ok y ∧ -(lam / 2) < y ∧ y ≤ lam / 2 ∧ SamePhase lam x y := by
  obtain ⟨y, hy⟩ := foldPhase_ok (x := x) hl.ne'
  exact ⟨y, hy, foldPhase_range hl hy⟩

/-- **C44** The result is determined by this; in particular folding again changes nothing. -/
theorem C44_unique (x y lam : K) (hl : 0 < lam) (hy : -(lam / 2) < y ∧ y ≤ lam / 2) (h : SamePhase lam x y) :
    foldPhase x lam = .ok y := by
  obtain ⟨z, hz⟩ := foldPhase_ok (x := x) hl.ne'
  obtain ⟨h1, h2, k, hk⟩ := foldPhase_range hl hz
  obtain ⟨j, hj⟩ := h
  rw [hz, SamePhase.eq hl ⟨j - k, by push_cast; linear_combination hj - hk⟩ ⟨h1, h2⟩ hy]

theorem C44_idempotent (x y lam : K) (hl : 0 < lam) (h : foldPhase x lam = .ok y) : foldPhase y lam = .ok y := by
  obtain ⟨h1, h2, -⟩ := foldPhase_range hl h
  exact C44_unique y y lam hl ⟨h1, h2⟩ ⟨0, by simp⟩
end

example : foldPhase (17 / 5 : ℚ) 2 = .ok (-3 / 5) ∧ foldPhase (-1 : ℚ) 2 = .ok 1 := by decide +kernel

/-! ### C45 -/

theorem checkRfInputs_eq_ok {s : SC K} {cavs bpms : Option (List Nat)} {n : Nat} {p : List Nat × List Nat}
    (h : checkRfInputs s cavs bpms n = .ok p) : p = (cavs.getD s.ORD.RF, bpms.getD s.ORD.BPM) ∧ 6 ≤ n := by
  unfold checkRfInputs at h
  simp only at h
  split at h
  · cases h
  split at h
  · cases h
  split at h
  · cases h
  rename_i h1 h2 h3
  rw [Except.bind_eq_ok'] at h
  obtain ⟨_, -, h⟩ := h
  cases h
  exact ⟨rfl, by omega⟩

theorem checkData_eq_ok {vals : List K} {meas : List (Option (K × K))} {m : Nat} {pts : List (Pt K)}
    (h : checkData vals meas m = .ok pts) : pts = scanData vals meas ∧ m ≤ pts.length := by
  unfold checkData at h
  simp only at h
  split at h
  · cases h
  · cases h
    exact ⟨rfl, by omega⟩

theorem weights_eq_ok {pts ptw : List (Pt K)} (h : pts.mapM (fun p => do
    let w ← divE 1 p.w
    .ok (⟨p.x, p.y, w⟩ : Pt K)) = .ok ptw) : ptw = pts.map (fun p => ⟨p.x, p.y, 1 / p.w⟩) := by
  obtain ⟨hl, hm⟩ := mapM_except_eq_ok h
  refine List.ext_getElem? (fun k => ?_)
  by_cases hk : k < pts.length
  · obtain ⟨y, hy, hyk⟩ := hm k pts[k] (by simp [hk])
    rw [hyk]
    simp only [Except.bind_eq_ok', divE_eq_ok, Except.ok.injEq] at hy
    obtain ⟨w, ⟨-, rfl⟩, rfl⟩ := hy
    simp [hk]
  · rw [List.getElem?_eq_none (by omega), List.getElem?_eq_none (by simp; omega)]

section
variable [IsStrictOrderedRing K]

/-- **C45** When `correct_rf_frequency` returns, the frequency set-point of each cavity differs from the one before the call
by the same shift, and nothing else has changed.  This shift is the zero of the best straight line through the slopes which
were measured at the scanned frequencies, or zero. -/
theorem C45_frequency (E : Env K) (B : BeamEnv K) (cavs bpms : Option (List Nat)) (n : Nat) (range : K × K) (s s' : SC K)
    (hc : ∀ i ∈ cavs.getD s.ORD.RF, CavityReady s.RING i)
    (h : correctRfFrequency E B cavs bpms n range s = .ok () s') :
    ∃ d meas, Shifted (cavs.getD s.ORD.RF) "Frequency" d s s' ∧
      List.Forall₂ (MeasuredAt E B (cavs.getD s.ORD.RF) (bpms.getD s.ORD.BPM) "Frequency" s) (scanValues range.1 range.2 n) meas ∧
      3 ≤ (scanData (scanValues range.1 range.2 n) meas).length ∧
      (d = 0 ∨ ∃ p q, BestLine ((scanData (scanValues range.1 range.2 n) meas).map (fun t => ⟨t.x, t.y, 1 / t.w⟩)) p q ∧
        p ≠ 0 ∧ p * d + q = 0) := by
  unfold correctRfFrequency at h
  rw [bind_eq_ok] at h; obtain ⟨t, _, ht, h⟩ := h; cases ht
  rw [bindLift_eq_ok] at h; obtain ⟨p, hp, h⟩ := h
  obtain ⟨rfl, hn⟩ := checkRfInputs_eq_ok hp
  simp only at h
  rw [linspace_eq _ _ _ (by omega)] at h
  rcases scan_cases E B (bpms.getD s.ORD.BPM) (field := "Frequency") (scanValues range.1 range.2 n) (by simp)
    (Shifted.refl (cavs.getD s.ORD.RF) "Frequency" s) hc with ⟨meas, s1, h1, hs1, hr1, hm⟩ | ⟨e, s1, h1, -⟩
  · rw [bind_apply, h1] at h
    simp only at h
    rw [bindLift_eq_ok] at h; obtain ⟨pts, hpts, h⟩ := h
    obtain ⟨rfl, h3⟩ := checkData_eq_ok hpts
    rw [bindLift_eq_ok] at h; obtain ⟨ptw, hptw, h⟩ := h
    have hw := weights_eq_ok hptw
    rw [bindLift_eq_ok] at h; obtain ⟨f, hfit, h⟩ := h
    rw [bindLift_eq_ok] at h; obtain ⟨d, hd, h⟩ := h
    obtain ⟨hs, -⟩ := setCavity_shifted (by simp) h hr1
    refine ⟨d, meas, by simpa using hs1.trans hs, hm, h3, ?_⟩
    unfold frequencyStep at hd
    split at hd
    · cases hd; exact Or.inl rfl
    · rw [divE_eq_ok] at hd
      obtain ⟨hne, rfl⟩ := hd
      refine Or.inr ⟨f.slope, f.intercept, ?_, hne, ?_⟩
      · rw [← hw]; exact lineFit_best hfit
      · field_simp; ring
  · rw [bind_apply, h1] at h
    cases h

/-- **C45** If the measured slopes depend linearly on the frequency, the cavities are shifted to the frequency where the
slope vanishes, unless the measurement is found to be too imprecise, in which case they are not shifted. -/
theorem C45_frequency_exact (E : Env K) (B : BeamEnv K) (cavs bpms : Option (List Nat)) (n : Nat) (range : K × K) (s s' : SC K)
    (hc : ∀ i ∈ cavs.getD s.ORD.RF, CavityReady s.RING i)
    (h : correctRfFrequency E B cavs bpms n range s = .ok () s') (a x0 : K) (ha : a ≠ 0)
    (hlin : ∀ v ∈ scanValues range.1 range.2 n, ∀ m e,
      MeasuredAt E B (cavs.getD s.ORD.RF) (bpms.getD s.ORD.BPM) "Frequency" s v (some (m, e)) → m = a * (v - x0)) :
    Shifted (cavs.getD s.ORD.RF) "Frequency" x0 s s' ∨ Shifted (cavs.getD s.ORD.RF) "Frequency" 0 s s' := by
  unfold correctRfFrequency at h
  rw [bind_eq_ok] at h; obtain ⟨t, _, ht, h⟩ := h; cases ht
  rw [bindLift_eq_ok] at h; obtain ⟨p, hp, h⟩ := h
  obtain ⟨rfl, hn⟩ := checkRfInputs_eq_ok hp
  simp only at h
  rw [linspace_eq _ _ _ (by omega)] at h
  rcases scan_cases E B (bpms.getD s.ORD.BPM) (field := "Frequency") (scanValues range.1 range.2 n) (by simp)
    (Shifted.refl (cavs.getD s.ORD.RF) "Frequency" s) hc with ⟨meas, s1, h1, hs1, hr1, hm⟩ | ⟨e, s1, h1, -⟩
  · rw [bind_apply, h1] at h
    simp only at h
    rw [bindLift_eq_ok] at h; obtain ⟨pts, hpts, h⟩ := h
    obtain ⟨rfl, h3⟩ := checkData_eq_ok hpts
    rw [bindLift_eq_ok] at h; obtain ⟨ptw, hptw, h⟩ := h
    have hw := weights_eq_ok hptw
    rw [bindLift_eq_ok] at h; obtain ⟨f, hfit, h⟩ := h
    rw [bindLift_eq_ok] at h; obtain ⟨d, hd, h⟩ := h
    obtain ⟨hs, -⟩ := setCavity_shifted (by simp) h hr1
    have hs' : Shifted (cavs.getD s.ORD.RF) "Frequency" d s s' := by simpa using hs1.trans hs
    have hexact : f.slope = a ∧ f.intercept = -(a * x0) := by
      refine lineFit_exact hfit (fun t ht => ?_)
      rw [hw] at ht
      obtain ⟨t0, ht0, rfl⟩ := List.mem_map.1 ht
      obtain ⟨q, hq, hqt⟩ := List.mem_filterMap.1 ht0
      obtain ⟨v, mm⟩ := q
      cases mm with
      | none => simp at hqt
      | some me =>
        simp only [Option.map_some, Option.some.injEq] at hqt
        subst hqt
        have hv := (List.of_mem_zip hq).1
        have : MeasuredAt E B (cavs.getD s.ORD.RF) (bpms.getD s.ORD.BPM) "Frequency" s v (some me) :=
          (List.forall₂_iff_zip.1 hm).2 hq
        simp only
        rw [hlin v hv me.1 me.2 this]; ring
    unfold frequencyStep at hd
    split at hd
    · cases hd; exact Or.inr hs'
    · rw [divE_eq_ok] at hd
      obtain ⟨hne, rfl⟩ := hd
      left
      rw [hexact.1, hexact.2] at hs'
      have : - -(a * x0) / a = x0 := by field_simp
      rwa [this] at hs'
  · rw [bind_apply, h1] at h
    cases h

/-- **C45** If `correct_rf_frequency` raises, the set-points are as before the call, unless a measurement failed: then the
cavities are left at the shift of this measurement. -/
theorem C45_frequency_failure (E : Env K) (B : BeamEnv K) (cavs bpms : Option (List Nat)) (n : Nat) (range : K × K) (s s' : SC K)
    (e : Err) (hc : ∀ i ∈ cavs.getD s.ORD.RF, CavityReady s.RING i)
    (h : correctRfFrequency E B cavs bpms n range s = .error e s') :
    Shifted (cavs.getD s.ORD.RF) "Frequency" 0 s s' ∨
    ∃ v ∈ scanValues range.1 range.2 n, StoppedAt E B (cavs.getD s.ORD.RF) (bpms.getD s.ORD.BPM) "Frequency" s v e s' := by
  unfold correctRfFrequency at h
  rw [bind_apply, get_apply] at h
  simp only at h
  rw [bind_apply] at h
  cases hp : checkRfInputs s cavs bpms n with
  | error e' => rw [hp] at h; cases h; exact Or.inl (Shifted.refl _ _ _)
  | ok p =>
    rw [hp] at h
    simp only [lift_ok_apply] at h
    obtain ⟨rfl, hn⟩ := checkRfInputs_eq_ok hp
    simp only at h
    rw [linspace_eq _ _ _ (by omega)] at h
    rcases scan_cases E B (bpms.getD s.ORD.BPM) (field := "Frequency") (scanValues range.1 range.2 n) (by simp)
      (Shifted.refl (cavs.getD s.ORD.RF) "Frequency" s) hc with ⟨meas, s1, h1, hs1, hr1, hm⟩ | ⟨e', s1, h1, hst⟩
    · left
      rw [bind_apply, h1] at h
      simp only at h
      have hlift : ∀ {α : Type} {x : Except Err α} {f : α → Py (SC K) Unit}, (lift x >>= f) s1 = .error e s' →
          Shifted (cavs.getD s.ORD.RF) "Frequency" 0 s s' ∨ ∃ a, x = .ok a ∧ f a s1 = .error e s' := by
        intro α x f hh
        cases x with
        | error e' => rw [bind_apply] at hh; cases hh; exact Or.inl hs1
        | ok a => exact Or.inr ⟨a, rfl, hh⟩
      rcases hlift h with h | ⟨_, -, h⟩
      · exact h
      rcases hlift h with h | ⟨_, -, h⟩
      · exact h
      rcases hlift h with h | ⟨_, -, h⟩
      · exact h
      rcases hlift h with h | ⟨d, -, h⟩
      · exact h
      obtain ⟨s2, h2⟩ := setCavity_total (field := "Frequency") hr1 (by simp) d
      rw [h2] at h; cases h
    · rw [bind_apply, h1] at h
      cases h
      exact Or.inr hst


theorem phaseValues_eq (lam : K) (n : Nat) (hn : 0 < n) :
    (linspace (-1 / 2) (1 / 2) n).map (fun v => lam * v) = scanValues (-(lam / 2)) (lam / 2) n := by
  rw [linspace_eq _ _ _ hn]
  unfold scanValues
  rw [List.map_map]
  refine List.map_congr_left (fun k _ => ?_)
  simp only [Function.comp]
  ring

omit [IsStrictOrderedRing K] in
theorem phaseStep_eq_ok {B : BeamEnv K} {R : RfEnv K} {r : Ring K} {cav : Nat} {pts : List (Pt K)} {lam d : K}
    (h : phaseStep B R r cav pts lam = .ok (some d, true)) :
    ∃ start f guess x, R.curveFit (pts.map (fun p => ⟨p.x / lam, p.y, p.w⟩)) start = .ok f ∧ |f.c| ≤ |f.a| ∧
      R.fsolve (fun x => f.a * R.sin (2 * R.pi * (x / lam) + f.b) + f.c) guess = some x ∧ foldPhase x lam = .ok d := by
  unfold phaseStep at h
  simp only [Except.bind_eq_ok'] at h
  obtain ⟨f, hf, h⟩ := h
  split at h
  · rw [Except.bind_eq_ok'] at h
    obtain ⟨_, -, h⟩ := h
    cases h
  · rename_i hle
    rw [Except.bind_eq_ok'] at h
    obtain ⟨d', hd', h⟩ := h
    split at h
    · simp at h
    · simp only [Except.ok.injEq, Prod.mk.injEq, and_true] at h
      subst h
      unfold foldRoot at hd'
      split at hd'
      · simp at hd'
      · rename_i x hroot
        split at hd'
        · simp at hd'
        · rename_i hfold
          simp only [Except.ok.injEq, Option.some.injEq] at hd'
          subst hd'
          exact ⟨_, f, _, x, hf, not_lt.1 hle, hroot, hfold⟩

/-- **C45** When `correct_rf_phase` returns, the time lag set-point of each cavity differs from the one before the call by
the same shift, and nothing else has changed.  This shift is the solution found for the zero of the sine fitted to the
measured slopes, up to whole wave lengths, and at most half a wave length. -/
theorem C45_phase (E : Env K) (B : BeamEnv K) (R : RfEnv K) (cavs bpms : Option (List Nat)) (n : Nat) (s s' : SC K)
    (hc : ∀ i ∈ cavs.getD s.ORD.RF, CavityReady s.RING i)
    (h : correctRfPhase E B R cavs bpms n s = .ok () s') :
    ∃ cav lam d meas, (cavs.getD s.ORD.RF).head? = some cav ∧ lam * numAt s.RING cav "FrequencySetPoint" = 299792458 ∧
      Shifted (cavs.getD s.ORD.RF) "TimeLag" d s s' ∧ (0 < lam → -(lam / 2) < d ∧ d ≤ lam / 2) ∧
      List.Forall₂ (MeasuredAt E B (cavs.getD s.ORD.RF) (bpms.getD s.ORD.BPM) "TimeLag" s) (scanValues (-(lam / 2)) (lam / 2) n) meas ∧
      6 ≤ (scanData (scanValues (-(lam / 2)) (lam / 2) n) meas).length ∧
      ∃ start f guess x, R.curveFit ((scanData (scanValues (-(lam / 2)) (lam / 2) n) meas).map (fun p => ⟨p.x / lam, p.y, p.w⟩)) start = .ok f ∧
        |f.c| ≤ |f.a| ∧
        R.fsolve (fun x => f.a * R.sin (2 * R.pi * (x / lam) + f.b) + f.c) guess = some x ∧ (0 < lam → SamePhase lam x d) := by
  unfold correctRfPhase at h
  rw [bind_eq_ok] at h; obtain ⟨t, _, ht, h⟩ := h; cases ht
  rw [bindLift_eq_ok] at h; obtain ⟨p, hp, h⟩ := h
  obtain ⟨rfl, hn⟩ := checkRfInputs_eq_ok hp
  simp only at h
  rw [bindLift_eq_ok] at h; obtain ⟨cav, hcav, h⟩ := h
  rw [bindRd_eq_ok] at h; obtain ⟨f0, hf0, h⟩ := h
  rw [bindLift_eq_ok] at h; obtain ⟨lam, hlam, h⟩ := h
  rw [phaseValues_eq _ _ (by omega)] at h
  rw [divE_eq_ok] at hlam
  obtain ⟨hf0ne, hlam⟩ := hlam
  rw [Ring.getNum_eq_ok] at hf0
  rcases scan_cases E B (bpms.getD s.ORD.BPM) (field := "TimeLag") (scanValues (-(lam / 2)) (lam / 2) n) (by simp)
    (Shifted.refl (cavs.getD s.ORD.RF) "TimeLag" s) hc with ⟨meas, s1, h1, hs1, hr1, hm⟩ | ⟨e, s1, h1, -⟩
  · rw [bind_apply, h1] at h
    simp only at h
    rw [bindLift_eq_ok] at h; obtain ⟨pts, hpts, h⟩ := h
    obtain ⟨rfl, h6⟩ := checkData_eq_ok hpts
    rw [bindRd_eq_ok] at h; obtain ⟨dp, hdp, h⟩ := h
    match dp, hdp, h with
    | (none, _), _, h => cases h
    | (some d, false), _, h =>
      simp only at h
      rw [bind_eq_ok] at h
      obtain ⟨_, _, -, h⟩ := h
      cases h
    | (some d, true), hdp, h =>
      simp only at h
      rw [bind_eq_ok] at h
      obtain ⟨_, s2, h2, h⟩ := h
      cases h
      obtain ⟨hs, -⟩ := setCavity_shifted (by simp) h2 hr1
      obtain ⟨start, f, guess, x, hfit, hle, hx, hd⟩ := phaseStep_eq_ok hdp
      refine ⟨cav, lam, d, meas, ?_, ?_, by simpa using hs1.trans hs, fun hpos => ?_, hm, h6, start, f, guess, x, hfit, hle, hx, fun hpos => ?_⟩
      · rw [idx_eq_ok] at hcav
        rw [← hcav]; exact List.head?_eq_getElem?
      · rw [numAt_of_attr hf0, hlam]
        unfold speedOfLight
        field_simp
      · exact ⟨(foldPhase_range hpos hd).1, (foldPhase_range hpos hd).2.1⟩
      · exact (foldPhase_range hpos hd).2.2
  · rw [bind_apply, h1] at h
    cases h

/-- **C45** If `fsolve` finds zeros and the sine has its period, the fitted sine vanishes at the shift applied. -/
theorem C45_phase_zero (E : Env K) (B : BeamEnv K) (R : RfEnv K) (cavs bpms : Option (List Nat)) (n : Nat) (s s' : SC K)
    (hc : ∀ i ∈ cavs.getD s.ORD.RF, CavityReady s.RING i)
    (h : correctRfPhase E B R cavs bpms n s = .ok () s') (hroot : ∀ g x0 x, R.fsolve g x0 = some x → g x = 0)
    (hsin : ∀ x (k : ℤ), R.sin (x + k * (2 * R.pi)) = R.sin x) (hf : ∀ i ∈ cavs.getD s.ORD.RF, 0 < numAt s.RING i "FrequencySetPoint") :
    ∃ lam d pts start f, R.curveFit pts start = .ok f ∧ Shifted (cavs.getD s.ORD.RF) "TimeLag" d s s' ∧
      f.a * R.sin (2 * R.pi * (d / lam) + f.b) + f.c = 0 := by
  obtain ⟨cav, lam, d, meas, hcav, hlam, hs, -, -, -, start, f, guess, x, hfit, -, hx, hsame⟩ := C45_phase E B R cavs bpms n s s' hc h
  have hpos : 0 < lam := by
    have h1 := hf cav (List.mem_of_mem_head? hcav)
    have h2 : 0 < lam * numAt s.RING cav "FrequencySetPoint" := by rw [hlam]; norm_num
    exact pos_of_mul_pos_left h2 h1.le
  obtain ⟨k, hk⟩ := hsame hpos
  refine ⟨lam, d, _, start, f, hfit, hs, ?_⟩
  have := hroot _ _ _ hx
  have e : 2 * R.pi * (x / lam) + f.b = (2 * R.pi * (d / lam) + f.b) + k * (2 * R.pi) := by
    have : x = d + k * lam := by linear_combination hk
    rw [this]; field_simp; ring
  rwa [e, hsin] at this

/-- **C45** If `correct_rf_phase` raises, the set-points are as before the call, unless a measurement failed: then the
cavities are left at the shift of this measurement. -/
theorem C45_phase_failure (E : Env K) (B : BeamEnv K) (R : RfEnv K) (cavs bpms : Option (List Nat)) (n : Nat) (s s' : SC K)
    (e : Err) (hc : ∀ i ∈ cavs.getD s.ORD.RF, CavityReady s.RING i)
    (h : correctRfPhase E B R cavs bpms n s = .error e s') :
    Shifted (cavs.getD s.ORD.RF) "TimeLag" 0 s s' ∨
    ∃ lam, ∃ v ∈ scanValues (-(lam / 2)) (lam / 2) n,
      StoppedAt E B (cavs.getD s.ORD.RF) (bpms.getD s.ORD.BPM) "TimeLag" s v e s' := by
  unfold correctRfPhase at h
  rw [bind_apply, get_apply] at h
  simp only at h
  rw [bind_apply] at h
  have hlift : ∀ {α : Type} {x : Except Err α} {f : α → Py (SC K) Unit} {s1 : SC K},
      (lift x >>= f) s1 = .error e s' → s' = s1 ∨ ∃ a, x = .ok a ∧ f a s1 = .error e s' := by
    intro α x f s1 hh
    cases x with
    | error e' => rw [bind_apply] at hh; cases hh; exact Or.inl rfl
    | ok a => exact Or.inr ⟨a, rfl, hh⟩
  have hrd : ∀ {α : Type} {x : Ring K → Except Err α} {f : α → Py (SC K) Unit} {s1 : SC K},
      (rd x >>= f) s1 = .error e s' → s' = s1 ∨ ∃ a, x s1.RING = .ok a ∧ f a s1 = .error e s' := by
    intro α x f s1 hh
    rw [bind_apply] at hh
    cases hx : x s1.RING with
    | error e' => rw [rd_eq_error.2 ⟨hx, rfl⟩] at hh; cases hh; exact Or.inl rfl
    | ok a => rw [rd_apply_ok hx] at hh; exact Or.inr ⟨a, rfl, hh⟩
  cases hp : checkRfInputs s cavs bpms n with
  | error e' => rw [hp] at h; cases h; exact Or.inl (Shifted.refl _ _ _)
  | ok p =>
    rw [hp] at h
    simp only [lift_ok_apply] at h
    obtain ⟨rfl, hn⟩ := checkRfInputs_eq_ok hp
    simp only at h
    rcases hlift h with rfl | ⟨cav, -, h⟩
    · exact Or.inl (Shifted.refl _ _ _)
    rcases hrd h with rfl | ⟨f0, -, h⟩
    · exact Or.inl (Shifted.refl _ _ _)
    rcases hlift h with rfl | ⟨lam, -, h⟩
    · exact Or.inl (Shifted.refl _ _ _)
    rw [phaseValues_eq _ _ (by omega)] at h
    rcases scan_cases E B (bpms.getD s.ORD.BPM) (field := "TimeLag") (scanValues (-(lam / 2)) (lam / 2) n) (by simp)
      (Shifted.refl (cavs.getD s.ORD.RF) "TimeLag" s) hc with ⟨meas, s1, h1, hs1, hr1, hm⟩ | ⟨e', s1, h1, hst⟩
    · left
      rw [bind_apply, h1] at h
      simp only at h
      rcases hlift h with rfl | ⟨pts, -, h⟩
      · exact hs1
      rcases hrd h with rfl | ⟨dp, hdp, h⟩
      · exact hs1
      match dp, hdp, h with
      | (none, _), _, h => cases h; exact hs1
      | (some d, true), _, h =>
        simp only at h
        obtain ⟨s2, h2⟩ := setCavity_total (field := "TimeLag") hr1 (by simp) d
        rw [bind_apply, h2] at h; cases h
      | (some d, false), hdp, h =>
        have hd : d = 0 := by
          unfold phaseStep at hdp
          simp only [Except.bind_eq_ok'] at hdp
          obtain ⟨f, -, hdp⟩ := hdp
          split at hdp
          · rw [Except.bind_eq_ok'] at hdp
            obtain ⟨_, -, hdp⟩ := hdp
            cases hdp
          · rw [Except.bind_eq_ok'] at hdp
            obtain ⟨_, -, hdp⟩ := hdp
            split at hdp
            · simp at hdp; exact hdp.symm
            · simp at hdp
        subst hd
        simp only at h
        obtain ⟨s2, h2⟩ := setCavity_total (field := "TimeLag") hr1 (by simp) (0 : K)
        obtain ⟨hs, -⟩ := setCavity_shifted (by simp) h2 hr1
        rw [bind_apply, h2] at h
        cases h
        simpa using hs1.trans hs
    · rw [bind_apply, h1] at h
      cases h
      exact Or.inr ⟨lam, hst⟩

end

/-- **C45** What is measured at each step: the slope with the turns of the mean distance of the horizontal readings to those
of the first turn, which is that of the best line through the turns in which all BPMs see the beam, with the inverse of the
error of the mean as weight (at least three turns are needed). -/
theorem C45_energy_shift [IsStrictOrderedRing K] (E : Env K) (B : BeamEnv K) (bpms : List Nat) (s s' : SC K) (m : Option (K × K))
    (h : tbtEnergyShift E B bpms s = .ok m s') :
    ∃ r, bpmReading E B (some bpms) false s = .ok r s' ∧ r.x.length = s.INJ.nTurns * bpms.length ∧
      ((goodTurns r.x bpms.length s.INJ.nTurns).length < 3 → m = none) ∧
      (3 ≤ (goodTurns r.x bpms.length s.INJ.nTurns).length → ∃ (slope err q : K) (w : Nat → K), m = some (slope, err) ∧
        BestLine ((goodTurns r.x bpms.length s.INJ.nTurns).map (fun (t : Nat) => ⟨(t : K), driftAt r.x bpms.length t, w t⟩)) slope q ∧
        ∀ t ∈ goodTurns r.x bpms.length s.INJ.nTurns, ∃ sd rootN, B.sqrt (spreadAt r.x bpms.length t) = some sd ∧
          B.sqrt (bpms.length : K) = some rootN ∧ w t * (sd / rootN + 1 / 10 ^ 9) = 1) := by
  unfold tbtEnergyShift at h
  rw [bind_eq_ok] at h; obtain ⟨_, _, ht, h⟩ := h; cases ht
  rw [bind_eq_ok] at h; obtain ⟨r, s1, hr, h⟩ := h
  split at h
  · cases h
  rename_i hlen
  have hgood : (List.range s.INJ.nTurns).filterMap (fun t => (meanShift r.x bpms.length t).map (fun m => (t, m))) =
      (goodTurns r.x bpms.length s.INJ.nTurns).map (fun t => (t, driftAt r.x bpms.length t)) := by
    unfold goodTurns
    induction List.range s.INJ.nTurns with
    | nil => rfl
    | cons t l ih =>
      rw [List.filterMap_cons, meanShift_eq, List.filter_cons]
      by_cases hh : (seenByAll r.x bpms.length t && seenByAll r.x bpms.length 0) = true
      · rw [if_pos hh, if_pos hh, List.map_cons, ← ih]; rfl
      · rw [if_neg hh, if_neg hh, ← ih]; rfl
  simp only [hgood, List.length_map] at h
  split at h
  · rename_i h3
    cases h
    exact ⟨r, hr, not_not.1 hlen, fun _ => rfl, fun h' => absurd h3 (by omega)⟩
  · rename_i h3
    rw [bindLift_eq_ok] at h; obtain ⟨pts, hpts, h⟩ := h
    rw [bindLift_eq_ok] at h; obtain ⟨f, hf, h⟩ := h
    cases hsq : B.sqrt f.varSlope with
    | none => simp only [hsq] at h; cases h
    | some err =>
      simp only [hsq] at h
      cases h
      refine ⟨r, hr, not_not.1 hlen, fun h' => absurd h' h3, fun _ => ?_⟩
      have hw : ∀ t, ∃ w, t ∈ goodTurns r.x bpms.length s.INJ.nTurns → ∃ e, meanShiftErr B r.x bpms.length t = some e ∧
          divE 1 (e + 1 / 10 ^ 9) = .ok w := by
        intro t
        by_cases ht : t ∈ goodTurns r.x bpms.length s.INJ.nTurns
        · obtain ⟨y, hy⟩ := mapM_except_mem hpts (t, driftAt r.x bpms.length t) (List.mem_map.2 ⟨t, ht, rfl⟩)
          simp only at hy
          split at hy
          · cases hy
          · rename_i e he
            rw [Except.bind_eq_ok'] at hy
            obtain ⟨w, hw, -⟩ := hy
            exact ⟨w, fun _ => ⟨e, he, hw⟩⟩
        · exact ⟨0, fun h => absurd h ht⟩
      choose w hw using hw
      have hp := mapM_except_map (g := fun p : Nat × K => (⟨(p.1 : K), p.2, w p.1⟩ : Pt K)) (by
        intro p hp y hy
        obtain ⟨t, ht, rfl⟩ := List.mem_map.1 hp
        obtain ⟨e, he, hwt⟩ := hw t ht
        simp only [he, hwt, bind, Except.bind, Except.ok.injEq] at hy
        exact hy.symm) hpts
      rw [List.map_map] at hp
      refine ⟨f.slope, err, f.intercept, w, rfl, ?_, fun t ht => ?_⟩
      · have := lineFit_best hf
        rw [hp] at this
        exact this
      · obtain ⟨e, he, hwt⟩ := hw t ht
        obtain ⟨sd, q, h1, h2, rfl⟩ := meanShiftErr_eq_some he
        rw [divE_eq_ok] at hwt
        refine ⟨sd, q, h1, h2, ?_⟩
        rw [hwt.2]
        exact div_mul_cancel₀ _ hwt.1

/-! A ring with one BPM and one cavity with an offset of its frequency.  The beam drifts with the turns until the frequency
is 600; it is not seen in half of the turns. -/

def Example.driftBeam : BeamEnv ℚ where
  track := fun r Z _ t => Z.map (fun _ => if t ∈ [0, 3, 4, 7] then (some (t * (numAt r 5 "Frequency" - 600)), some 0) else (none, none))
  orbit := fun _ _ => (none, none)
  eig := fun _ => ([], [])
  cosSin := fun _ => (1, 0)
  sqrt := Example.qsqrt
  postFun := id

def Example.rfRing : SC ℚ := { Example.sc with INJ := { Example.inj with nTurns := 8 } }

/-- a saw tooth in the place of the sine -/
def Example.saw : RfEnv ℚ where
  curveFit := fun _ _ => .ok ⟨1, 0, 1/4, some 0, some 0⟩
  fsolve := fun g _ => ((List.range 9).map (fun (k : Nat) => ((k : ℚ) + 2) * 299792458 / 2000)).find? (fun x => decide (g x = 0))
  sin := fun x => Int.fract x - 1/2
  pi := 1/2
  orbit6 := fun _ => [0, 0, 0, 0, 1/1000, 6/25]

theorem Example.cavityReady : ∀ i ∈ (none : Option (List Nat)).getD Example.rfRing.ORD.RF, CavityReady Example.rfRing.RING i := by
  intro i hi
  have : i = 5 := by simpa [Example.rfRing, Example.sc] using hi
  subst this
  intro f hf part hp
  fin_cases hf <;> fin_cases hp <;> exact ⟨_, rfl⟩

/-- the frequency is corrected by 97, which makes 600 with the offset of 3; the time lag by a quarter of the wave length -/
example : (correctRfFrequency Example.rand Example.driftBeam none none 6 (-100, 100) Example.rfRing).isOk = true ∧
    (correctRfFrequency Example.rand Example.driftBeam none none 6 (-100, 100) Example.rfRing).state.RING.attr 5 "FrequencySetPoint" =
      some (.num 597) ∧
    (correctRfFrequency Example.rand Example.driftBeam none none 6 (-100, 100) Example.rfRing).state.RING.attr 5 "Frequency" =
      some (.num 600) ∧
    (correctRfPhase Example.rand Example.driftBeam Example.saw none none 6 Example.rfRing).isOk = true ∧
    (correctRfPhase Example.rand Example.driftBeam Example.saw none none 6 Example.rfRing).state.RING.attr 5 "TimeLagSetPoint" =
      some (.num (299792458 / 2000)) := by
  decide +kernel

/-- a measurement with four good turns out of eight -/
example : (tbtEnergyShift Example.rand Example.driftBeam [0] Example.rfRing).value? = some (some (-600, 1 / 5000000000)) := by
  decide +kernel

/-- the hypotheses of `C45_phase_zero` -/
example : (∀ g x0 x, Example.saw.fsolve g x0 = some x → g x = 0) ∧
    (∀ x (k : ℤ), Example.saw.sin (x + k * (2 * Example.saw.pi)) = Example.saw.sin x) ∧
    (∀ i ∈ (none : Option (List Nat)).getD Example.rfRing.ORD.RF, 0 < numAt Example.rfRing.RING i "FrequencySetPoint") := by
  refine ⟨fun g x0 x h => ?_, fun x k => ?_, ?_⟩
  · have := List.find?_some h
    simpa using this
  · simp [Example.saw]
  · intro i hi
    have : i = 5 := by simpa [Example.rfRing, Example.sc] using hi
    subst this
    decide +kernel

/-- **C45 violated** by a measurement which raises, as with a BPM that is not registered: the exception leaves the cavity
at the first frequency of the scan. -/
theorem C45_violated_failed_reading : ∃ s',
    correctRfFrequency Example.rand Example.driftBeam none (some [1]) 6 (-100, 100) Example.rfRing = .error .valueError s' ∧
    s'.RING.attr 5 "FrequencySetPoint" = some (.num 400) ∧ Example.rfRing.RING.attr 5 "FrequencySetPoint" = some (.num 500) :=
  ⟨_, err_of_err? (by decide +kernel), by decide +kernel, by decide +kernel⟩

/-! ### C69 -/

section
variable [IsStrictOrderedRing K]

/-- **C69**: the energy error is the difference between the energy of the injected beam and of the closed orbit, and the
phase error is the distance between orbit and injected beam in degrees of the wave length.

Partial: the latter is shown for distances of less than half of the squared wave length only (with wave lengths over one
meter this contains the half wave length on either side). -/
theorem C69_errors_partial (R : RfEnv K) (s : SC K) (cav : Nat) (cavs : List Nat) (f o4 o5 z4 z5 : K) (hf : 0 < f)
    (hcav : s.RING.attr cav "Frequency" = some (.num f)) (ho4 : (R.orbit6 s.RING)[4]? = some o4)
    (ho5 : (R.orbit6 s.RING)[5]? = some o5) (hz4 : s.INJ.Z0[4]? = some z4) (hz5 : s.INJ.Z0[5]? = some z5) :
    ∃ phi, phaseAndEnergyError R s (cav :: cavs) = .ok (phi, z4 - o4) ∧
      (2 * |o5 - z5| < (299792458 / f) ^ 2 → phi = (o5 - z5) / (299792458 / f) * 360) := by
  have hlam : (0 : K) < 299792458 / f := by positivity
  obtain ⟨d, hd, h1, h2, hs⟩ := C44_folding ((o5 - z5) / (299792458 / f)) (299792458 / f) hlam
  refine ⟨d * 360, ?_, fun hlt => ?_⟩
  · have e1 : idx (cav :: cavs) 0 = .ok cav := rfl
    have e2 : s.RING.getNum cav "Frequency" = .ok f := Ring.getNum_eq_ok.2 hcav
    have e3 : divE speedOfLight f = .ok (299792458 / f) := divE_eq_ok.2 ⟨hf.ne', rfl⟩
    unfold phaseAndEnergyError
    simp only [e1, e2, e3, idx_eq_ok.2 ho4, idx_eq_ok.2 ho5, idx_eq_ok.2 hz4, idx_eq_ok.2 hz5, hd, bind, Except.bind]
  · have hx : |(o5 - z5) / (299792458 / f)| < 299792458 / f / 2 := by
      rw [abs_div, abs_of_pos hlam, div_lt_iff₀ hlam]
      nlinarith
    have := abs_lt.1 hx
    rw [SamePhase.eq hlam hs ⟨this.1, this.2.le⟩ ⟨h1, h2⟩]

end

/-- a machine with a wave length of 3/5 and the orbit 2/5 of the wave length from the injected beam -/
def Example.shortWave : SC ℚ :=
  { Example.sc with RING := [Example.cav.set "Frequency" (.num (299792458 * 5 / 3))] }

example : 0 < (299792458 * 5 / 3 : ℚ) ∧ Example.shortWave.RING.attr 0 "Frequency" = some (.num (299792458 * 5 / 3)) ∧
    (Example.saw.orbit6 Example.shortWave.RING)[5]? = some (6/25) ∧ Example.shortWave.INJ.Z0[5]? = some 0 := by
  decide +kernel

/-- **C69 violated**: the distance in units of the wave length is folded modulo the wave length in meters.  Here a phase
error of 144 degrees is reported as −72 degrees. -/
theorem C69_violated : phaseAndEnergyError Example.saw Example.shortWave [0] = .ok (-72, -1/1000) ∧
    (6 / 25 : ℚ) / (299792458 / (299792458 * 5 / 3)) * 360 = 144 ∧ ¬ SamePhase (360 : ℚ) 144 (-72) := by
  refine ⟨by decide +kernel, by norm_num, ?_⟩
  rintro ⟨k, hk⟩
  have : (216 : ℤ) = k * 360 := by exact_mod_cast (by linarith : (216 : ℚ) = k * 360)
  omega

end PySC
