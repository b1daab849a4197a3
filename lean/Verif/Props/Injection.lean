import Verif.Model.Injection
import Verif.Props.Rf
import Mathlib.Tactic.IntervalCases
import Mathlib.Tactic.FinCases
import Mathlib.Data.Fin.VecNotation
/-
C50 Injection drift fit.  C51 Injection trajectory fit.
-/
set_option linter.unusedSectionVars false
namespace PySC
open Py Spec
variable {K : Type} [Field K] [LinearOrder K] [FloorRing K]

/-! ### C50 -/
section
variable [IsStrictOrderedRing K]

omit [FloorRing K] in
theorem lineFit_two {s1 s2 v1 v2 a b : K} (hs : s1 ≠ s2) (h1 : b + a * s1 = v1) (h2 : b + a * s2 = v2) :
    ∃ f, lineFit [(⟨s1, v1, 1⟩ : Pt K), ⟨s2, v2, 1⟩] = .ok f ∧ f.slope = a ∧ f.intercept = b := by
  have hok : ∃ f, lineFit [(⟨s1, v1, 1⟩ : Pt K), ⟨s2, v2, 1⟩] = .ok f := by
    unfold lineFit
    simp only [List.isEmpty_cons, Bool.false_eq_true, if_false]
    rw [if_neg]
    · exact ⟨_, rfl⟩
    · simp only [sumOf, List.map_cons, List.map_nil, List.sum_cons, List.sum_nil]
      intro h0
      have : (s1 - s2) ^ 2 = 0 := by linear_combination h0
      exact hs (sub_eq_zero.1 (pow_eq_zero_iff (two_ne_zero)|>.1 this))
  obtain ⟨f, hf⟩ := hok
  refine ⟨f, hf, lineFit_exact hf ?_⟩
  intro t ht
  simp only [List.mem_cons, List.not_mem_nil, or_false] at ht
  rcases ht with rfl | rfl
  · rw [← h1]; ring
  · rw [← h2]; ring

/-- **C50** If the readings of the last BPM in the first turn and of the first BPM in the second turn lie on straight lines
along the drift around the injection point, the change proposed is minus their positions and angles there; the machine is
not changed. -/
theorem C50_straight (E : Env K) (B : BeamEnv K) (s s1 : SC K) (r : Reading K) (first last : Nat) (x0 px y0 py : K)
    (hr : bpmReading E B none false s = .ok r s1) (hfirst : s.ORD.BPM.head? = some first) (hlast : s.ORD.BPM.getLast? = some last)
    (hf : first ≤ s.RING.length) (hl : last ≤ s.RING.length) (hpos : sPos s.RING last - circumference s.RING ≠ sPos s.RING first)
    (hx1 : r.x[s.ORD.BPM.length - 1]? = some (some (x0 + px * (sPos s.RING last - circumference s.RING))))
    (hx2 : r.x[s.ORD.BPM.length]? = some (some (x0 + px * sPos s.RING first)))
    (hy1 : r.y[s.ORD.BPM.length - 1]? = some (some (y0 + py * (sPos s.RING last - circumference s.RING))))
    (hy2 : r.y[s.ORD.BPM.length]? = some (some (y0 + py * sPos s.RING first))) :
    fitInjectionDrift E B s = .ok [-x0, -px, -y0, -py, 0, 0] s1 ∧ s1 = { s with rng := s1.rng } := by
  refine ⟨?_, ((bpmReading_onlyRng E B none false).ok hr).1⟩
  have hne : s.ORD.BPM ≠ [] := by intro h; rw [h] at hfirst; cases hfirst
  have hnb : s.ORD.BPM.length ≠ 0 := by simpa using hne
  have e1 : idx s.ORD.BPM (s.ORD.BPM.length - 1) = .ok last := idx_eq_ok.2 (by rw [← hlast, List.getLast?_eq_getElem?])
  have e2 : idx s.ORD.BPM 0 = .ok first := idx_eq_ok.2 (by rw [← hfirst, List.head?_eq_getElem?])
  have e3 : idx (findspos s.RING) last = .ok (sPos s.RING last) := idx_eq_ok.2 (findspos_get.2 ⟨hl, rfl⟩)
  have e4 : idx (findspos s.RING) first = .ok (sPos s.RING first) := idx_eq_ok.2 (findspos_get.2 ⟨hf, rfl⟩)
  have e5 : (findspos s.RING).getLastD 0 = circumference s.RING := by
    rw [findspos_eq, List.range_succ, List.map_append]
    simp [circumference]
  have f1 : [s.ORD.BPM.length - 1, s.ORD.BPM.length].mapM (idx r.x) =
      .ok [some (x0 + px * (sPos s.RING last - circumference s.RING)), some (x0 + px * sPos s.RING first)] := by
    simp [List.mapM_cons, idx_eq_ok.2 hx1, idx_eq_ok.2 hx2, bind, Except.bind, pure, Except.pure]
  have f2 : [s.ORD.BPM.length - 1, s.ORD.BPM.length].mapM (idx r.y) =
      .ok [some (y0 + py * (sPos s.RING last - circumference s.RING)), some (y0 + py * sPos s.RING first)] := by
    simp [List.mapM_cons, idx_eq_ok.2 hy1, idx_eq_ok.2 hy2, bind, Except.bind, pure, Except.pure]
  obtain ⟨fx, gx, ax, bx⟩ := lineFit_two hpos (rfl : x0 + px * _ = _) (rfl : x0 + px * _ = _)
  obtain ⟨fy, gy, ay, by_⟩ := lineFit_two hpos (rfl : y0 + py * _ = _) (rfl : y0 + py * _ = _)
  have g : fitBpmData [sPos s.RING last - circumference s.RING, sPos s.RING first]
      [some (x0 + px * (sPos s.RING last - circumference s.RING)), some (x0 + px * sPos s.RING first)]
      [some (y0 + py * (sPos s.RING last - circumference s.RING)), some (y0 + py * sPos s.RING first)] =
      .ok [-x0, -px, -y0, -py, 0, 0] := by
    unfold fitBpmData
    rw [if_neg (by simp)]
    simp only [List.filterMap_cons, List.filterMap_nil, id, List.zipWith_cons_cons, List.zipWith_nil_left, gx, gy, bind, Except.bind,
      ax, bx, ay, by_]
  unfold fitInjectionDrift
  rw [bind_apply, get_apply]; simp only
  rw [bind_apply, hr]; simp only
  rw [if_neg hnb, bind_apply, f1]; simp only [lift_ok_apply]
  rw [bind_apply, f2]; simp only [lift_ok_apply]
  rw [bind_apply, e1]; simp only [lift_ok_apply]
  rw [bind_apply, e3]; simp only [lift_ok_apply]
  rw [bind_apply, e2]; simp only [lift_ok_apply]
  rw [bind_apply, e4]; simp only [lift_ok_apply]
  rw [e5, g]
  rfl

/-- **C50** The lines exist: whenever a change is returned it is minus position and angle, at the injection point, of the
straight lines through the two readings of each plane. -/
theorem C50_drift (E : Env K) (B : BeamEnv K) (s s' : SC K) (d : List K) (h : fitInjectionDrift E B s = .ok d s') :
    ∃ r first last x0 px y0 py, bpmReading E B none false s = .ok r s' ∧ s.ORD.BPM.head? = some first ∧
      s.ORD.BPM.getLast? = some last ∧ d = [-x0, -px, -y0, -py, 0, 0] ∧
      r.x[s.ORD.BPM.length - 1]? = some (some (x0 + px * (sPos s.RING last - circumference s.RING))) ∧
      r.x[s.ORD.BPM.length]? = some (some (x0 + px * sPos s.RING first)) ∧
      r.y[s.ORD.BPM.length - 1]? = some (some (y0 + py * (sPos s.RING last - circumference s.RING))) ∧
      r.y[s.ORD.BPM.length]? = some (some (y0 + py * sPos s.RING first)) := by
  unfold fitInjectionDrift at h
  rw [bind_eq_ok] at h; obtain ⟨_, _, ht, h⟩ := h; cases ht
  rw [bind_eq_ok] at h; obtain ⟨r, s1, hr, h⟩ := h
  split at h
  · cases h
  rename_i hnb
  rw [bindLift_eq_ok] at h; obtain ⟨x, hx, h⟩ := h
  rw [bindLift_eq_ok] at h; obtain ⟨y, hy, h⟩ := h
  rw [bindLift_eq_ok] at h; obtain ⟨last, hlast, h⟩ := h
  rw [bindLift_eq_ok] at h; obtain ⟨sl, hsl, h⟩ := h
  rw [bindLift_eq_ok] at h; obtain ⟨first, hfirst, h⟩ := h
  rw [bindLift_eq_ok] at h; obtain ⟨sf, hsf, h⟩ := h
  have e5 : (findspos s.RING).getLastD 0 = circumference s.RING := by
    rw [findspos_eq, List.range_succ, List.map_append]
    simp [circumference]
  rw [e5] at h
  have e3 := (findspos_get.1 (idx_eq_ok.1 hsl)).2
  have e4 := (findspos_get.1 (idx_eq_ok.1 hsf)).2
  subst e3 e4
  have two : ∀ {v w : List (Option K)}, [s.ORD.BPM.length - 1, s.ORD.BPM.length].mapM (idx v) = .ok w →
      ∃ a b, w = [a, b] ∧ v[s.ORD.BPM.length - 1]? = some a ∧ v[s.ORD.BPM.length]? = some b := by
    intro v w hw
    simp only [List.mapM_cons, List.mapM_nil, Except.bind_eq_ok', idx_eq_ok] at hw
    obtain ⟨a, ha, w1, ⟨b, hb, w2, hw2, hw1⟩, hw⟩ := hw
    cases hw2; cases hw1; cases hw
    exact ⟨a, b, rfl, ha, hb⟩
  obtain ⟨x1, x2, rfl, hx1, hx2⟩ := two hx
  obtain ⟨y1, y2, rfl, hy1, hy2⟩ := two hy
  cases hfit : fitBpmData [sPos s.RING last - circumference s.RING, sPos s.RING first] [x1, x2] [y1, y2] with
  | error e => rw [hfit] at h; cases h
  | ok d' =>
    rw [hfit] at h
    cases h
    unfold fitBpmData at hfit
    split at hfit
    · cases hfit
    · rename_i hsome
      simp only [List.cons_append, List.nil_append, List.any_cons, List.any_nil, Bool.or_false, Bool.or_eq_true, not_or,
        Option.isNone_iff_eq_none] at hsome
      obtain ⟨n1, n2, n3, n4⟩ := hsome
      obtain ⟨a1, rfl⟩ := Option.ne_none_iff_exists'.1 n1
      obtain ⟨a2, rfl⟩ := Option.ne_none_iff_exists'.1 n2
      obtain ⟨b1, rfl⟩ := Option.ne_none_iff_exists'.1 n3
      obtain ⟨b2, rfl⟩ := Option.ne_none_iff_exists'.1 n4
      simp only [Except.bind_eq_ok', List.filterMap_cons, List.filterMap_nil, id, List.zipWith_cons_cons, List.zipWith_nil_left] at hfit
      obtain ⟨fx, hfx, fy, hfy, hfit⟩ := hfit
      cases hfit
      have thru : ∀ {t1 t2 v1 v2 : K} {f : Line K}, lineFit [(⟨t1, v1, 1⟩ : Pt K), ⟨t2, v2, 1⟩] = .ok f →
          v1 = f.intercept + f.slope * t1 ∧ v2 = f.intercept + f.slope * t2 := by
        intro t1 t2 v1 v2 f hf
        by_cases ht : t1 = t2
        · subst ht
          obtain ⟨-, -, hD, -⟩ := lineFit_eq_ok hf
          exfalso
          apply hD
          simp only [sumOf, List.map_cons, List.map_nil, List.sum_cons, List.sum_nil]
          ring
        · have hsub : t1 - t2 ≠ 0 := sub_ne_zero.2 ht
          obtain ⟨f', hf', ha, hb⟩ := lineFit_two (v1 := v1) (v2 := v2) ht (a := (v1 - v2) / (t1 - t2))
            (b := v1 - (v1 - v2) / (t1 - t2) * t1) (by ring) (by field_simp; ring)
          rw [hf] at hf'; cases hf'
          rw [ha, hb]
          exact ⟨by ring, by field_simp; ring⟩
      obtain ⟨p1, p2⟩ := thru hfx
      obtain ⟨q1, q2⟩ := thru hfy
      refine ⟨r, first, last, fx.intercept, fx.slope, fy.intercept, fy.slope, hr, ?_, ?_, rfl, ?_, ?_, ?_, ?_⟩
      · rw [List.head?_eq_getElem?]; exact idx_eq_ok.1 hfirst
      · rw [List.getLast?_eq_getElem?]; exact idx_eq_ok.1 hlast
      · rw [hx1, ← p1]
      · rw [hx2, ← p2]
      · rw [hy1, ← q1]
      · rw [hy2, ← q2]

end

/-- **C50** If the beam is not seen at one of the two BPMs an exception is raised, and the machine is not changed. -/
theorem C50_lost (E : Env K) (B : BeamEnv K) (s s1 : SC K) (r : Reading K) (hr : bpmReading E B none false s = .ok r s1)
    (hlost : some none ∈ [r.x[s.ORD.BPM.length - 1]?, r.x[s.ORD.BPM.length]?, r.y[s.ORD.BPM.length - 1]?, r.y[s.ORD.BPM.length]?]) :
    ∃ e, fitInjectionDrift E B s = .error e s1 ∧ s1 = { s with rng := s1.rng } := by
  have hs1 := ((bpmReading_onlyRng E B none false).ok hr).1
  cases h : fitInjectionDrift E B s with
  | error e s' =>
    refine ⟨e, ?_, hs1⟩
    congr 1
    unfold fitInjectionDrift at h
    rw [bind_apply, get_apply] at h; simp only at h
    rw [bind_apply, hr] at h; simp only at h
    have hlift : ∀ {α : Type} {x : Except Err α} {f : α → Py (SC K) (List K)} ,
      (lift x >>= f) s1 = .error e s' → s' = s1 ∨ ∃ a, x = .ok a ∧ f a s1 = .error e s' := by
      intro α x f hh
      cases x with
      | error e' => rw [bind_apply] at hh; cases hh; exact Or.inl rfl
      | ok a => exact Or.inr ⟨a, rfl, hh⟩
    split at h
    · cases h; rfl
    rcases hlift h with rfl | ⟨_, -, h⟩
    · rfl
    rcases hlift h with rfl | ⟨_, -, h⟩
    · rfl
    rcases hlift h with rfl | ⟨_, -, h⟩
    · rfl
    rcases hlift h with rfl | ⟨_, -, h⟩
    · rfl
    rcases hlift h with rfl | ⟨_, -, h⟩
    · rfl
    rcases hlift h with rfl | ⟨_, -, h⟩
    · rfl
    unfold lift at h
    split at h
    · cases h
    · cases h; rfl
  | ok d s' =>
    exfalso
    unfold fitInjectionDrift at h
    rw [bind_apply, get_apply] at h; simp only at h
    rw [bind_apply, hr] at h; simp only at h
    split at h
    · cases h
    rw [bindLift_eq_ok] at h; obtain ⟨x, hx, h⟩ := h
    rw [bindLift_eq_ok] at h; obtain ⟨y, hy, h⟩ := h
    rw [bindLift_eq_ok] at h; obtain ⟨last, hlast, h⟩ := h
    rw [bindLift_eq_ok] at h; obtain ⟨sl, hsl, h⟩ := h
    rw [bindLift_eq_ok] at h; obtain ⟨first, hfirst, h⟩ := h
    rw [bindLift_eq_ok] at h; obtain ⟨sf, hsf, h⟩ := h
    have two : ∀ {v w : List (Option K)}, [s.ORD.BPM.length - 1, s.ORD.BPM.length].mapM (idx v) = .ok w →
        ∃ a b, w = [a, b] ∧ v[s.ORD.BPM.length - 1]? = some a ∧ v[s.ORD.BPM.length]? = some b := by
      intro v w hw
      simp only [List.mapM_cons, List.mapM_nil, Except.bind_eq_ok', idx_eq_ok] at hw
      obtain ⟨a, ha, w1, ⟨b, hb, w2, hw2, hw1⟩, hw⟩ := hw
      cases hw2; cases hw1; cases hw
      exact ⟨a, b, rfl, ha, hb⟩
    obtain ⟨x1, x2, rfl, hx1, hx2⟩ := two hx
    obtain ⟨y1, y2, rfl, hy1, hy2⟩ := two hy
    rw [hx1, hx2, hy1, hy2] at hlost
    have : fitBpmData [sl - (findspos s.RING).getLastD 0, sf] [x1, x2] [y1, y2] = .error .runtimeError := by
      unfold fitBpmData
      rw [if_pos]
      simp only [List.mem_cons, Option.some.injEq, List.not_mem_nil, or_false] at hlost
      simp only [List.cons_append, List.nil_append, List.any_cons, List.any_nil, Bool.or_false, Bool.or_eq_true,
        Option.isNone_iff_eq_none]
      rcases hlost with h | h | h | h <;> simp [← h]
    rw [this] at h
    cases h

/-! ### C51 -/

/-- **C51** What `fit_injection_trajectory` does with the minimum it finds: minus its four coordinates is returned and added to
the injected beam, whose energy and phase stay; nothing else changes. -/
theorem C51_applied (E : Env K) (B : BeamEnv K) (J : InjEnv K) (inds : List Nat) (s s' : SC K) (d : List K)
    (h : fitInjectionTrajectory E B J inds s = .ok d s') :
    ∃ (r : Reading K) (bx by_ : List (Option K)) (ords : List Nat) (z : Fin 4 → K), List.Forall₂ (fun i v => r.x[i]? = some v) inds bx ∧ List.Forall₂ (fun i v => r.y[i]? = some v) inds by_ ∧
      List.Forall₂ (fun i o => s.ORD.BPM[i]? = some o) inds ords ∧ (∃ s1, bpmReading E B none false s = .ok r s1 ∧ s'.rng = s1.rng) ∧
      (∀ k, J.fmin (meritFunction B J s.IDEALRING bx by_ ords) [0, 0, 0, 0] k = some (z k)) ∧
      d = [-z 0, -z 1, -z 2, -z 3, 0, 0] ∧
      s' = { s with INJ := { s.INJ with Z0 := s'.INJ.Z0 }, rng := s'.rng } ∧ s.INJ.Z0.length = 6 ∧ s'.INJ.Z0.length = 6 ∧
      ∀ k < 6, coef s'.INJ.Z0 k = coef s.INJ.Z0 k + coef d k := by
  unfold fitInjectionTrajectory at h
  rw [bind_eq_ok] at h; obtain ⟨_, _, ht, h⟩ := h; cases ht
  rw [bind_eq_ok] at h; obtain ⟨r, s1, hr, h⟩ := h
  rw [bindLift_eq_ok] at h; obtain ⟨bx, hbx, h⟩ := h
  rw [bindLift_eq_ok] at h; obtain ⟨by_, hby, h⟩ := h
  rw [bindLift_eq_ok] at h; obtain ⟨ords, hords, h⟩ := h
  have hs1 := ((bpmReading_onlyRng E B none false).ok hr).1
  have hf : ∀ {α : Type} {v w : List α}, inds.mapM (idx v) = .ok w → List.Forall₂ (fun i x => v[i]? = some x) inds w := by
    intro α v w hw
    clear * - hw
    induction inds generalizing w with
    | nil => cases hw; exact .nil
    | cons i l ih =>
      simp only [List.mapM_cons, Except.bind_eq_ok', idx_eq_ok] at hw
      obtain ⟨a, ha, w', hw', h⟩ := hw
      cases h
      exact .cons ha (ih hw')
  simp only at h
  cases h0 : J.fmin (meritFunction B J s.IDEALRING bx by_ ords) [0, 0, 0, 0] 0 with
  | none => simp only [h0] at h; cases h
  | some z0 =>
  cases h1 : J.fmin (meritFunction B J s.IDEALRING bx by_ ords) [0, 0, 0, 0] 1 with
  | none => simp only [h0, h1] at h; cases h
  | some z1 =>
  cases h2 : J.fmin (meritFunction B J s.IDEALRING bx by_ ords) [0, 0, 0, 0] 2 with
  | none => simp only [h0, h1, h2] at h; cases h
  | some z2 =>
  cases h3 : J.fmin (meritFunction B J s.IDEALRING bx by_ ords) [0, 0, 0, 0] 3 with
  | none => simp only [h0, h1, h2, h3] at h; cases h
  | some z3 =>
  simp only [h0, h1, h2, h3] at h
  by_cases hl : s.INJ.Z0.length ≠ 6
  · rw [if_pos hl] at h; cases h
  · rw [if_neg hl] at h
    have hl := not_not.1 hl
    rw [bind_eq_ok] at h
    obtain ⟨_, s2, hm, h⟩ := h
    cases h
    cases hm
    refine ⟨r, bx, by_, ords, ![z0, z1, z2, z3], hf hbx, hf hby, hf hords, ⟨s1, hr, rfl⟩, ?_, rfl, ?_, hl, ?_, ?_⟩
    · intro k
      fin_cases k
      · exact h0
      · exact h1
      · exact h2
      · exact h3
    · rw [hs1]
    · rw [hs1]; simp [hl]
    · rw [hs1]
      simp only
      match hz : s.INJ.Z0, hl with
      | [a, b, c, d, e, f], _ =>
        intro k hk
        interval_cases k <;> simp [coef]

/-- **C51** If the fit fails, for instance because the minimisation ends in a NaN, the injected beam is what it was. -/
theorem C51_failure (E : Env K) (B : BeamEnv K) (J : InjEnv K) (inds : List Nat) (s s' : SC K) (e : Err)
    (h : fitInjectionTrajectory E B J inds s = .error e s') : s' = { s with rng := s'.rng } := by
  unfold fitInjectionTrajectory at h
  rw [bind_apply, get_apply] at h; simp only at h
  rw [bind_apply] at h
  cases hr : bpmReading E B none false s with
  | error e1 s1 =>
    rw [hr] at h
    cases h
    exact ((bpmReading_onlyRng E B none false).error hr).1
  | ok r s1 =>
    rw [hr] at h; simp only at h
    suffices s' = s1 by rw [this]; exact ((bpmReading_onlyRng E B none false).ok hr).1
    have hlift : ∀ {α : Type} {x : Except Err α} {f : α → Py (SC K) (List K)} ,
      (lift x >>= f) s1 = .error e s' → s' = s1 ∨ ∃ a, x = .ok a ∧ f a s1 = .error e s' := by
      intro α x f hh
      cases x with
      | error e' => rw [bind_apply] at hh; cases hh; exact Or.inl rfl
      | ok a => exact Or.inr ⟨a, rfl, hh⟩
    rcases hlift h with rfl | ⟨bx, -, h⟩
    · rfl
    rcases hlift h with rfl | ⟨by_, -, h⟩
    · rfl
    rcases hlift h with rfl | ⟨ords, -, h⟩
    · rfl
    cases h0 : J.fmin (meritFunction B J s.IDEALRING bx by_ ords) [0, 0, 0, 0] 0 with
    | none => simp only [h0] at h; cases h; rfl
    | some z0 =>
    cases h1 : J.fmin (meritFunction B J s.IDEALRING bx by_ ords) [0, 0, 0, 0] 1 with
    | none => simp only [h0, h1] at h; cases h; rfl
    | some z1 =>
    cases h2 : J.fmin (meritFunction B J s.IDEALRING bx by_ ords) [0, 0, 0, 0] 2 with
    | none => simp only [h0, h1, h2] at h; cases h; rfl
    | some z2 =>
    cases h3 : J.fmin (meritFunction B J s.IDEALRING bx by_ ords) [0, 0, 0, 0] 3 with
    | none => simp only [h0, h1, h2, h3] at h; cases h; rfl
    | some z3 =>
    simp only [h0, h1, h2, h3] at h
    by_cases hl : s.INJ.Z0.length ≠ 6
    · rw [if_pos hl] at h; cases h; rfl
    · rw [if_neg hl] at h; cases h

/-- **C51** The quantity minimised is the modulus of the mean difference between predicted and measured positions; in
particular it is zero if they agree.

Partial: it should be zero only if they agree, which is not the case. -/
theorem C51_merit_partial [IsStrictOrderedRing K] (B : BeamEnv K) (J : InjEnv K) (hB : SqrtSound B.sqrt) (ideal : Ring K)
    (bx by_ tx ty z : List K) (ords : List Nat) (v : K) (hlx : tx.length = bx.length) (hly : ty.length = by_.length)
    (ht : J.trackOne ideal (z ++ [0, 0]) ords = (tx.map some, ty.map some))
    (h : meritFunction B J ideal (bx.map some) (by_.map some) ords z = some v) :
    v * (bx.length + by_.length : K) = |(bx.sum - tx.sum) + (by_.sum - ty.sum)| ∧ (tx = bx ∧ ty = by_ → v = 0) := by
  have hz : ∀ a b : List K, b.length = a.length → List.zipWith nanSub (a.map some) (b.map some) = (List.zipWith (· - ·) a b).map some := by
    intro a b hab
    induction a generalizing b with
    | nil => rfl
    | cons x a ih => cases b with
      | nil => simp at hab
      | cons y b => simp only [List.map_cons, List.zipWith_cons_cons, ih b (by simpa using hab)]; rfl
  have hsum : ∀ a b : List K, b.length = a.length → (List.zipWith (· - ·) a b).sum = a.sum - b.sum := by
    intro a b hab
    induction a generalizing b with
    | nil => cases b with
      | nil => simp
      | cons => simp at hab
    | cons x a ih => cases b with
      | nil => simp at hab
      | cons y b => simp only [List.zipWith_cons_cons, List.sum_cons, ih b (by simpa using hab)]; ring
  unfold meritFunction at h
  simp only [ht, Option.bind_eq_bind, Option.bind_eq_some_iff] at h
  obtain ⟨m, hm, hv⟩ := h
  rw [hz _ _ hlx, hz _ _ hly, ← List.map_append] at hm
  unfold npMean at hm
  split at hm
  · cases hm
  · rename_i hne
    have hid : ∀ l : List K, (l.map some).filterMap id = l := by intro l; rw [List.filterMap_map]; simp
    rw [hid] at hm
    cases hm
    obtain ⟨v0, v2⟩ := hB _ _ hv
    simp only [List.sum_append, hsum _ _ hlx, hsum _ _ hly, List.length_append, List.length_zipWith, hlx, hly, min_self] at v2
    have hlen : (0 : K) < (bx.length + by_.length : K) := by
      have : bx.length + by_.length ≠ 0 := by
        intro h0
        apply hne
        have h1 : bx.length = 0 := by omega
        have h2 : by_.length = 0 := by omega
        rw [List.length_eq_zero_iff] at h1 h2
        subst h1 h2
        simp
      have : 0 < bx.length + by_.length := Nat.pos_of_ne_zero this
      exact_mod_cast this
    push_cast at v2
    have hv' : v = |(bx.sum - tx.sum) + (by_.sum - ty.sum)| / (bx.length + by_.length : K) := by
      rw [← abs_of_nonneg v0]
      rw [show |bx.sum - tx.sum + (by_.sum - ty.sum)| / (bx.length + by_.length : K) =
        |(bx.sum - tx.sum + (by_.sum - ty.sum)) / (bx.length + by_.length : K)| by rw [abs_div, abs_of_pos hlen]]
      exact (sq_eq_sq_iff_abs_eq_abs _ _).1 v2
    refine ⟨by rw [hv']; exact div_mul_cancel₀ _ hlen.ne', ?_⟩
    rintro ⟨rfl, rfl⟩
    rw [hv']
    simp

/-- tracking in a drift with BPMs at 1 and 2 (ordinates), starting from position and angle -/
def Example.injection : InjEnv ℚ where
  trackOne := fun _ z ords => (ords.map (fun o => some (coef z 0 + o * coef z 1)), ords.map (fun o => some (coef z 2 + o * coef z 3)))
  fmin := fun f x => fun k => if f x = some 0 then x[k.1]? else none

/-- **C51 violated**: differences of opposite sign cancel.  With readings of 1 and −3 horizontally and 1 and 1 vertically the
merit of the beam on axis is already zero. -/
theorem C51_violated : meritFunction Example.driftBeam Example.injection [] [some 1, some (-3)] [some 1, some 1] [1, 2] [0, 0, 0, 0] = some 0 ∧
    (Example.injection.trackOne [] [0, 0, 0, 0, 0, 0] [1, 2]).1 = [some 0, some 0] ∧
    meritFunction Example.driftBeam Example.injection [] [some 1, some (-3)] [some 1, some 1] [1, 2] [5, -4, 1, 0] = some 0 ∧
    (Example.injection.trackOne [] [5, -4, 1, 0, 0, 0] [1, 2]) = ([some 1, some (-3)], [some 1, some 1]) := by
  decide +kernel

/-! ### Examples -/

/-- the beam of the second turn in a ring with BPMs close to the injection point on either side -/
def Example.passBeam : BeamEnv ℚ where
  track := fun _ Z i t => Z.map (fun _ => if t = 2 then (none, none) else (some (i + t), some (1 - t)))
  orbit := fun _ _ => (none, none)
  eig := fun _ => ([], [])
  cosSin := fun _ => (1, 0)
  sqrt := Example.qsqrt
  postFun := id

def Example.passRing (turns : Nat) : SC ℚ where
  RING := [Example.drift, Example.bpm.set "Offset" (.vec [0, 0]), Example.drift, Example.bpm.set "Offset" (.vec [0, 0]), Example.drift]
  IDEALRING := []
  INJ := { beamLostAt := 1/2, Z0ideal := [0, 0, 0, 0, 0, 0], Z0 := [0, 0, 0, 0, 0, 0], beamSize := [],
           randomInjectionZ := [0, 0, 0, 0, 0, 0], staticInjectionZ := [0, 0, 0, 0, 0, 0], nParticles := 1, nTurns := turns,
           nShots := 1, trackMode := "TBT" }
  SIG := ⟨[], [], [], [], [], [], 0⟩
  ORD := ⟨[1, 3], [], [], [], [], [], [], [], []⟩
  rng := 0

/-- last BPM at −3 reads (3, 1), the first at 3 reads (2, 0) in the second turn -/
example : (fitInjectionDrift Example.rand Example.passBeam (Example.passRing 2)).value? = some [-5/2, 1/6, -1/2, 1/6, 0, 0] ∧
    (fitInjectionDrift Example.rand Example.passBeam (Example.passRing 1)).err? = some .indexError ∧
    (bpmReading Example.rand Example.passBeam none false (Example.passRing 2)).isOk = true ∧
    (bpmReading Example.rand Example.passBeam none false (Example.passRing 2)).value?.map (fun r => r.x) =
      some [some (5/2 + -1/6 * -3 - 2), some 3, some (5/2 + -1/6 * 3), some 4] := by
  decide +kernel

example : (fitInjectionTrajectory Example.rand Example.passBeam Example.injection [0, 1] (Example.passRing 2)).err? = some .runtimeError ∧
    (fitInjectionTrajectory Example.rand Example.passBeam { Example.injection with fmin := fun _ _ => ![some 1, none, some 3, some 4] } [0, 1]
      (Example.passRing 2)).err? = some .runtimeError ∧
    (fitInjectionTrajectory Example.rand Example.passBeam { Example.injection with fmin := fun _ _ => ![some 1, some 2, some 3, some 4] } [0, 1]
      (Example.passRing 2)).value? = some [-1, -2, -3, -4, 0, 0] := by
  decide +kernel

end PySC
