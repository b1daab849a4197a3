import Verif.Lemmas.PlotStrengths
import Verif.Lemmas.PlotSupport
import Verif.Lemmas.ResponseMeasure
import Verif.Lemmas.RequestsSet
import Verif.Lemmas.ApplicableSupports
import Verif.Props.Correctors
import Verif.Props.Requests
/-
C120: the figure of corrector strengths.
-/
namespace PySC
set_option linter.unusedSectionVars false
variable {K : Type} [Field K] [LinearOrder K] [IsStrictOrderedRing K] [FloorRing K]
open Py Spec

theorem plotStrengths1_ok {ords : List Nat} {skew : Bool} {s t : SC K} {bars curve : List (K × K)}
    (h : plotStrengths1 ords skew s = .ok (bars, curve) t) :
    t = s ∧ bars = ords.map (fun o => (sPos s.RING o, 10 ^ 6 * kick s.RING o skew)) ∧
      distributionCurve (ords.map (fun o => 10 ^ 6 * kick s.RING o skew)) = .ok curve := by
  unfold plotStrengths1 at h
  obtain ⟨vals, s1, h1, g1⟩ := bind_eq_ok.1 h
  rw [getCMSetpoints, rd_eq_ok] at h1
  obtain ⟨h1, e1⟩ := h1
  subst s1
  have hv := mapM_except_map (g := fun o => kick s.RING o skew) (fun o _ y hy => getCM1_eq_ok hy) h1
  obtain ⟨c, h2, g2⟩ := bindLift_eq_ok.1 g1
  obtain ⟨s2, s3, h3, g3⟩ := bind_eq_ok.1 g2
  have e2 : s2 = s ∧ s3 = s := by cases h3; exact ⟨rfl, rfl⟩
  rw [e2.1, e2.2] at g3
  obtain ⟨pos, h4, g4⟩ := bindLift_eq_ok.1 g3
  have hp := mapM_except_map (g := fun o => sPos s.RING o) (fun o _ y hy => (idx_findspos_ok hy).2) h4
  cases g4
  refine ⟨rfl, ?_, ?_⟩
  · rw [hp, hv, List.map_map, List.zip_map']; rfl
  · rw [← h2, hv, List.map_map]; rfl

theorem plotStrengths_ok {s t : SC K} {h v : List (K × K) × List (K × K)} (hp : plotStrengths s = .ok (h, v) t) :
    plotStrengths1 s.ORD.HCM false s = .ok h s ∧ plotStrengths1 s.ORD.VCM true s = .ok v s ∧ t = s := by
  unfold plotStrengths at hp
  obtain ⟨s0, s1, h0, g0⟩ := bind_eq_ok.1 hp
  have e0 : s0 = s ∧ s1 = s := by cases h0; exact ⟨rfl, rfl⟩
  rw [e0.1, e0.2] at g0
  obtain ⟨⟨b1, c1⟩, s2, h1, g1⟩ := bind_eq_ok.1 g0
  have e1 := (plotStrengths1_ok h1).1
  subst s2
  obtain ⟨⟨b2, c2⟩, s3, h2, g2⟩ := bind_eq_ok.1 g1
  have e2 := (plotStrengths1_ok h2).1
  subst s3
  cases g2
  exact ⟨h1, h2, rfl⟩

/-- **C120** (the bars) Plotting the corrector strengths changes nothing; in each plane there is one bar for each
registered corrector, at the position of the corrector along the ring, whose height is the kick of the corrector in
microradians. -/
theorem C120_bars (s t : SC K) (h v : List (K × K) × List (K × K)) (hp : plotStrengths s = .ok (h, v) t) :
    t = s ∧ h.1 = s.ORD.HCM.map (fun o => (sPos s.RING o, 10 ^ 6 * kick s.RING o false)) ∧
      v.1 = s.ORD.VCM.map (fun o => (sPos s.RING o, 10 ^ 6 * kick s.RING o true)) := by
  obtain ⟨h1, h2, rfl⟩ := plotStrengths_ok hp
  exact ⟨rfl, (plotStrengths1_ok h1).2.1, (plotStrengths1_ok h2).2.1⟩

theorem distributionCurve_shows {v : List K} {pts : List (K × K)} (h : distributionCurve v = .ok pts) : ShowsDistribution v pts := by
  obtain ⟨lo, hi, h1, h2, h3, h4, h5⟩ := distributionCurve_eq h
  have hlen : (v.length : K) ≠ 0 := by exact_mod_cast h3.ne'
  have hpos : (0 : K) < v.length := by exact_mod_cast h3
  refine ⟨h4, h3, fun j p q hp hq => ?_, fun p hp => ?_⟩
  · have hj : j + 1 < v.length := by rw [← h4]; exact (List.getElem?_eq_some_iff.1 hq).1
    rw [h5 j (by omega)] at hp
    rw [h5 (j + 1) hj] at hq
    obtain rfl := Option.some.inj hp
    obtain rfl := Option.some.inj hq
    refine ⟨binEdge_step h3 h1 _, ?_, ?_⟩
    · simp only [fractionBelow]
      rw [sum_binCount h3 h1 (fun y hy => (h2 y hy).1) _ hj]
    · refine div_le_div_of_nonneg_right ?_ hpos.le
      rw [List.range_succ (n := j + 1), List.map_append, List.sum_append]
      exact_mod_cast Nat.le_add_right _ _
  · rw [h5 _ (by omega)] at hp
    obtain rfl := Option.some.inj hp
    have e : v.length - 1 + 1 = v.length := by omega
    simp only [e]
    rw [sum_binCount_all h3 h1 h2, binEdge_last h3]
    refine ⟨div_self hlen, ?_⟩
    unfold fractionUpTo
    rw [List.countP_eq_length.2 (fun y hy => by simpa using (h2 y hy).2), div_self hlen]

/-- **C120** (the distribution) The curve of each plane shows the distribution of the kicks of that plane in
microradians. -/
theorem C120_distribution (s t : SC K) (h v : List (K × K) × List (K × K)) (hp : plotStrengths s = .ok (h, v) t) :
    ShowsDistribution (s.ORD.HCM.map (fun o => 10 ^ 6 * kick s.RING o false)) h.2 ∧
      ShowsDistribution (s.ORD.VCM.map (fun o => 10 ^ 6 * kick s.RING o true)) v.2 := by
  obtain ⟨h1, h2, -⟩ := plotStrengths_ok hp
  exact ⟨distributionCurve_shows (plotStrengths1_ok h1).2.2, distributionCurve_shows (plotStrengths1_ok h2).2.2⟩

theorem plotStrengths1_drawn {s : SC K} {l : List Nat} {sk : Bool} (hl : l ≠ []) (hr : ∀ o ∈ l, CorrectorReady s.RING o sk) :
    ∃ f, plotStrengths1 l sk s = .ok f s := by
  obtain ⟨w, hw, hlen⟩ := getCM_total hr
  have hw0 : w ≠ [] := by rintro rfl; exact hl (List.length_eq_zero_iff.1 hlen.symm)
  obtain ⟨c, hc⟩ : ∃ c, distributionCurve (w.map (fun x => 10 ^ 6 * x)) = .ok c := by
    cases w with
    | nil => exact absurd rfl hw0
    | cons x w => exact ⟨_, rfl⟩
  obtain ⟨p, hp⟩ : ∃ p, l.mapM (idx (findspos s.RING)) = .ok p :=
    mapM_except_total (fun o ho => ⟨_, idx_findspos (hr o ho).magnet.self.inRing.le⟩)
  refine ⟨(p.zip (w.map (fun x => 10 ^ 6 * x)), c), ?_⟩
  unfold plotStrengths1
  exact bind_eq_ok.2 ⟨w, s, hw, bindLift_eq_ok.2 ⟨c, hc, bind_eq_ok.2 ⟨s, s, rfl, bindLift_eq_ok.2 ⟨p, hp, rfl⟩⟩⟩⟩

/-- **C120** (when there is a figure) With correctors in both planes, all of them elements of the ring with set-points,
the figure is drawn. -/
theorem C120_drawn_partial (s : SC K) (hh : s.ORD.HCM ≠ []) (hv : s.ORD.VCM ≠ [])
    (h : ∀ o ∈ s.ORD.HCM, CorrectorReady s.RING o false) (v : ∀ o ∈ s.ORD.VCM, CorrectorReady s.RING o true) :
    ∃ f, plotStrengths s = .ok f s := by
  obtain ⟨f, hf⟩ := plotStrengths1_drawn hh h
  obtain ⟨g, hg⟩ := plotStrengths1_drawn hv v
  refine ⟨(f, g), ?_⟩
  unfold plotStrengths
  exact bind_eq_ok.2 ⟨s, s, rfl, bind_eq_ok.2 ⟨f, s, hf, bind_eq_ok.2 ⟨g, s, hg, rfl⟩⟩⟩

/-- **C120** (violated) A ring with correctors in only one plane has no figure: there is a `ValueError` although reading
the strengths of both planes succeeds. -/
theorem C120_violated (s : SC K) (hh : s.ORD.HCM ≠ []) (hv : s.ORD.VCM = []) (h : ∀ o ∈ s.ORD.HCM, CorrectorReady s.RING o false) :
    (∃ w, getCMSetpoints s.ORD.HCM false s = .ok w s) ∧ getCMSetpoints s.ORD.VCM true s = .ok [] s ∧
      plotStrengths s = .error .valueError s := by
  have hg : getCMSetpoints ([] : List Nat) true s = .ok [] s := rd_apply_ok rfl
  obtain ⟨w, hw, -⟩ := getCM_total h
  obtain ⟨f, hf⟩ := plotStrengths1_drawn hh h
  refine ⟨⟨w, hw⟩, by rw [hv]; exact hg, ?_⟩
  have hbad : plotStrengths1 ([] : List Nat) true s = .error .valueError s := by
    unfold plotStrengths1
    exact bind_eq_error.2 (Or.inr ⟨[], s, hg, bind_eq_error.2 (Or.inl rfl)⟩)
  unfold plotStrengths
  exact bind_eq_error.2 (Or.inr ⟨s, s, rfl, bind_eq_error.2 (Or.inr ⟨f, s, hf, bind_eq_error.2 (Or.inl (by rw [hv]; exact hbad))⟩)⟩)

/-! ### examples -/

/-- three horizontal correctors with kicks of 2000, -1000 and 1000 microradians -/
def Example.strengths : SC ℚ := (setCMSetpoints [1, 2, 4] ⟨false, [1/200, -1/1000, 1/1000]⟩ false "abs" Example.sc).state

example : (plotStrengths Example.strengths).value? = some
    (([(0, 2000), (0, -1000), (1, 1000)], [(0, 1/3), (1000, 1/3), (2000, 1)]), [(0, 0), (0, 0)], [(0, 0), (1/2, 1)]) := by decide +kernel
example : fractionBelow ([2000, -1000, 1000] : List ℚ) 1000 = 1/3 ∧ fractionUpTo ([2000, -1000, 1000] : List ℚ) 1000 = 2/3 := by decide +kernel

/-- the combined function magnet of `Example.ready` as corrector -/
theorem Example.ready_corrector (sk : Bool) : CorrectorReady Example.ready.RING 3 sk :=
  ⟨Example.ready_dipole, Or.inr ⟨⟨2, by decide +kernel, by decide +kernel⟩, by decide +kernel⟩, Or.inl (by decide +kernel)⟩

example : ∃ f, plotStrengths { Example.ready with ORD := { Example.ready.ORD with HCM := [3], VCM := [3] } } =
    .ok f { Example.ready with ORD := { Example.ready.ORD with HCM := [3], VCM := [3] } } :=
  C120_drawn_partial _ (by simp) (by simp) (by intro o ho; obtain rfl := List.mem_singleton.1 ho; exact Example.ready_corrector _)
    (by intro o ho; obtain rfl := List.mem_singleton.1 ho; exact Example.ready_corrector _)

example : plotStrengths { Example.ready with ORD := { Example.ready.ORD with HCM := [3], VCM := [] } } =
    .error .valueError { Example.ready with ORD := { Example.ready.ORD with HCM := [3], VCM := [] } } :=
  (C120_violated _ (by simp) rfl (by intro o ho; obtain rfl := List.mem_singleton.1 ho; exact Example.ready_corrector _)).2.2

end PySC
