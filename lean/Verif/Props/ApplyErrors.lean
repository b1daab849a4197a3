import Verif.Lemmas.SupportErrors
import Verif.Props.Supports
/-
C20 (truncation), C21 (injection errors), C22 (circumference), C24 (applying errors again).
-/
namespace PySC
open Py Spec
set_option linter.unusedSectionVars false
variable {K : Type} [Field K] [LinearOrder K] [IsStrictOrderedRing K]

/-! ### C20 -/

/-- **C20**: `randnc(cut_off, shape)` returns as many values as requested, none beyond the cut-off, and they are different
draws of the generator which are not used again afterwards. -/
theorem C20_randnc (E : Env K) (cut_off : K) (n : Nat) (s s' : SC K) (l : List K) (h : randnc E cut_off n s = .ok l s') :
    l.length = n ∧ (∀ x ∈ l, |x| ≤ |cut_off|) ∧
    (∃ draws : List Nat, l = draws.map E.randn ∧ draws.Nodup ∧ ∀ d ∈ draws, s.rng ≤ d ∧ d < s'.rng) ∧
    s' = { s with rng := s'.rng } := by
  obtain ⟨pos, h1, rfl⟩ := randnc_eq_ok.1 h
  obtain ⟨g1, g2, -, qs, g3, g4, g5⟩ := randncFrom_eq_ok h1
  exact ⟨g2, g1, ⟨qs, g3, g4, g5⟩, rfl⟩

/-- **C20**: `randnc` comes to an end if the generator never stops producing values within the cut-off: then a number of
passes suffices, and more passes than needed do not change the result. -/
theorem C20_randnc_terminates (randn : Nat → K) (cut_off : K) (n : Nat) (pos : Nat)
    (hgood : ∀ k, ∃ j, k ≤ j ∧ |randn j| ≤ |cut_off|) :
    ∃ passes r, ∀ E : Env K, E.randn = randn → passes ≤ E.fuel → randncFrom E cut_off n pos = .ok r := by
  obtain ⟨f, r, h⟩ := resample_terminates hgood ((List.range n).map (fun k => randn (pos + k))) (pos + n)
  refine ⟨f, r, fun E he hf => ?_⟩
  unfold randncFrom
  rw [he]
  exact resample_mono hf h

/-- **C20**: with `cut_off = 0` and a generator which never returns exactly 0, `randnc` does not come to an end. -/
theorem C20_randnc_zero_cutoff (E : Env K) (n pos : Nat) (hn : 0 < n) (hr : ∀ k, E.randn k ≠ 0) :
    randncFrom E 0 n pos = .error .outOfFuel := by
  have hbad : ∀ k, |(0 : K)| < |E.randn k| := fun k => by simpa using hr k
  refine resample_diverges hbad _ _ _ (fun h0 => ?_)
  have hall := all_iff_nOut.2 h0
  rw [List.all_eq_true] at hall
  have := hall (E.randn (pos + 0)) (List.mem_map.2 ⟨0, List.mem_range.2 hn, rfl⟩)
  exact absurd (of_decide_eq_true this) (not_le.2 (hbad _))

section errors
variable [FloorRing K]

/-- the attribute which holds the error of a magnet -/
def magnetErrorAttr (name : String) : String := if name = "BendingAngle" then "BendingAngleError" else name

/-- **C20**: after `apply_errors` every registered uncertainty of cavities, BPMs and magnets has led to an error within its
cut-off (`nsigmas` unless registered with its own); the BPM noise amplitudes are stored as registered. -/
theorem C20_errors_truncated (E : Env K) (nsigmas : K) (s s' : SC K) (hw : WellRegistered s.SIG)
    (h : applyErrors E nsigmas s = .ok () s') :
    ErrorsStored s'.RING s.ORD.RF s.SIG.RF [] id nsigmas ∧
    ErrorsStored s'.RING s.ORD.BPM s.SIG.BPM ["Noise", "NoiseCO"] id nsigmas ∧
    ErrorsStored s'.RING s.ORD.Magnet s.SIG.Magnet [] magnetErrorAttr nsigmas :=
  applyErrors_stored hw h

/-- **C20**: errors are given to nothing else: an attribute for which no uncertainty is registered is changed only if it is a
length, an end of a support, or derived from errors and set-points (alignment, multipoles, cavity fields). -/
theorem C20_nothing_else (E : Env K) (nsigmas : K) (s : SC K) (hw : WellRegistered s.SIG) (i : Nat) (a : String)
    (hrf : ¬ (i ∈ s.ORD.RF ∧ (sigma s.SIG.RF i a).isSome)) (hbpm : ¬ (i ∈ s.ORD.BPM ∧ (sigma s.SIG.BPM i a).isSome))
    (hmag : ¬ (i ∈ s.ORD.Magnet ∧ ∃ name, (sigma s.SIG.Magnet i name).isSome ∧ magnetErrorAttr name = a))
    (hsup : a ∈ supportErrors → ∀ p ∈ s.ORD.Girder ++ s.ORD.Plinth ++ s.ORD.Section, i ≠ p.1 ∧ i ≠ p.2)
    (hder : a ∉ ["Length", "SupportOffset", "SupportRoll", "T1", "T2", "R1", "R2", "PolynomA", "PolynomB", "KickAngle",
      "MaxOrder", "Voltage", "Frequency", "TimeLag"]) :
    (applyErrors E nsigmas s).state.RING.attr i a = s.RING.attr i a := by
  refine (applyErrors_frame hw).attr i a ?_
  simp only [List.mem_cons, List.not_mem_nil, or_false, not_or] at hder
  obtain ⟨d1, d2, d3, d4, d5, d6, d7, d8, d9, d10, d11, d12, d13, d14⟩ := hder
  rintro (⟨h1, n, v, hv, rfl⟩ | ⟨h1, n, v, hv, rfl⟩ | ⟨h1, n, v, hv, rfl⟩ | h | ⟨tp, htp, h⟩ | h | h | h)
  · exact hrf ⟨h1, by rw [show sigma _ _ _ = _ from hv]; rfl⟩
  · exact hbpm ⟨h1, by rw [show sigma _ _ _ = _ from hv]; rfl⟩
  · exact hmag ⟨h1, n, by rw [hv]; rfl, rfl⟩
  · exact d1 h
  · have hn := supportDrawn_name (o := s.ORD) (i := i) ⟨tp, htp, h⟩
    have hp : tp.2 ∈ s.ORD.Girder ++ s.ORD.Plinth ++ s.ORD.Section := by
      obtain ⟨t1, t2⟩ := typedPairs_type htp
      simp only [supportTypes, List.mem_cons, List.not_mem_nil, or_false] at t1
      simp only [List.mem_append]
      rcases t1 with t1 | t1 | t1 <;> rw [t1] at t2
      · exact Or.inr t2
      · exact Or.inl (Or.inr t2)
      · exact Or.inl (Or.inl t2)
    have := hsup hn tp.2 hp
    rcases h.1 with h | h
    · exact this.1 h
    · exact this.2 h
  · simp [supportWrites] at h; tauto
  · simp [magnetWrites] at h; tauto
  · simp [rfProperties] at h; tauto

/-- the hypothesis `WellRegistered` holds for everything that was registered on a new object -/
example : WellRegistered Example.lab.SIG ∧ applyErrors Example.env 2 Example.lab = .ok () Example.misaligned ∧
    sigma Example.lab.SIG.Magnet 3 "CalErrorB" = some (.vec [1/10]) ∧
    Example.misaligned.RING.attr 3 "CalErrorB" = some (.vec [1/20]) :=
  ⟨C03_only_uncertainties_stored _ _ _, Example.misaligned_ok, by decide +kernel, by decide +kernel⟩

/-! ### C21 -/

/-- **C21** -/
theorem C21_injection_errors (E : Env K) (nsigmas : K) (s s' : SC K) (hw : WellRegistered s.SIG)
    (h6 : s.SIG.staticInjectionZ.length = 6) (h : applyErrors E nsigmas s = .ok () s') :
    (∀ k, |coef s'.INJ.Z0 k - coef s.INJ.Z0ideal k| ≤ |nsigmas| * |coef s.SIG.staticInjectionZ k|) ∧
    s'.INJ.Z0.length = s.INJ.Z0ideal.length ∧
    s'.INJ.randomInjectionZ = s.SIG.randomInjectionZ ∧ s'.INJ.Z0ideal = s.INJ.Z0ideal ∧
    s'.INJ.trackMode = s.INJ.trackMode ∧ s'.INJ.nTurns = s.INJ.nTurns ∧ s'.INJ.nShots = s.INJ.nShots ∧
    s'.INJ.nParticles = s.INJ.nParticles ∧ s'.INJ.beamSize = s.INJ.beamSize ∧ s'.INJ.beamLostAt = s.INJ.beamLostAt := by
  obtain ⟨z0, h1, h2, h3⟩ := applyErrors_injection hw h6 h
  rw [h1]
  exact ⟨h3, h2, rfl, rfl, rfl, rfl, rfl, rfl, rfl, rfl⟩

/-! ### C22 -/

/-- **C22**: the new circumference, reached by scaling all drifts by a common factor and changing nothing else -/
theorem C22_scale_circumference (r : Ring K) (c : K) (mode : String) (hm : mode = "abs" ∨ mode = "rel") (hd : driftLength r ≠ 0) :
    ∃ r' factor, scaleCircumference r c mode = .ok r' ∧ r'.length = r.length ∧
      (∀ i < r.length, ∀ a, r'.attr i a =
        if a = "Length" ∧ DriftAt r i then some (.num (factor * numAt r i "Length")) else r.attr i a) ∧
      circumference r' = if mode = "rel" then c * circumference r else c :=
  scaleCircumference_spec (by rcases hm with rfl | rfl <;> simp) hd

/-- **C22**: any other mode is rejected -/
theorem C22_unknown_mode (r : Ring K) (c : K) (mode : String) (h1 : mode ≠ "abs") (h2 : mode ≠ "rel") :
    scaleCircumference r c mode = .error .valueError := by
  unfold scaleCircumference
  rw [if_pos (by simp [h1, h2])]

/-- **C22**: `apply_errors` changes the circumference by at most `nsigmas` times the relative uncertainty. -/
theorem C22_circumference_error (E : Env K) (nsigmas : K) (s s' : SC K) (hw : WellRegistered s.SIG)
    (h : applyErrors E nsigmas s = .ok () s') :
    |circumference s'.RING - circumference s.RING| ≤ |nsigmas| * |s.SIG.Circumference| * |circumference s.RING| := by
  obtain ⟨z, hz, hc⟩ := applyErrors_circumference hw h
  rcases hc with ⟨-, hc⟩ | ⟨-, hc⟩
  · rw [hc]
    have : (1 + s.SIG.Circumference * z) * circumference s.RING - circumference s.RING =
        z * s.SIG.Circumference * circumference s.RING := by ring
    rw [this, abs_mul, abs_mul]
    exact mul_le_mul_of_nonneg_right (mul_le_mul_of_nonneg_right hz (abs_nonneg _)) (abs_nonneg _)
  · rw [hc, sub_self, abs_zero]
    exact mul_nonneg (mul_nonneg (abs_nonneg _) (abs_nonneg _)) (abs_nonneg _)

example : driftLength Example.rawRing = 3 ∧ circumference Example.rawRing = 11/2 ∧
    ((scaleCircumference Example.rawRing 2 "rel").toOption.map (fun r => (circumference r, numAt r 6 "Length", numAt r 3 "Length")))
      = some (11, 17/2, 2) := by decide +kernel

/-! ### C24 -/

/-- several calls of `apply_errors` -/
def applyTimes (E : Env K) : List K → Py (SC K) Unit
  | [] => Py.pure ()
  | n :: ns => do
    applyErrors E n
    applyTimes E ns

/-- **C24**, what holds: however often errors are applied, the errors of cavities, BPMs, magnets and of the injected beam
obey the bounds of the last call. -/
theorem C24_errors_replaced_partial (E : Env K) (earlier : List K) (nsigmas : K) (s s' : SC K) (hw : WellRegistered s.SIG)
    (h6 : s.SIG.staticInjectionZ.length = 6) (h : applyTimes E (earlier ++ [nsigmas]) s = .ok () s') :
    ErrorsStored s'.RING s.ORD.RF s.SIG.RF [] id nsigmas ∧
    ErrorsStored s'.RING s.ORD.BPM s.SIG.BPM ["Noise", "NoiseCO"] id nsigmas ∧
    ErrorsStored s'.RING s.ORD.Magnet s.SIG.Magnet [] magnetErrorAttr nsigmas ∧
    (∀ k, |coef s'.INJ.Z0 k - coef s.INJ.Z0ideal k| ≤ |nsigmas| * |coef s.SIG.staticInjectionZ k|) ∧
    s'.INJ.Z0ideal = s.INJ.Z0ideal := by
  induction earlier generalizing s with
  | nil =>
    simp only [List.nil_append, applyTimes, bind_eq_ok] at h
    obtain ⟨⟨⟩, s1, h1, h2⟩ := h
    cases h2
    obtain ⟨a, b, c⟩ := C20_errors_truncated E nsigmas s s' hw h1
    obtain ⟨d, -, -, e, -⟩ := C21_injection_errors E nsigmas s s' hw h6 h1
    exact ⟨a, b, c, d, e⟩
  | cons n ns ih =>
    simp only [List.cons_append, applyTimes, bind_eq_ok] at h
    obtain ⟨⟨⟩, s1, h1, h2⟩ := h
    have fr := applyErrors_frame (E := E) (n := n) hw
    rw [h1] at fr
    simp only [Res.state] at fr
    obtain ⟨z0, j, hinj⟩ := fr.inj
    have := ih s1 (fr.sig ▸ hw) (by rw [fr.sig]; exact h6) h2
    rw [fr.sig, fr.ord, hinj] at this
    exact this

/-- **C24 is violated**: a girder with offset uncertainties for both ends makes the second call raise. -/
theorem C24_violated_raises : ∃ (s s1 s2 : SC ℚ), WellRegistered s.SIG ∧ s.ORD.Girder = [(0, 2)] ∧
    applyErrors Example.env 2 s = .ok () s1 ∧ applyErrors Example.env 2 s1 = .error .exception s2 := by
  refine ⟨Example.girder [("Offset", .mat [[1, 1, 1], [1, 1, 1]])], _,
    (applyErrors Example.env 2 (applyErrors Example.env 2 (Example.girder [("Offset", .mat [[1, 1, 1], [1, 1, 1]])])).state).state,
    C03_only_uncertainties_stored _ _ _, by decide +kernel, ok_of_isOk (by decide +kernel), ?_⟩
  have : (applyErrors Example.env 2 (applyErrors Example.env 2 (Example.girder [("Offset", .mat [[1, 1, 1], [1, 1, 1]])])).state).err?
      = some .exception := by decide +kernel
  generalize applyErrors Example.env 2 (applyErrors Example.env 2 (Example.girder [("Offset", .mat [[1, 1, 1], [1, 1, 1]])])).state = res at this
  cases res with
  | ok a t => cases this
  | error e t => cases this; rfl

/-- **C24 is violated**: the offsets of a girder with a roll uncertainty only accumulate: with every call the same tilt is
drawn, but the end is displaced twice as much after two calls. -/
theorem C24_violated_accumulates : ∃ (E : Env ℚ) (s s1 s2 : SC ℚ), WellRegistered s.SIG ∧ s.ORD.Girder = [(0, 2)] ∧
    applyErrors E 2 s = .ok () s1 ∧ applyErrors E 2 s1 = .ok () s2 ∧
    coef (vecAt s1.RING 0 "GirderRoll") 1 = coef (vecAt s2.RING 0 "GirderRoll") 1 ∧
    coef (vecAt s1.RING 2 "GirderOffset") 1 = 3/2 ∧ coef (vecAt s2.RING 2 "GirderOffset") 1 = 3 :=
  ⟨{ Example.env with randn := fun _ => 1 }, Example.girder [("Roll", .vec [0, 1, 0])], _, _, C03_only_uncertainties_stored _ _ _,
    by decide +kernel, ok_of_isOk (by decide +kernel), ok_of_isOk (by decide +kernel), by decide +kernel, by decide +kernel,
    by decide +kernel⟩

/-- **C24 is violated**: the circumference error accumulates beyond its cut-off. -/
theorem C24_violated_circumference : ∃ (E : Env ℚ) (s s1 s2 : SC ℚ), s.SIG.Circumference = 1/10 ∧
    applyErrors E 2 s = .ok () s1 ∧ applyErrors E 2 s1 = .ok () s2 ∧
    ¬ |circumference s2.RING - circumference s.RING| ≤ 2 * s.SIG.Circumference * circumference s.RING :=
  ⟨{ Example.env with randn := fun _ => 3/2 }, { Example.girder [] with SIG := { (Example.girder []).SIG with Circumference := 1/10 } }, _, _,
    by decide +kernel, ok_of_isOk (by decide +kernel), ok_of_isOk (by decide +kernel), by decide +kernel⟩

example : (applyTimes Example.env [1, 2] (registrations [.bpms [0] [("Offset", .vec [1, 1])], .cavities [4] [("VoltageOffset", .num 5)],
    .magnets [2, 3] [("CalErrorB", .vec [1/10]), ("MagnetOffset", .vec [1, 1, 0])]] Example.raw)).isOk = true := by decide +kernel

end errors
end PySC
