import Verif.Lemmas.SameLaw
/-
C111: the law of the errors is a matter of the uncertainties only.
-/
namespace PySC
open Py Spec MeasureTheory ProbabilityTheory
set_option linter.unusedSectionVars false
variable {Ω : Type} [MeasurableSpace Ω] {P : Measure Ω} [IsProbabilityMeasure P]
variable {Ω' : Type} [MeasurableSpace Ω'] {P' : Measure Ω'} [IsProbabilityMeasure P']

/-- **C111**: the joint law of all errors which `apply_errors` gives to cavities, BPMs, magnets, the injected trajectory and the circumference is
determined by the uncertainties.  Two machines in which the same uncertainties are registered have equally distributed errors, even if their rings,
their previous histories, the orders in which the uncertainties were registered and the generators of random numbers are different. -/
theorem C111_same_law (E E' : Env ℝ) {X : ℕ → Ω → ℝ} {Y : ℕ → Ω' → ℝ} (hX : StandardNormal P X) (hY : StandardNormal P' Y) (nsigmas : ℝ) (s t : SC ℝ)
    (hs : Tidy s.ORD) (ht : Tidy t.ORD) (has : Applicable nsigmas s) (hat : Applicable nsigmas t) (hss : Scalable s) (hst : Scalable t)
    (hU : ∀ x, uncertaintyOf s x = uncertaintyOf t x) (e : Cause → ℕ → Ω → ℝ) (e' : Cause → ℕ → Ω' → ℝ) (he : ErrorsOf P E X nsigmas s e)
    (he' : ErrorsOf P' E' Y nsigmas t e') :
    P.map (fun ω (c : Component s) => e c.1.1 c.1.2 ω) = P'.map (fun ω (c : Component s) => e' c.1.1 c.1.2 ω) :=
  errors_joint E E' hX hY hs ht has hat hss hst (funext hU) he he'

/-- **C111**: there are such random variables for every machine in order, and their joint law is a probability. -/
theorem C111_errors_are_random_variables (E : Env ℝ) {X : ℕ → Ω → ℝ} (hX : StandardNormal P X)
    (hT : ∀ len theta dx dy dz pitch yaw roll, ∃ T, E.transform len theta [dx, dy, dz] [pitch, yaw, roll] = .ok T)
    (nsigmas : ℝ) (s : SC ℝ) (ht : Tidy s.ORD) (h : Applicable nsigmas s) (hs : Scalable s) :
    ∃ e : Cause → ℕ → Ω → ℝ, ErrorsOf P E X nsigmas s e ∧ (∀ c : Component s, Measurable (e c.1.1 c.1.2)) ∧
      IsProbabilityMeasure (P.map (fun ω (c : Component s) => e c.1.1 c.1.2 ω)) := by
  obtain ⟨Z, h1, h2⟩ := C96_machines_in_order E hX hT nsigmas s ht h
  have hm : ∀ c : Component s, Measurable (fun ω => sizeOf s c.1.1 c.1.2 * Z c.1.1 c.1.2 ω) := fun c => (h1.measurable c).const_mul _
  refine ⟨fun x k ω => sizeOf s x k * Z x k ω, ?_, hm, Measure.isProbabilityMeasure_map (measurable_pi_iff.2 hm).aemeasurable⟩
  filter_upwards [h2] with ω hω
  obtain ⟨p, t, hp, hz⟩ := hω
  exact ⟨p, t, hp, fun c => (errorOf_eq h.injection.1 hs hz c).symm⟩

/-- **C111**: each error has the law of its uncertainty times a truncated standard normal number, and different errors are independent. -/
theorem C111_law (E : Env ℝ) {X : ℕ → Ω → ℝ} (hX : StandardNormal P X) (nsigmas : ℝ) (s : SC ℝ) (ht : Tidy s.ORD) (h : Applicable nsigmas s)
    (hs : Scalable s) (e : Cause → ℕ → Ω → ℝ) (he : ErrorsOf P E X nsigmas s e) :
    iIndepFun (fun c : Component s => e c.1.1 c.1.2) P ∧ ∀ (c : Component s) (sig : Attr ℝ), uncertaintyOf s c.1.1 = some sig →
      P.map (e c.1.1 c.1.2) = (truncatedNormal (cutoffFor nsigmas sig)).map (fun z => sizeOfPart sig c.1.2 * z) := by
  obtain ⟨Z, h1, h2⟩ := errors_are E hX ht h hs he
  have hc : ∀ c : Component s, e c.1.1 c.1.2 =ᵐ[P] fun ω => sizeOf s c.1.1 c.1.2 * Z c.1.1 c.1.2 ω := by
    intro c
    filter_upwards [h2] with ω hω using congrFun hω c
  refine ⟨?_, fun c sig hu => ?_⟩
  · have := h1.independent.comp (fun c z => sizeOf s c.1.1 c.1.2 * z) (fun c => measurable_const_mul _)
    exact this.congr (fun c => (hc c).symm)
  · have e1 : sizeOf s c.1.1 c.1.2 = sizeOfPart sig c.1.2 := by unfold sizeOf; rw [hu]
    have e2 : cutoffOf nsigmas s c.1.1 = cutoffFor nsigmas sig := by unfold cutoffOf; rw [hu]
    rw [Measure.map_congr (hc c), ← e2, ← h1.law c, Measure.map_map (measurable_const_mul _) (h1.measurable c), e1]
    rfl

/-! ### the order of keywords -/

/-- **C111**: the order of the keywords in calls of the registration methods has no influence on the law of the errors, although it has an influence on
the errors which result from a given seed (`C111_seed`). -/
theorem C111_keyword_order (E E' : Env ℝ) {X : ℕ → Ω → ℝ} {Y : ℕ → Ω' → ℝ} (hX : StandardNormal P X) (hY : StandardNormal P' Y) (nsigmas : ℝ)
    (s0 s t : SC ℝ) (calls calls' : List (RegCall ℝ)) (hc : List.Forall₂ SameCall calls calls') (h : registerAll calls s0 = .ok () s)
    (h' : registerAll calls' s0 = .ok () t) (hs : Tidy s.ORD) (ht : Tidy t.ORD) (has : Applicable nsigmas s) (hat : Applicable nsigmas t)
    (hss : Scalable s) (hst : Scalable t) (e : Cause → ℕ → Ω → ℝ) (e' : Cause → ℕ → Ω' → ℝ) (he : ErrorsOf P E X nsigmas s e)
    (he' : ErrorsOf P' E' Y nsigmas t e') :
    P.map (fun ω (c : Component s) => e c.1.1 c.1.2 ω) = P'.map (fun ω (c : Component s) => e' c.1.1 c.1.2 ω) :=
  C111_same_law E E' hX hY nsigmas s t hs ht has hat hss hst
    (sameCalls_sigLike hc ⟨rfl, rfl, rfl, fun _ _ => rfl, fun _ _ => rfl, fun _ _ => rfl, rfl, rfl⟩ h h').uncertainties e e' he he'

/-- **C111** is about laws: for a given seed the errors do depend on the order of the keywords. -/
theorem C111_seed : ∃ s t : SC ℚ, registerAll [.bpms [0] [("Roll", .num 1), ("SumError", .num 1)]] Example.raw = .ok () s ∧
    registerAll [.bpms [0] [("SumError", .num 1), ("Roll", .num 1)]] Example.raw = .ok () t ∧
    (applyErrors Example.env 2 s).isOk = true ∧ (applyErrors Example.env 2 t).isOk = true ∧
    (applyErrors Example.env 2 s).state.RING.attr 0 "Roll" = some (.num (1/2)) ∧
    (applyErrors Example.env 2 t).state.RING.attr 0 "Roll" = some (.num (-1/3)) := by
  exact ⟨_, _, ok_of_isOk (by decide +kernel), ok_of_isOk (by decide +kernel), by decide +kernel, by decide +kernel, by decide +kernel, by decide +kernel⟩

/-! ### a machine -/

/-- the ring of `Example.twoMonitors` before its BPMs are registered -/
noncomputable def Example.twoMonitorsRaw : SC ℝ := { Example.twoMonitors with
  SIG := { Example.twoMonitors.SIG with BPM := [] }, ORD := ⟨[], [], [], [], [], [], [], [], []⟩ }

/-- the BPMs one after the other -/
noncomputable def Example.monitorCalls : List (RegCall ℝ) :=
  [.bpms [0] [("Offset", .pair (.vec [3, 4]) 1), ("Noise", .vec [1, 1])], .bpms [2] [("Roll", .num 2)]]

theorem Example.monitorCalls_sig : (registrations Example.monitorCalls Example.twoMonitorsRaw).SIG = Example.twoMonitors.SIG := rfl

theorem Example.monitorCalls_ord : (registrations Example.monitorCalls Example.twoMonitorsRaw).ORD = Example.twoMonitors.ORD := rfl

theorem Example.monitorCalls_inj : (registrations Example.monitorCalls Example.twoMonitorsRaw).INJ = Example.twoMonitors.INJ := rfl

theorem Example.monitorCalls_length : (registrations Example.monitorCalls Example.twoMonitorsRaw).RING.length = 3 := rfl

theorem Example.monitorCalls_keep {a : String}
    (ha : a ∉ ["Noise", "NoiseCO", "Offset", "SupportOffset", "Roll", "SupportRoll", "CalError", "SumError"]) (i : Nat) :
    (registrations Example.monitorCalls Example.twoMonitorsRaw).RING.attr i a = Example.twoMonitors.RING.attr i a := by
  simp only [registrations, Example.monitorCalls, List.foldl_cons, List.foldl_nil, RegCall.run]
  rw [C04_bpms_leave_lattice _ _ _ _ _ (Or.inr ha), C04_bpms_leave_lattice _ _ _ _ _ (Or.inr ha)]
  rfl

theorem Example.monitorCalls_num (i : Nat) :
    numAt (registrations Example.monitorCalls Example.twoMonitorsRaw).RING i "Length" = numAt Example.twoMonitors.RING i "Length" := by
  unfold numAt; rw [Example.monitorCalls_keep (by simp)]

theorem Example.monitorCalls_drift (i : Nat) :
    DriftAt (registrations Example.monitorCalls Example.twoMonitorsRaw).RING i ↔ DriftAt Example.twoMonitors.RING i := by
  unfold DriftAt; rw [Example.monitorCalls_keep (by simp)]

theorem Example.monitorCalls_applicable : Applicable 2 (registrations Example.monitorCalls Example.twoMonitorsRaw) := by
  have hl : Example.twoMonitors.RING.length = 3 := rfl
  obtain ⟨a1, a2, -, a4, a5, -, -, -, -, a10, a11, a12, -, -⟩ := Example.twoMonitors_applicable
  refine ⟨a1, Example.monitorCalls_sig ▸ a2, ⟨?_, ?_, ?_⟩, ?_, ?_, ?_, ?_, ?_, ?_, ?_, ?_, ?_, ?_, ?_⟩
  · intro i hi; rw [Example.monitorCalls_ord] at hi; simp [Example.twoMonitors] at hi
  · intro i hi; rw [Example.monitorCalls_ord] at hi; simp [Example.twoMonitors] at hi
  · intro i hi; rw [Example.monitorCalls_ord] at hi; simp [Example.twoMonitors] at hi
  · rw [Example.monitorCalls_ord, Example.monitorCalls_length, ← hl]; exact a4
  · rw [Example.monitorCalls_ord, Example.monitorCalls_sig]; exact a5
  · intro i hi; rw [Example.monitorCalls_ord] at hi; simp [Example.twoMonitors] at hi
  · intro i hi; rw [Example.monitorCalls_ord] at hi; simp [Example.twoMonitors] at hi
  · intro i hi; rw [Example.monitorCalls_ord] at hi; simp [Example.twoMonitors] at hi
  · intro i hi; rw [Example.monitorCalls_ord] at hi; simp [Example.twoMonitors] at hi
  · exact a10
  · unfold Forward at a11 ⊢
    simp only [Example.monitorCalls_num]
    exact a11
  · simp only [circumference, sPos, driftLength, Example.monitorCalls_num, Example.monitorCalls_drift, Example.monitorCalls_length,
      Example.monitorCalls_sig] at a12 ⊢
    exact a12
  · intro t ht p hp
    simp only [List.mem_cons, List.not_mem_nil, or_false] at ht
    rw [Example.monitorCalls_ord] at hp
    rcases ht with rfl | rfl | rfl <;> simp [Example.twoMonitors, Ords.pairs] at hp
  · intro t ht
    simp only [List.mem_cons, List.not_mem_nil, or_false] at ht
    rw [Example.monitorCalls_ord]
    rcases ht with rfl | rfl | rfl <;> simp [Example.twoMonitors, Ords.pairs]

theorem Example.twoMonitors_scalable : Scalable Example.twoMonitors := by
  refine ⟨⟨1, by simp [Example.twoMonitors], by simp [DriftAt, Example.twoMonitors, Ring.attr, Elem.ofList, Elem.set, Elem.empty]⟩, ?_⟩
  simp [Example.twoMonitors, circumference, sPos, numAt, Ring.attr, Elem.ofList, Elem.set, Elem.empty, List.range_succ]

/-- the same calls with the keywords in another order -/
noncomputable def Example.monitorCalls' : List (RegCall ℝ) :=
  [.bpms [0] [("Noise", .vec [1, 1]), ("Offset", .pair (.vec [3, 4]) 1)], .bpms [2] [("Roll", .num 2)]]

-- the calls succeed and have the same keywords
example : List.Forall₂ SameCall Example.monitorCalls Example.monitorCalls' ∧
    (registerAll Example.monitorCalls Example.twoMonitorsRaw).isOk = true ∧ (registerAll Example.monitorCalls' Example.twoMonitorsRaw).isOk = true :=
  ⟨.cons (.bpms _ (by simp [Dict.keys]) (List.Perm.swap _ _ _)) (.cons (.bpms _ (by simp [Dict.keys]) (List.Perm.refl _)) .nil), rfl, rfl⟩

-- the machines `Example.twoMonitors` and the registered one meet the hypotheses of `C111_same_law`, `C111_law` and `C111_errors_are_random_variables`
example : StandardNormal (streamLaw (gaussianReal 0 1)) (fun k (ω : ℕ → ℝ) => ω k) ∧ Tidy Example.twoMonitors.ORD ∧
    Tidy (registrations Example.monitorCalls Example.twoMonitorsRaw).ORD ∧ Applicable 2 Example.twoMonitors ∧
    Applicable 2 (registrations Example.monitorCalls Example.twoMonitorsRaw) ∧ Scalable Example.twoMonitors ∧
    Scalable (registrations Example.monitorCalls Example.twoMonitorsRaw) ∧
    (∀ x, uncertaintyOf Example.twoMonitors x = uncertaintyOf (registrations Example.monitorCalls Example.twoMonitorsRaw) x) ∧
    Example.twoMonitors.RING.attr 2 "Roll" = none ∧
    (registrations Example.monitorCalls Example.twoMonitorsRaw).RING.attr 2 "Roll" = some (.num 0) := by
  refine ⟨Example.generator, Example.twoMonitors_tidy, Example.monitorCalls_ord ▸ Example.twoMonitors_tidy, Example.twoMonitors_applicable,
    Example.monitorCalls_applicable, Example.twoMonitors_scalable, ?_, fun x => ?_, rfl, rfl⟩
  · have := Example.twoMonitors_scalable
    simp only [Scalable, circumference, sPos, Example.monitorCalls_num, Example.monitorCalls_drift, Example.monitorCalls_length] at this ⊢
    exact this
  · cases x <;> rfl

end PySC
