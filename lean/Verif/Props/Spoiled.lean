import Verif.Lemmas.Spoiled
import Verif.Props.History
/-
A failed registration can be corrected (C106): violated for ordinates outside the ring.
-/
set_option linter.unusedSectionVars false
namespace PySC
open Py Spec
variable {K : Type} [Field K] [LinearOrder K] [IsStrictOrderedRing K] [FloorRing K]

/-- **C106**, violated: a registration of BPMs which names an element the ring does not have raises, and spoils the object for good.  Whatever is
called afterwards, the right registration included, from then on `apply_errors`, `update_supports` and every reading of all BPMs raise. -/
theorem C106_violated_bpms (W : World K) (ords : List Nat) (kw : Kwargs K) (s : SC K) (i : Nat) (hi : i ∈ ords) (hl : s.RING.length ≤ i)
    (hk : ∀ k ∈ kw.keys, k ∈ ["Noise", "NoiseCO", "Offset", "Roll", "CalError", "SumError"]) :
    Fails (registerBpms ords kw s) ∧ ∀ later : List (Call K), ∀ t, t = history W later (registerBpms ords kw s).state →
      (∀ n, Fails (applyErrors W.E n t)) ∧ (∀ m, Fails (updateSupports W.E true m t)) ∧ ∀ c, Fails (bpmReading W.E W.B none c t) := by
  refine ⟨fails_of_not_ok (fun _ t h => absurd (registerBpms_needs h i hi) (by omega)), ?_⟩
  rintro later t rfl
  have hb : i ∈ (registerBpms ords kw s).state.ORD.BPM := by
    rw [show (registerBpms ords kw s).state.ORD = _ from register_valid (A := bpmErrorFields) hk (registerBpm1_ord kw) s]
    exact mem_npUnique.2 (List.mem_append_right _ hi)
  have hg := history_listsGrow W later (registerBpms ords kw s).state
  have hn : (registerBpms ords kw s).state.RING.length = _ := (registration_grow (.bpms ords kw) s).ring.len
  have bad : ¬ ∀ j ∈ (history W later (registerBpms ords kw s).state).ORD.BPM, j < (history W later (registerBpms ords kw s).state).RING.length := by
    intro h
    have := h i (hg.bpms i hb)
    rw [hg.length] at this
    omega
  exact ⟨fun n => fails_of_not_ok (fun _ _ h => bad (applyErrors_needs h).1),
    fun m => fails_of_not_ok (fun _ _ h => bad ((updateSupports_needs h).1 rfl)), fun c => fails_of_not_ok (fun _ _ h => bad (bpmReading_needs h))⟩

/-- **C106**, violated: the same for magnets.  From then on `apply_errors`, `update_supports` and the update of all magnets raise. -/
theorem C106_violated_magnets (W : World K) (ords : List Nat) (kw : Kwargs K) (s : SC K) (i : Nat) (hi : i ∈ ords) (hl : s.RING.length ≤ i)
    (hk : ∀ k ∈ kw.keys, k ∈ ["HCM", "VCM", "CF", "SkewQuad", "MasterOf", "MagnetOffset", "MagnetRoll", "CalErrorA", "CalErrorB", "BendingAngle"]) :
    Fails (registerMagnets ords kw s) ∧ ∀ later : List (Call K), ∀ t, t = history W later (registerMagnets ords kw s).state →
      (∀ n, Fails (applyErrors W.E n t)) ∧ (∀ b, Fails (updateSupports W.E b true t)) ∧ Fails (updateMagnets none t) := by
  refine ⟨fails_of_not_ok (fun _ t h => absurd (registerMagnets_needs h i hi) (by omega)), ?_⟩
  rintro later t rfl
  have hb : i ∈ (registerMagnets ords kw s).state.ORD.Magnet := by
    rw [show (registerMagnets ords kw s).state.ORD = _ from register_valid (A := magnetTypeFields ++ magnetErrorFields) hk (registerMagnet1_ord ords kw) s]
    exact mem_npUnique.2 (List.mem_append_right _ hi)
  have hg := history_listsGrow W later (registerMagnets ords kw s).state
  have hn : (registerMagnets ords kw s).state.RING.length = _ := (registration_grow (.magnets ords kw) s).ring.len
  have bad : ¬ ∀ j ∈ (history W later (registerMagnets ords kw s).state).ORD.Magnet,
      j < (history W later (registerMagnets ords kw s).state).RING.length := by
    intro h
    have := h i (hg.magnets i hb)
    rw [hg.length] at this
    omega
  exact ⟨fun n => fails_of_not_ok (fun _ _ h => bad (applyErrors_needs h).2),
    fun b => fails_of_not_ok (fun _ _ h => bad ((updateSupports_needs h).2 rfl)), fails_of_not_ok (fun _ _ h => bad (updateMagnets_needs h))⟩

/-- **C106**, violated: the same for cavities.  From then on the update of all cavities raises. -/
theorem C106_violated_cavities (W : World K) (ords : List Nat) (kw : Kwargs K) (s : SC K) (i : Nat) (hi : i ∈ ords) (hl : s.RING.length ≤ i)
    (hk : ∀ k ∈ kw.keys, k ∈ ["FrequencySetpoint", "FrequencyOffset", "FrequencyCalError", "VoltageSetpoint", "VoltageOffset", "VoltageCalError",
      "TimeLagSetpoint", "TimeLagOffset", "TimeLagCalError"]) :
    Fails (registerCavities ords kw s) ∧ ∀ later : List (Call K), Fails (updateCavities none (history W later (registerCavities ords kw s).state)) := by
  refine ⟨fails_of_not_ok (fun _ t h => absurd (registerCavities_needs h i hi) (by omega)), fun later => ?_⟩
  have hk' : ∀ k ∈ kw.keys, k ∈ rfErrorFields := fun k h => by
    have := hk k h
    revert this
    simp only [List.mem_cons, List.not_mem_nil, or_false]
    rintro (rfl | rfl | rfl | rfl | rfl | rfl | rfl | rfl | rfl) <;> decide +kernel
  have hb : i ∈ (registerCavities ords kw s).state.ORD.RF := by
    rw [show (registerCavities ords kw s).state.ORD = _ from register_valid (A := rfErrorFields) hk' (registerCavity1_ord kw) s]
    exact mem_npUnique.2 (List.mem_append_right _ hi)
  have hg := history_listsGrow W later (registerCavities ords kw s).state
  have hn : (registerCavities ords kw s).state.RING.length = _ := (registration_grow (.cavities ords kw) s).ring.len
  refine fails_of_not_ok (fun _ _ h => ?_)
  have := updateCavities_needs h i (hg.cavities i hb)
  rw [hg.length] at this
  omega

-- a misprint, corrected at once: the registrations with the right ordinates succeed, `apply_errors` and the reading do not
example : (registerBpms [0, 99] [] Example.raw).err? = some .indexError ∧
    (∀ c ∈ ([.bpms [0] [], .cavities [4] []] : List (RegCall ℚ)), (c.run (registerBpms [0, 99] [] Example.raw).state).isOk = true) ∧
    (applyErrors Example.env 2 (registrations [.bpms [0, 99] [], .bpms [0] [], .magnets [2] []] Example.raw)).err? = some .indexError ∧
    (applyErrors Example.env 2 (registrations [.bpms [0] [], .magnets [2] []] Example.raw)).isOk = true := by decide +kernel

example : (registerMagnets [2, 99] [] Example.raw).err? = some .indexError ∧ (registerCavities [4, 99] [] Example.raw).err? = some .indexError ∧
    (updateMagnets none (registrations [.magnets [2, 99] [], .magnets [2] []] Example.raw)).err? = some .indexError ∧
    (updateCavities none (registrations [.cavities [4, 99] [], .cavities [4] []] Example.raw)).err? = some .indexError := by decide +kernel

/-- **C106**, what holds: whatever a registration does, also if it raises, elements which it does not name, the design lattice, the injection
settings and the stream of random numbers stay as they are, and only named elements become registered. -/
theorem C106_contained_partial (c : RegCall K) (s : SC K) : Contained c.given s (c.run s).state := by
  obtain ⟨h1, -, h2, -, h3, -⟩ := registration_lists c s
  cases c with
  | bpms o kw =>
    have h : RegFrame _ s (registerBpms o kw s).state := registerBpms_frame o kw s
    exact ⟨h.ideal, h.inj, h.rng, h.len, fun i hi a => h.attr i a (fun hn => hi hn.1), h1, h2, h3⟩
  | cavities o kw =>
    have h : RegFrame _ s (registerCavities o kw s).state := registerCavities_frame o kw s
    exact ⟨h.ideal, h.inj, h.rng, h.len, fun i hi a => h.attr i a (fun hn => hi hn.1), h1, h2, h3⟩
  | magnets o kw =>
    have h : RegFrame _ s (registerMagnets o kw s).state := registerMagnets_frame o kw s
    exact ⟨h.ideal, h.inj, h.rng, h.len, fun i hi a => h.attr i a (fun hn => hi hn.1), h1, h2, h3⟩
  | supports r t kw =>
    have h : RegFrame _ s (registerSupports r t kw s).state := registerSupports_frame r t kw s
    exact ⟨h.ideal, h.inj, h.rng, h.len, fun i hi a => h.attr i a (fun hn => hi hn.1), h1, h2, h3⟩

/-- **C106**, what holds: if all registrations of a session name elements of the ring only, then every registered element exists after every
sequence of calls, also if registrations failed for another reason. -/
theorem C106_all_exist_partial (W : World K) (calls : List (Call K)) (ring : Ring K) (rng : Nat)
    (h : ∀ c, Call.register c ∈ calls → ∀ i ∈ c.given, i < ring.length) : AllExist (history W calls (SC.init ring rng)) := by
  suffices key : ∀ s : SC K, s.RING.length = ring.length → AllExist s → AllExist (history W calls s) from
    key _ rfl ⟨fun i hi => (by cases hi), fun i hi => (by cases hi), fun i hi => (by cases hi)⟩
  unfold history
  induction calls with
  | nil => exact fun s _ h => h
  | cons c cs ih =>
    intro s hs hA
    have hl := (run_listsGrow W c s).length
    refine ih (fun d hd => h d (List.mem_cons_of_mem _ hd)) _ (hl.trans hs) ?_
    by_cases hr : c.IsRegistration
    · cases c with
      | register c =>
        have hc := h c (List.mem_cons_self ..)
        obtain ⟨h1, -, h2, -, h3, -⟩ := registration_lists c s
        change (c.run s).state.RING.length = _ at hl
        refine ⟨fun i hi => ?_, fun i hi => ?_, fun i hi => ?_⟩
        · exact lt_of_lt_of_eq ((h1 i hi).elim (hA.bpms i) (fun h => lt_of_lt_of_eq (hc i h) hs.symm)) hl.symm
        · exact lt_of_lt_of_eq ((h2 i hi).elim (hA.magnets i) (fun h => lt_of_lt_of_eq (hc i h) hs.symm)) hl.symm
        · exact lt_of_lt_of_eq ((h3 i hi).elim (hA.cavities i) (fun h => lt_of_lt_of_eq (hc i h) hs.symm)) hl.symm
      | _ => exact hr.elim
    · have hk := run_keeps W c hr s
      exact ⟨fun i hi => by rw [hl]; rw [hk.ord] at hi; exact hA.bpms i hi, fun i hi => by rw [hl]; rw [hk.ord] at hi; exact hA.magnets i hi,
        fun i hi => by rw [hl]; rw [hk.ord] at hi; exact hA.cavities i hi⟩

-- a magnet without multipoles: the registration fails, but leaves no ordinate which does not exist
example : (registerMagnets [2, 6] [] Example.raw).err? = some .attributeError ∧ (registerMagnets [2, 6] [] Example.raw).state.ORD.Magnet = [2, 6] ∧
    ∀ c, Call.register c ∈ ([.register (.magnets [2, 6] []), .applyErrors 2, .register (.bpms [0] [])] : List (Call ℚ)) →
      ∀ i ∈ c.given, i < Example.rawRing.length := by
  refine ⟨by decide +kernel, by decide +kernel, ?_⟩
  intro c hc
  simp only [List.mem_cons, List.not_mem_nil, or_false, Call.register.injEq, reduceCtorEq, false_or] at hc
  rcases hc with rfl | rfl <;> decide +kernel

end PySC
