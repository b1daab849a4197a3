import Verif.Lemmas.RegistrableSteps
import Verif.Props.Applicable
/-
C88: registrations in order give a machine in order.
-/
namespace PySC
set_option linter.unusedSectionVars false
open Py Spec

section general
variable {K : Type} [Field K] [LinearOrder K] [IsStrictOrderedRing K] [FloorRing K]

theorem registerAll_registrations {calls : List (RegCall K)} {s t : SC K} (h : registerAll calls s = .ok () t) : t = registrations calls s := by
  induction calls generalizing s with
  | nil => cases h; rfl
  | cons c calls ih =>
    unfold registerAll at h
    rw [forEach_cons, bind_eq_ok] at h
    obtain ⟨⟨⟩, u, h1, h2⟩ := h
    rw [ih h2]
    unfold registrations
    rw [List.foldl_cons, h1]; rfl

/-- what holds for all of them -/
theorem registered_built {ring : Ring K} {calls : List (RegCall K)} (hgood : ∀ c ∈ calls, Good ring c) (hapart : SupportsApart calls) (rng : Nat) :
    ∃ s, registerAll calls (SC.init ring rng) = .ok () s ∧ Built ring (fun t p => ∃ c ∈ calls, p ∈ supportsIn t c) s := by
  refine Built.calls ?_ hgood (fun c hc t p hp => ⟨c, hc, hp⟩) (fun t p q ⟨c, hc, hp⟩ ⟨c', hc', hq⟩ => hapart t c hc c' hc' p hp q hq)
  have none : ∀ {i n} {v : Attr K}, sigma ([] : Dict Nat (Dict String (Attr K))) i n ≠ some v := by
    intro i n v h; cases h
  refine ⟨rfl, fun _ _ _ => rfl, rfl, C03_only_uncertainties_stored _ _ [], fun i hi => ?_, fun i n v hv => absurd hv none, fun i hi => ?_,
    fun i n v hv => absurd hv none, fun i hi => ?_, fun i n v hv => absurd hv none, fun i hi => ?_, fun t ht => ?_, fun t ht p hp => ?_⟩
  · cases hi
  · cases hi
  · cases hi
  · exact ⟨Or.inl (hi.clean _ (by simp)), Or.inl (hi.clean _ (by simp)), Or.inl (hi.clean _ (by simp)), Or.inl (hi.clean _ (by simp))⟩
  · simp only [supportTypes, List.mem_cons, List.not_mem_nil, or_false] at ht
    rcases ht with rfl | rfl | rfl <;> exact List.Pairwise.nil
  · simp only [supportTypes, List.mem_cons, List.not_mem_nil, or_false] at ht
    rcases ht with rfl | rfl | rfl <;> cases hp

theorem possible_of_good {ring : Ring K} {calls : List (RegCall K)} (hgood : ∀ c ∈ calls, Good ring c) (t : String) (p : Nat × Nat)
    (h : ∃ c ∈ calls, p ∈ supportsIn t c) : PossibleSupport ring p := by
  obtain ⟨c, hc, hp⟩ := h
  have hg := hgood c hc
  cases c with
  | supports rows t' kw =>
    change p ∈ (if t' = t then (rows.getD 0 []).zip (rows.getD 1 []) else []) at hp
    split at hp
    · obtain ⟨starts, ends, rfl, -, -, h⟩ := GoodSupports.columns hg
      exact h p hp
    · cases hp
  | _ => cases hp

variable (ring : Ring K) (rng : Nat) (calls : List (RegCall K)) (hgood : ∀ c ∈ calls, Good ring c) (hapart : SupportsApart calls)
include hgood hapart

/-- **C88**: registrations which are in order for the lattice succeed, in any number and in any order, and give a machine to which errors
can be applied, with any uncertainty of the injection and with any uncertainty of the circumference the drifts can take up. -/
theorem C88_registered (hforward : Forward ring) : ∃ s, registerAll calls (SC.init ring rng) = .ok () s ∧ s = registrations calls (SC.init ring rng) ∧
    ∀ (nsigmas : K) (z : List K) (c : K), nsigmas ≠ 0 → z.length = 6 →
      (∀ i < ring.length, ¬ DriftAt ring i) ∨ |c| * |nsigmas| * circumference ring < driftLength ring →
      Applicable nsigmas (withInjection s z c) := by
  obtain ⟨s, h1, h2⟩ := registered_built hgood hapart rng
  refine ⟨s, h1, registerAll_registrations h1, fun n z c hn hz hc => ?_⟩
  exact h2.applicable (possible_of_good hgood) (fun t p q ⟨c, hc, hp⟩ ⟨c', hc', hq⟩ => hapart t c hc c' hc' p hp q hq) hn hforward hz hc

/-- **C88**: and applying errors succeeds. -/
theorem C88_errors (hforward : Forward ring) (E : Env K) (hE : KeepsDrawing E.randn)
    (hT : ∀ len theta dx dy dz pitch yaw roll, ∃ T, E.transform len theta [dx, dy, dz] [pitch, yaw, roll] = .ok T)
    (nsigmas : K) (z : List K) (c : K) (hn : nsigmas ≠ 0) (hz : z.length = 6)
    (hc : (∀ i < ring.length, ¬ DriftAt ring i) ∨ |c| * |nsigmas| * circumference ring < driftLength ring) :
    ∃ s passes t, registerAll calls (SC.init ring rng) = .ok () s ∧
      ∀ f, passes ≤ f → applyErrors { E with fuel := f } nsigmas (withInjection s z c) = .ok () t := by
  obtain ⟨s, h1, -, h2⟩ := C88_registered ring rng calls hgood hapart hforward
  obtain ⟨passes, t, h3⟩ := C86_succeeds E hE hT nsigmas _ (h2 nsigmas z c hn hz hc)
  exact ⟨s, passes, t, h1, h3⟩

/-- **C88**: at any later time – after any sequence of operations and applications of errors, with any outcome – the registered magnets and
cavities can be used: thin correctors and magnets with a length as correctors in both planes, every component which the lattice file gives
for a magnet (steps not given as integers, see C76), every field of a cavity; and all fields can be brought up to date. -/
theorem C88_operated (z : List K) (c : K) (W : World K) : ∃ s, registerAll calls (SC.init ring rng) = .ok () s ∧
    ∀ t, Session W (withInjection s z c) t →
      (∀ (ords : List Nat) (skewness : Bool) (method : String) (sp : NpArr K), (∀ i ∈ ords, i ∈ s.ORD.Magnet ∧
          (ring.attr i "PassMethod" = some (.str "CorrectorPass") ∨ HasLength ring i)) → Fits method ords.length sp →
        (∃ t', setCMSetpoints ords sp skewness method t = .ok () t') ∧ ∃ v, getCMSetpoints ords skewness t = .ok v t ∧ v.length = ords.length) ∧
      (∀ (ords : List Nat) (skewness : Bool) (order : Nat) (method : String) (dipole_compensation : Bool) (sp : NpArr K),
        (∀ i ∈ ords, i ∈ s.ORD.Magnet ∧ order < arrLen ring i ("Polynom" ++ if skewness then "A" else "B")) → Fits method ords.length sp →
        method = "abs" ∨ sp.isInt = false → ∃ t', setMagnetSetpoints ords sp skewness order method dipole_compensation t = .ok () t') ∧
      (∀ (ords : List Nat) (param method : String) (sp : NpArr K), (∀ i ∈ ords, i ∈ s.ORD.RF) → param ∈ ["Voltage", "Frequency", "TimeLag"] →
        Fits method ords.length sp → method = "abs" ∨ sp.isInt = false → ∃ t', setCavitySetpoints ords sp param method t = .ok () t') ∧
      (∃ t', updateMagnets none t = .ok () t') ∧ ∃ t', updateCavities none t = .ok () t' := by
  obtain ⟨s, h1, h2⟩ := registered_built hgood hapart rng
  refine ⟨s, h1, fun t ht => ?_⟩
  have hw : WellRegistered (withInjection s z c).SIG := ⟨h2.well.1, h2.well.2, h2.well.3, h2.well.4, h2.well.5, h2.well.6, h2.well.7, h2.well.8⟩
  have hf : FittingErrors (withInjection s z c) := ⟨h2.fitting.1, h2.fitting.2, h2.fitting.3⟩
  refine ⟨fun ords sk method sp ho hfit => ⟨?_, ?_⟩, fun ords sk order method d sp ho hfit hi => ?_, fun ords param method sp ho hp hfit hi => ?_, ?_⟩
  · exact C76_correctors_set hw hf ht ords sk (fun i hi => h2.corrector (ho i hi).1 (ho i hi).2 sk) method sp hfit
  · exact C76_correctors_read hw hf ht ords sk (fun i hi => h2.corrector (ho i hi).1 (ho i hi).2 sk)
  · refine C76_magnets_set_partial hw hf ht ords sk order d (fun i hi => ?_) method sp hfit hi
    have := h2.component (ho i hi).1 (ho i hi).2 d
    exact ⟨this.1, this.2, this.3, this.4, this.5⟩
  · exact C76_cavities_set_partial hw hf ht ords (fun i hi => h2.cavities i (ho i hi)) param hp method sp hfit hi
  · exact C76_updates_all hw hf ht (fun i hi => h2.magnetReady hi) h2.cavities
end general

/-! ### a lattice -/

section decidable
theorem get_forall {K : Type} {kw : Kwargs K} {P : String → Attr K → Prop} (h : ∀ kv ∈ kw, P kv.1 kv.2) (n : String) (v : Attr K)
    (hv : kw.get? n = some v) : P n v := by
  induction kw with
  | nil => cases hv
  | cons e d ih =>
    unfold Dict.get? at hv
    split at hv
    · rename_i he; cases hv; rw [← he]; exact h e List.mem_cons_self
    · exact ih (fun kv hkv => h kv (List.mem_cons_of_mem _ hkv)) hv

instance (a : Attr ℚ) : Decidable (NumberDrawable a) := by unfold NumberDrawable; split <;> infer_instance
instance (a : Attr ℚ) : Decidable (ArrayDrawable a) := by unfold ArrayDrawable; split <;> infer_instance
instance (a : Attr ℚ) : Decidable (IsLimit a) := by unfold IsLimit; split <;> infer_instance
instance (a : Attr ℚ) : Decidable (ForSupport a) := by unfold ForSupport; split <;> infer_instance
instance (a : Attr ℚ) : Decidable (ForBothEnds a) := by unfold ForBothEnds; split <;> infer_instance
instance (r : Ring ℚ) (i : Nat) (n : String) (v : Attr ℚ) : Decidable (MagnetUncertainty r i n v) :=
  decidable_of_iff (Drawable v ∧ (n ∈ ["MagnetOffset", "MagnetRoll"] → (uncertainties v).length = 3) ∧
    (∀ ab ∈ ["A", "B"], n = "CalError" ++ ab → ArrayDrawable v ∧ (uncertainties v).length ≤ arrLen r i ("Polynom" ++ ab) ∧
      ((r.attr i "BendingAngle").isSome → ab = "B" → 2 ≤ (uncertainties v).length)) ∧
    (n = "BendingAngle" → NumberDrawable v ∧ (r.attr i "BendingAngle").isSome))
    ⟨fun h => ⟨h.1, h.2.1, h.2.2.1, h.2.2.2⟩, fun h => ⟨h.1, h.2, h.3, h.4⟩⟩
instance (kw : Kwargs ℚ) (l : List String) : Decidable (Known kw l) := by unfold Known; infer_instance
end decidable

/-- all of `Example.rawRing`: a quadrupole which drives the corrector in front of it, a combined function magnet, girders with
uncertainties at both ends, a section across them; the combined function magnet is registered twice -/
def Example.plan : List (RegCall ℚ) :=
  [.magnets [2] [("MasterOf", .ordMat [[1]]), ("CalErrorB", .vec [0, 1/10]), ("SkewQuad", .num 4)],
   .supports [[5, 0], [7, 3]] "Girder" [("Offset", .mat [[1, 2, 3], [4, 5, 6]]), ("Roll", .vec [1, 0, 0])],
   .bpms [0] [("Noise", .vec [1, 1]), ("Offset", .pair (.vec [3, 4]) 1), ("Roll", .num 2)],
   .magnets [3] [("CF", .flag true), ("CalErrorB", .pair (.vec [1/10, 1/20]) 2), ("BendingAngle", .num (1/100))],
   .magnets [3, 1] [("HCM", .num 3), ("MagnetRoll", .vec [1, 0, 0])],
   .supports [[1], [6]] "Section" [("Offset", .vec [1, 1, 1]), ("Roll", .pair (.vec [1, 2, 3]) 1)],
   .cavities [4] [("VoltageOffset", .num 5), ("FrequencyCalError", .pair (.num 1) 2)]]

theorem Example.plan_good : ∀ c ∈ Example.plan, Good Example.rawRing c := by
  have raw := Example.raw_magnets
  have len : ∀ i ∈ [1, 2, 3], NumberOrNothing Example.rawRing i "Length" := by
    intro i hi
    simp only [List.mem_cons, List.not_mem_nil, or_false] at hi
    rcases hi with rfl | rfl | rfl
    · exact Or.inr ⟨0, by decide +kernel⟩
    · exact Or.inr ⟨1/2, by decide +kernel⟩
    · exact Or.inr ⟨2, by decide +kernel⟩
  have noChild : ∀ {kw : Kwargs ℚ} {ords : List Nat}, kw.get? "MasterOf" = none → ∀ v, kw.get? "MasterOf" = some v → ords.Nodup ∧ ∃ m, v = .ordMat m ∧
      ∀ row ∈ m, row.length = ords.length ∧ ∀ ic ∈ ords.zip row, PossibleChild Example.rawRing ic.1 ic.2 := by
    intro kw ords h v hv; rw [h] at hv; cases hv
  unfold Example.plan
  simp only [List.forall_mem_cons, List.not_mem_nil, false_imp_iff, implies_true, and_true]
  refine ⟨⟨by decide +kernel, ?_, ?_, ?_, ?_⟩, ⟨by decide +kernel, by decide +kernel, ?_, ?_, ?_⟩, ⟨by decide +kernel, by decide +kernel, ?_⟩,
    ⟨by decide +kernel, ?_, ?_, ?_, noChild (by decide +kernel)⟩, ⟨by decide +kernel, ?_, ?_, ?_, noChild (by decide +kernel)⟩,
    ⟨by decide +kernel, by decide +kernel, ?_, ?_, ?_⟩, ⟨by decide +kernel, ?_, ?_⟩⟩
  · exact fun i hi => ⟨raw i (by revert i; decide +kernel), len i (by revert i; decide +kernel)⟩
  · exact fun n hn v hv => get_forall (P := fun n v => n ∈ ["HCM", "VCM", "SkewQuad"] → IsLimit v) (by decide +kernel) n v hv hn
  · exact fun n hn v hv => get_forall (P := fun n v => n ∈ ["MagnetOffset", "MagnetRoll", "CalErrorA", "CalErrorB", "BendingAngle"] →
      ∀ i ∈ [2], MagnetUncertainty Example.rawRing i n v) (by decide +kernel) n v hv hn
  · intro v hv
    cases hv
    refine ⟨by simp, _, rfl, fun row hr => ?_⟩
    rw [List.mem_singleton] at hr; subst hr
    refine ⟨rfl, fun ic hic => ?_⟩
    have : ic = (2, 1) := by simpa using hic
    subst this
    exact ⟨by decide +kernel, by decide +kernel, fun hb => absurd hb (by decide +kernel)⟩
  · refine ⟨_, _, rfl, rfl, by simp, fun p hp => ?_⟩
    have : p = (5, 7) ∨ p = (0, 3) := by simpa using hp
    rcases this with rfl | rfl
    · exact ⟨by decide +kernel, by decide +kernel, ⟨6, by decide +kernel⟩, ⟨2, by decide +kernel⟩⟩
    · exact ⟨by decide +kernel, by decide +kernel, ⟨2, by decide +kernel⟩, ⟨6, by decide +kernel⟩⟩
  · exact get_forall (P := fun _ v => ForSupport v) (by decide +kernel)
  · exact fun _ _ _ w hw => get_forall (P := fun n w => n = "Roll" → ∀ k ∈ [1, 2], coef (atStart w) k = 0) (by decide +kernel) _ w hw rfl
  · exact get_forall (P := fun n v => n ∉ ["Noise", "NoiseCO"] → Drawable v) (by decide +kernel)
  · exact fun i hi => ⟨raw i (by revert i; decide +kernel), len i (by revert i; decide +kernel)⟩
  · exact fun n hn v hv => get_forall (P := fun n v => n ∈ ["HCM", "VCM", "SkewQuad"] → IsLimit v) (by decide +kernel) n v hv hn
  · exact fun n hn v hv => get_forall (P := fun n v => n ∈ ["MagnetOffset", "MagnetRoll", "CalErrorA", "CalErrorB", "BendingAngle"] →
      ∀ i ∈ [3], MagnetUncertainty Example.rawRing i n v) (by decide +kernel) n v hv hn
  · exact fun i hi => ⟨raw i (by revert i; decide +kernel), len i (by revert i; decide +kernel)⟩
  · exact fun n hn v hv => get_forall (P := fun n v => n ∈ ["HCM", "VCM", "SkewQuad"] → IsLimit v) (by decide +kernel) n v hv hn
  · exact fun n hn v hv => get_forall (P := fun n v => n ∈ ["MagnetOffset", "MagnetRoll", "CalErrorA", "CalErrorB", "BendingAngle"] →
      ∀ i ∈ [3, 1], MagnetUncertainty Example.rawRing i n v) (by decide +kernel) n v hv hn
  · refine ⟨_, _, rfl, rfl, by simp, fun p hp => ?_⟩
    have : p = (1, 6) := by simpa using hp
    subst this
    exact ⟨by decide +kernel, by decide +kernel, ⟨2, by decide +kernel⟩, ⟨6, by decide +kernel⟩⟩
  · exact get_forall (P := fun _ v => ForSupport v) (by decide +kernel)
  · exact fun v hv hb => absurd hb (get_forall (P := fun n v => n = "Offset" → ¬ ForBothEnds v) (by decide +kernel) _ v hv rfl)
  · intro i hi f hf
    have : i = 4 := by simpa using hi
    subst this
    simp only [List.mem_cons, List.not_mem_nil, or_false] at hf
    rcases hf with rfl | rfl | rfl
    · exact ⟨1000, by decide +kernel⟩
    · exact ⟨500, by decide +kernel⟩
    · exact ⟨0, by decide +kernel⟩
  · exact get_forall (P := fun _ v => NumberDrawable v) (by decide +kernel)

theorem Example.plan_supports : ∀ t, ∀ c ∈ Example.plan, ∀ p ∈ supportsIn t c, (t = "Girder" ∧ (p = (5, 7) ∨ p = (0, 3))) ∨ (t = "Section" ∧ p = (1, 6)) := by
  intro t
  unfold Example.plan
  simp only [List.forall_mem_cons, List.not_mem_nil, false_imp_iff, implies_true, and_true, supportsIn, true_and]
  refine ⟨fun p hp => ?_, fun p hp => ?_⟩
  · split at hp
    · rename_i h; exact Or.inl ⟨h.symm, by simpa using hp⟩
    · cases hp
  · split at hp
    · rename_i h; exact Or.inr ⟨h.symm, by simpa using hp⟩
    · cases hp

theorem Example.plan_apart : SupportsApart Example.plan := by
  intro t c hc c' hc' p hp q hq
  rcases Example.plan_supports t c hc p hp with ⟨h, hp⟩ | ⟨h, rfl⟩ <;> rcases Example.plan_supports t c' hc' q hq with ⟨h', hq⟩ | ⟨h', rfl⟩
  · rcases hp with rfl | rfl <;> rcases hq with rfl | rfl <;> decide +kernel
  · rw [h] at h'; simp at h'
  · rw [h] at h'; simp at h'
  · exact Or.inl rfl

-- the plan is carried out, the lists are filled and errors can be applied
example : ∃ s, registerAll Example.plan (SC.init Example.rawRing 0) = .ok () s ∧ Applicable 2 (withInjection s [1, 1, 2, 2, 0, 5] (1/10)) ∧
    s.ORD = ⟨[0], [4], [1, 2, 3], [2], [1, 3], [], [(0, 3), (5, 7)], [], [(1, 6)]⟩ ∧ s.RING.attr 2 "MasterOf" = some (.ords [1]) := by
  obtain ⟨s, h1, rfl, h2⟩ := C88_registered Example.rawRing 0 Example.plan Example.plan_good Example.plan_apart (forward_of_all (by decide +kernel))
  exact ⟨_, h1, h2 2 _ _ (by norm_num) rfl (Or.inr (by decide +kernel)), by decide +kernel, by decide +kernel⟩

example : ∃ s passes t, registerAll Example.plan (SC.init Example.rawRing 0) = .ok () s ∧
    ∀ f, passes ≤ f → applyErrors { Example.dice with fuel := f } 2 (withInjection s [1, 1, 2, 2, 0, 5] (1/10)) = .ok () t :=
  C88_errors Example.rawRing 0 Example.plan Example.plan_good Example.plan_apart (forward_of_all (by decide +kernel)) Example.dice Example.dice_keeps
    (fun _ _ _ _ _ _ _ _ => ⟨_, rfl⟩) 2 _ _ (by norm_num) rfl (Or.inr (by decide +kernel))

-- the quadrupole of the plan and its skew component, the corrector and the cavity can be used afterwards
example : HasLength Example.rawRing 2 ∧ 1 < arrLen Example.rawRing 2 "PolynomA" ∧ Example.rawRing.attr 1 "PassMethod" = some (.str "CorrectorPass") ∧
    ∃ t, Session Example.world (withInjection (registrations Example.plan (SC.init Example.rawRing 0)) [1, 1, 2, 2, 0, 5] (1/10)) t ∧
      t.RING.attr 2 "PolynomB" ≠ Example.rawRing.attr 2 "PolynomB" ∧ (setMagnetSetpoints [2] ⟨false, [1/10]⟩ true 1 "add" false t).isOk = true := by
  refine ⟨⟨⟨1/2, by decide +kernel, by decide +kernel⟩, by decide +kernel⟩, by decide +kernel, by decide +kernel, _,
    .operation (.start _) (.setMagnet [2] ⟨false, [3]⟩ false 1 "add" false) trivial, by decide +kernel, by decide +kernel⟩

end PySC
