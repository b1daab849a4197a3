import Verif.Lemmas.HistoryDesign
import Verif.Lemmas.Structure
import Verif.Props.Supports
import Verif.Props.ApplyErrors
/-
C07 (the design lattice is never modified), C08 (copies), C62 (verify_structure), C67 (records and machine stay consistent
over every history), C68 (design data of magnets).
-/
namespace PySC
open Py Spec
set_option linter.unusedSectionVars false
variable {K : Type} [Field K] [LinearOrder K] [IsStrictOrderedRing K] [FloorRing K]

/-! ### C07 -/

/-- **C07**: whatever is called in whatever order, with whatever results, exceptions included, the design lattice stays as
it is; elements of the machine are neither added nor removed, and they lose no attribute. -/
theorem C07_design_never_modified (W : World K) (calls : List (Call K)) (s : SC K) :
    (history W calls s).IDEALRING = s.IDEALRING ∧ (history W calls s).RING.length = s.RING.length ∧
    ∀ i a, (s.RING.attr i a).isSome → ((history W calls s).RING.attr i a).isSome := by
  have : Grow s (history W calls s) := by
    unfold history
    induction calls generalizing s with
    | nil => exact PreRel.refl s
    | cons c cs ih => exact PreRel.trans (R := Grow) _ _ _ (run_grow W c s) (ih _)
  exact ⟨this.ideal, this.ring.len, this.ring.some⟩

/-- surroundings for the examples: the particle is lost nowhere and the pseudo-inverse is never used -/
def Example.world : World ℚ := ⟨Example.env, Example.beam, Example.lineOrbit⟩

/-- register everything, apply errors, fail twice, correct by hand -/
def Example.session : List (Call ℚ) :=
  (Example.calls ++ [RegCall.supports [[1], [6]] "Section" [("Offset", .vec [1, 1, 1])]]).map Call.register ++
  [.applyErrors 2, .setCM [1] ⟨false, [1, 2]⟩ false "abs", .setCM [1] ⟨false, [1/2000]⟩ false "abs", .switches ["cavityon"],
   .register (.cavities [4] [("Nonsense", .num 0)]), .verify, .veryDeepCopy]

-- it changes the machine
example : (history Example.world Example.session Example.raw).RING.attr 1 "PolynomB" ≠ Example.rawRing.attr 1 "PolynomB" ∧
    (history Example.world Example.session Example.raw).IDEALRING.attr 1 "PolynomB" = Example.rawRing.attr 1 "PolynomB" := by
  decide +kernel

/-! ### C08 -/

/-- **C08**, what holds: the original is not touched; the copy has the same lattice, injection settings, uncertainties and
index lists.  What is missing: its design lattice is the lattice *with errors* (see `C08_violated_design`), so it is equal
only if the machine still is the design machine. -/
theorem C08_copy_partial (s : SC K) (h : s.RING.length ≤ s.IDEALRING.length) :
    ∃ c, veryDeepCopy s = .ok c s ∧ c.RING = s.RING ∧ c.INJ = s.INJ ∧ c.SIG = s.SIG ∧ c.ORD = s.ORD ∧
      (s.RING.length = s.IDEALRING.length → (c = s ↔ s.RING = s.IDEALRING)) := by
  refine ⟨{ s with IDEALRING := s.RING ++ s.IDEALRING.drop s.RING.length }, ?_, rfl, rfl, rfl, rfl, fun hl => ?_⟩
  · unfold veryDeepCopy
    rw [bind_apply]; simp only [get_apply]
    rw [if_neg (by omega)]; rfl
  · rw [hl, List.drop_length, List.append_nil]
    constructor
    · intro h
      have := congrArg SC.IDEALRING h
      exact this
    · intro h; cases s; simp only at h ⊢; rw [h]

/-- **C08**: an object built by `__init__` always satisfies the hypothesis, whatever has been called. -/
theorem C08_copy_of_history_partial (W : World K) (calls : List (Call K)) (ring : Ring K) (rng : Nat) :
    ∃ c, veryDeepCopy (history W calls (SC.init ring rng)) = .ok c (history W calls (SC.init ring rng)) ∧
      (c = history W calls (SC.init ring rng) ↔ (history W calls (SC.init ring rng)).RING = ring) := by
  obtain ⟨h1, h2, -⟩ := C07_design_never_modified W calls (SC.init ring rng)
  have h1' : (history W calls (SC.init ring rng)).IDEALRING = ring := h1
  have h2' : (history W calls (SC.init ring rng)).RING.length = ring.length := h2
  have hl : (history W calls (SC.init ring rng)).RING.length = (history W calls (SC.init ring rng)).IDEALRING.length := by rw [h1', h2']
  obtain ⟨c, hc, -, -, -, -, h⟩ := C08_copy_partial _ (le_of_eq hl)
  refine ⟨c, hc, ?_⟩
  rw [h hl, h1']

/-- **C08** is violated: after errors have been applied the copy has another design lattice than the original. -/
theorem C08_violated_design : ∃ c, veryDeepCopy Example.misaligned = .ok c Example.misaligned ∧
    c.IDEALRING ≠ Example.misaligned.IDEALRING ∧ c.IDEALRING = Example.misaligned.RING := by
  refine ⟨{ Example.misaligned with IDEALRING := Example.misaligned.RING }, ?_, ?_, rfl⟩
  swap
  · intro h
    have h : Example.misaligned.RING = Example.misaligned.IDEALRING := h
    have : Example.misaligned.RING.attr 1 "CalErrorB" ≠ Example.misaligned.IDEALRING.attr 1 "CalErrorB" := by decide +kernel
    exact this (by rw [h])
  obtain ⟨c, h1, h2, h3, h4, h5, -⟩ := C08_copy_partial Example.misaligned (by decide +kernel)
  rw [h1]
  have := h1
  unfold veryDeepCopy at this
  rw [bind_apply] at this; simp only [get_apply] at this
  rw [if_neg (by decide +kernel)] at this
  simp only [Py.pure, Res.ok.injEq, and_true] at this
  rw [← this]
  congr 2
  rw [show Example.misaligned.IDEALRING.drop Example.misaligned.RING.length = [] from by decide +kernel, List.append_nil]

/-! ### C62 -/

/-- **C62**: `verify_structure` never changes anything, and if it returns normally none of the inconsistencies is there. -/
theorem C62_accepted (s : SC K) : (verify s).state = s ∧ (verify s = .ok () s → ¬ Inconsistent s) := by
  unfold verify
  rw [bind_apply]; simp only [get_apply]
  cases hv : verifyStructure s with
  | ok u => exact ⟨rfl, fun _ => excludes_structure s hv⟩
  | error e => exact ⟨rfl, fun h => by simp [lift] at h⟩

/-- **C62**: for objects with the attributes registration provides it raises ValueError exactly if there is an
inconsistency. -/
theorem C62_exact (s : SC K) (hw : WellFormed s) :
    (verify s = .error .valueError s ∧ Inconsistent s) ∨ (verify s = .ok () s ∧ ¬ Inconsistent s) := by
  unfold verify
  rw [bind_apply]; simp only [get_apply]
  rcases verdict_structure hw with ⟨h, h'⟩ | ⟨h, h'⟩ <;> rw [h]
  · exact Or.inr ⟨rfl, h'⟩
  · exact Or.inl ⟨rfl, h'⟩

/-- **C62**: a corrector without limit is not reported as ValueError: reading the limit raises AttributeError. -/
theorem C62_no_limit (s : SC K) (i : Nat) (is : List Nat) (h1 : s.ORD.HCM = i :: is) (hi : i < s.RING.length)
    (h2 : s.RING.attr i "CMlimit" = none) (h3 : s.ORD.Girder ≠ []) : verify s = .error .attributeError s := by
  have hg : (!(s.ORD.Girder.isEmpty && !(s.ORD.Plinth.isEmpty && s.ORD.Section.isEmpty))) = true := by
    have : s.ORD.Girder.isEmpty = false := by simpa using h3
    rw [this]; rfl
  have hl : verifyLimit s.RING 0 i = .error .attributeError := by
    unfold verifyLimit Ring.getA
    unfold Ring.attr at h2
    rw [List.getElem?_eq_getElem hi] at h2
    have h2' : (s.RING[i]) "CMlimit" = none := by simpa using h2
    simp [Ring.getE, List.getElem?_eq_getElem hi, h2', bind, Except.bind]
  have : verifyStructure s = .error .attributeError := by
    unfold verifyStructure
    rw [hg, h1]
    show (require true >>= fun _ => (verifyLimit s.RING 0 i >>= fun _ => is.forM (verifyLimit s.RING 0)) >>= fun _ => _) = _
    rw [hl]; rfl
  unfold verify
  rw [bind_apply]; simp only [get_apply, this]
  rfl

example : (verify { Example.lab with ORD := { Example.lab.ORD with HCM := [0] } }).err? = some .attributeError := by decide +kernel

/-- a machine with one corrector (element 3, or element 2 with polynomials of different lengths) and a cavity -/
def Example.inspected (i : Nat) : SC ℚ := registrations [.magnets [i] [("HCM", .num 1), ("VCM", .num 2)], .cavities [4] []] Example.raw

theorem Example.inspected_wellFormed (i : Nat) (hi : i = 2 ∨ i = 3) : WellFormed (Example.inspected i) := by
  have ho : (Example.inspected i).ORD = ⟨[], [4], [i], [], [i], [i], [], [], []⟩ := by rcases hi with rfl | rfl <;> decide +kernel
  have hl : (Example.inspected i).RING.attr i "CMlimit" = some (.lims [.fin 1, .fin 2]) := by rcases hi with rfl | rfl <;> decide +kernel
  have hv : ∀ a, ((Example.inspected i).RING.getVec i a).toOption.isSome = true → HasVec (Example.inspected i).RING i a := by
    intro a h
    cases hg : (Example.inspected i).RING.getVec i a with
    | ok v => exact ⟨v, Ring.getVec_eq_ok.1 hg⟩
    | error e => rw [hg] at h; cases h
  refine ⟨?_, ?_, ?_, ?_, ?_, ?_, ?_, ?_⟩ <;> rw [ho] <;> simp only [List.mem_cons, List.not_mem_nil, or_false, forall_eq]
  · exact ⟨_, hl, by decide⟩
  · exact ⟨_, hl, by decide⟩
  · rintro a (rfl | rfl | rfl | rfl | rfl | rfl) <;> refine hv _ ?_ <;> rcases hi with rfl | rfl <;> decide +kernel
  · left; rcases hi with rfl | rfl <;> decide +kernel
  · left; rcases hi with rfl | rfl <;> decide +kernel
  · left; rcases hi with rfl | rfl <;> decide +kernel
  · rcases hi with rfl | rfl <;> decide +kernel
  · rcases hi with rfl | rfl <;> decide +kernel

example : (verify (Example.inspected 3)).isOk = true := by decide +kernel
example : (verify (Example.inspected 2)).err? = some .valueError := by decide +kernel

/-! ### C67 -/

/-- **C67**: the records of a machine agree with each other after every sequence of calls on a new object, exceptions
included. -/
theorem C67_records_consistent (W : World K) (calls : List (Call K)) (ring : Ring K) (rng : Nat) :
    Consistent (history W calls (SC.init ring rng)) := by
  have step : ∀ (c : Call K) (s : SC K), Consistent s → Consistent (c.run W s).state := by
    intro c s hc
    by_cases hr : c.IsRegistration
    · cases c with
      | register c => exact consistent_register c s hc (C01_lists_stay_sorted [c] s hc.tidy)
      | _ => exact hr.elim
    · have hk := run_keeps W c hr s
      refine ⟨?_, ?_, ?_, ?_, ?_, ?_, ?_, ?_, ?_, ?_, ?_⟩ <;> (try rw [hk.ord]) <;> (try rw [hk.sig])
      exacts [hc.tidy, hc.girders, hc.plinths, hc.sections, hc.hcm, hc.vcm, hc.skewQuad, hc.sigBpm, hc.sigRf, hc.sigMagnet,
        hc.uncertainties]
  have h0 : Consistent (SC.init ring rng) := by
    refine ⟨by constructor <;> exact List.Pairwise.nil, List.Pairwise.nil, List.Pairwise.nil, List.Pairwise.nil, ?_, ?_, ?_, ?_, ?_, ?_,
      wellRegistered_init ring rng⟩ <;> intro i hi <;> cases hi
  unfold history
  generalize SC.init ring rng = s at h0
  induction calls generalizing s with
  | nil => exact h0
  | cons c cs ih => exact ih _ (step c s h0)

/-- **C67**: if no call failed, every registered element has an entry among the uncertainties and carries the attributes of
its kind, however often it was registered and whatever was called in between. -/
theorem C67_fully_registered (W : World K) (calls : List (Call K)) (ring : Ring K) (rng : Nat) (s : SC K)
    (h : Runs W calls (SC.init ring rng) s) : FullyRegistered s := by
  have step : ∀ (c : Call K) (s s' : SC K), FullyRegistered s → c.run W s = .ok () s' → FullyRegistered s' := by
    intro c s s' hf hc
    by_cases hr : c.IsRegistration
    · cases c with
      | register c => exact fullyRegistered_register c s s' hf hc
      | _ => exact hr.elim
    · have hk := (run_keeps W c hr).ok hc
      have hs := hk.toGrow.ring.some
      refine ⟨?_, ?_, ?_, ?_, ?_, ?_, ?_, ?_, ?_⟩ <;> rw [hk.ord] <;> (try rw [hk.sig])
      · exact fun i hi => ⟨(hf.bpm i hi).1, fun a ha => hs _ _ ((hf.bpm i hi).2 a ha)⟩
      · exact fun i hi => ⟨(hf.rf i hi).1, fun a ha => hs _ _ ((hf.rf i hi).2 a ha)⟩
      · exact fun i hi => ⟨(hf.magnet i hi).1, fun a ha => hs _ _ ((hf.magnet i hi).2 a ha)⟩
      · exact fun i hi => hs _ _ (hf.hcm i hi)
      · exact fun i hi => hs _ _ (hf.vcm i hi)
      · exact fun i hi => hs _ _ (hf.skewQuad i hi)
      · exact fun p hp i hi a ha => hs _ _ (hf.girder p hp i hi a ha)
      · exact fun p hp i hi a ha => hs _ _ (hf.plinth p hp i hi a ha)
      · exact fun p hp i hi a ha => hs _ _ (hf.sections p hp i hi a ha)
  have h0 : FullyRegistered (SC.init ring rng) := by
    refine ⟨?_, ?_, ?_, ?_, ?_, ?_, ?_, ?_, ?_⟩ <;> intro i hi <;> cases hi
  generalize SC.init ring rng = s0 at h h0
  induction calls generalizing s0 with
  | nil => rw [show s = s0 from h]; exact h0
  | cons c cs ih =>
    obtain ⟨t, ht, h⟩ := h
    exact ih t h (step c s0 t h0 ht)

/-- **C67**: in particular every ordinate in the lists is an element of the ring. -/
theorem C67_ordinates_exist (W : World K) (calls : List (Call K)) (ring : Ring K) (rng : Nat) (s : SC K)
    (h : Runs W calls (SC.init ring rng) s) : ∀ i, (i ∈ s.ORD.BPM ∨ i ∈ s.ORD.RF ∨ i ∈ s.ORD.Magnet ∨ i ∈ s.ORD.HCM ∨
      i ∈ s.ORD.VCM ∨ i ∈ s.ORD.SkewQuad ∨ ∃ p ∈ s.ORD.Girder ++ s.ORD.Plinth ++ s.ORD.Section, i = p.1 ∨ i = p.2) →
      i < s.RING.length := by
  have hf := C67_fully_registered W calls ring rng s h
  rintro i (hi | hi | hi | hi | hi | hi | ⟨p, hp, hi⟩)
  · exact Ring.isSome_lt ((hf.bpm i hi).2 "Roll" (by decide +kernel))
  · exact Ring.isSome_lt ((hf.rf i hi).2 "Voltage" (by decide +kernel))
  · exact Ring.isSome_lt ((hf.magnet i hi).2 "PolynomA" (by decide +kernel))
  · exact Ring.isSome_lt (hf.hcm i hi)
  · exact Ring.isSome_lt (hf.vcm i hi)
  · exact Ring.isSome_lt (hf.skewQuad i hi)
  · have hi' : i ∈ [p.1, p.2] := by simpa using hi
    simp only [List.mem_append] at hp
    rcases hp with (hp | hp) | hp
    · exact Ring.isSome_lt (hf.girder p hp i hi' _ (List.mem_cons_self ..))
    · exact Ring.isSome_lt (hf.plinth p hp i hi' _ (List.mem_cons_self ..))
    · exact Ring.isSome_lt (hf.sections p hp i hi' _ (List.mem_cons_self ..))

/-- **C67**: this needs that no call failed: a registration that raises leaves ordinates behind which do not exist. -/
theorem C67_violated_failed_registration : ∃ (c : RegCall ℚ), (c.run Example.raw).err? = some .indexError ∧
    ∃ i ∈ (c.run Example.raw).state.ORD.BPM, ¬ i < (c.run Example.raw).state.RING.length :=
  ⟨.bpms [0, 99] [], by decide +kernel, 99, by decide +kernel, by decide +kernel⟩

-- a history without failures: registrations before and after errors are applied
example : ∃ s, Runs Example.world [.register (.magnets [2] [("HCM", .num 1), ("CalErrorB", .vec [0, 1/10])]), .applyErrors 2,
    .register (.bpms [0] []), .setCM [2] ⟨false, [1/2]⟩ false "abs"] Example.raw s ∧ s.ORD.Magnet = [2] ∧ s.ORD.BPM = [0] :=
  ⟨_, ⟨_, ok_of_isOk (by decide +kernel), _, ok_of_isOk (by decide +kernel), _, ok_of_isOk (by decide +kernel), _,
    ok_of_isOk (by decide +kernel), rfl⟩, by decide +kernel, by decide +kernel⟩

/-! ### C68 -/

theorem supports_design (r : List (List Nat)) (t : String) (kw : Kwargs K) (s : SC K) (i : Nat) (a : String) (ha : a ∈ designNames) :
    (registerSupports r t kw s).state.RING.attr i a = s.RING.attr i a := by
  rcases registerSupports_shape r t kw s with ⟨e, he⟩ | ⟨htt, -⟩
  · rw [he]; rfl
  · refine (registerSupports_frame r t kw s).attr i a (fun h => ?_)
    have h2 := h.2
    simp only [supportTypes, List.mem_cons, List.not_mem_nil, or_false] at htt h2
    revert ha
    rcases htt with rfl | rfl | rfl <;> rcases h2 with rfl | rfl <;> decide +kernel

theorem registration_polynoms (c : RegCall K) {s t : SC K} (h : c.run s = .ok () t) :
    ∀ i a, a = "PolynomA" ∨ a = "PolynomB" → t.RING.attr i a = s.RING.attr i a := by
  intro i a ha
  have ha' : a ∈ ["PolynomA", "PolynomB"] := by simpa using ha
  have key : (c.run s).state.RING.attr i a = s.RING.attr i a := by
    cases c with
    | bpms o kw => exact C04_bpms_leave_lattice o kw s i a (Or.inr (by revert ha'; clear ha; revert a; decide +kernel))
    | cavities o kw => exact C04_cavities_leave_lattice o kw s i a (Or.inr (by revert ha'; clear ha; revert a; decide +kernel))
    | magnets o kw => exact C04_magnets_leave_lattice o kw s i a (Or.inr (by revert ha'; clear ha; revert a; decide +kernel))
    | supports r t kw =>
      show (registerSupports r t kw s).state.RING.attr i a = _
      rcases registerSupports_shape r t kw s with ⟨e, he⟩ | ⟨htt, -⟩
      · rw [he]; rfl
      · refine (registerSupports_frame r t kw s).attr i a (fun h => ?_)
        have h2 := h.2
        simp only [supportTypes, List.mem_cons, List.not_mem_nil, or_false] at htt h2
        revert ha'
        rcases htt with rfl | rfl | rfl <;> rcases h2 with rfl | rfl <;> decide +kernel
  rwa [h] at key

/-- **C68**: no call but `register_magnets` writes the design data of a magnet, whatever has happened before. -/
theorem C68_design_data_kept (W : World K) (before : List (Call K)) (c : Call K) (ring : Ring K) (rng : Nat)
    (hc : ∀ ords kw, c ≠ .register (.magnets ords kw)) (i : Nat) (a : String) (ha : a ∈ designNames) :
    (history W (before ++ [c]) (SC.init ring rng)).RING.attr i a = (history W before (SC.init ring rng)).RING.attr i a := by
  have hcons := C67_records_consistent W before ring rng
  unfold history at hcons ⊢
  rw [List.foldl_append]
  generalize before.foldl (fun s c => (c.run W s).state) (SC.init ring rng) = s at hcons ⊢
  show (c.run W s).state.RING.attr i a = s.RING.attr i a
  by_cases hr : c.IsRegistration
  swap
  · exact run_design W c hr s hcons.uncertainties i a ha
  cases c with
  | register c =>
    cases c with
    | bpms o kw => exact C04_bpms_leave_lattice o kw s i a (Or.inr (by revert a; decide +kernel))
    | cavities o kw => exact C04_cavities_leave_lattice o kw s i a (Or.inr (by revert a; decide +kernel))
    | magnets o kw => exact absurd rfl (hc o kw)
    | supports r t kw => exact supports_design r t kw s i a ha
  | _ => exact hr.elim

/-- **C68**: `register_magnets` takes the present polynomials as nominal ones. -/
theorem C68_nominal_of_registration (ords : List Nat) (kw : Kwargs K) (s s' : SC K) (h : registerMagnets ords kw s = .ok () s') :
    ∀ i ∈ ords, s'.RING.attr i "NomPolynomA" = s.RING.attr i "PolynomA" ∧ s'.RING.attr i "NomPolynomB" = s.RING.attr i "PolynomB" := by
  intro i hi
  have hf := registerMagnets_fresh h i hi
  obtain ⟨p, h1, h2, -⟩ := hf.poly "A" (by simp)
  obtain ⟨q, h3, h4, -⟩ := hf.poly "B" (by simp)
  simp only [String.reduceAppend] at h1 h2 h3 h4
  exact ⟨h2.trans h1.symm, h4.trans h3.symm⟩

/-- **C68**, what holds: if the registrations come first and succeed, the nominal fields of every registered magnet are the
fields of the design lattice from then on, whatever else is called, exceptions included.  What is missing: magnets registered
after errors have been applied (see `C68_violated_late_registration`). -/
theorem C68_nominal_partial (W : World K) (regs : List (RegCall K)) (later : List (Call K)) (hl : ∀ c ∈ later, ¬ c.IsRegistration)
    (ring : Ring K) (rng : Nat) (s : SC K) (h : Runs W (regs.map .register) (SC.init ring rng) s) :
    ∀ i ∈ (history W later s).ORD.Magnet,
      (history W later s).RING.attr i "NomPolynomA" = (history W later s).IDEALRING.attr i "PolynomA" ∧
      (history W later s).RING.attr i "NomPolynomB" = (history W later s).IDEALRING.attr i "PolynomB" := by
  -- after the registrations
  have key : ∀ (regs : List (RegCall K)) (s0 s : SC K), Runs W (regs.map .register) s0 s →
      (∀ i a, a = "PolynomA" ∨ a = "PolynomB" → s0.RING.attr i a = s0.IDEALRING.attr i a) →
      (∀ i ∈ s0.ORD.Magnet, ∀ ab ∈ ["A", "B"], s0.RING.attr i ("NomPolynom" ++ ab) = s0.IDEALRING.attr i ("Polynom" ++ ab)) →
      WellRegistered s0.SIG →
      (∀ i ∈ s.ORD.Magnet, ∀ ab ∈ ["A", "B"], s.RING.attr i ("NomPolynom" ++ ab) = s.IDEALRING.attr i ("Polynom" ++ ab)) ∧
      WellRegistered s.SIG := by
    intro regs
    induction regs with
    | nil => intro s0 s h _ h2 h3; rw [show s = s0 from h]; exact ⟨h2, h3⟩
    | cons c cs ih =>
      intro s0 s h h1 h2 h3
      obtain ⟨t, ht, h⟩ := h
      replace ht : c.run s0 = .ok () t := ht
      have hg := (registration_grow c).ok ht
      have hp : ∀ i a, a = "PolynomA" ∨ a = "PolynomB" → t.RING.attr i a = s0.RING.attr i a := registration_polynoms c ht
      have hw : WellRegistered t.SIG := by
        have := WR.call c s0 h3
        rw [ht] at this; exact this
      refine ih t s h (fun i a ha => by rw [hp i a ha, h1 i a ha, hg.ideal]) (fun i hi ab hab => ?_) hw
      rw [hg.ideal]
      have hab' : "Polynom" ++ ab = "PolynomA" ∨ "Polynom" ++ ab = "PolynomB" := by
        simp only [List.mem_cons, List.not_mem_nil, or_false] at hab
        rcases hab with rfl | rfl <;> decide +kernel
      have hd : "NomPolynom" ++ ab ∈ designNames := by
        simp only [List.mem_cons, List.not_mem_nil, or_false] at hab
        rcases hab with rfl | rfl <;> decide +kernel
      cases c with
      | bpms o kw =>
        have e1 := C04_bpms_leave_lattice o kw s0 i ("NomPolynom" ++ ab) (Or.inr (by revert hd; generalize "NomPolynom" ++ ab = a; revert a; decide +kernel))
        have e2 := registerBpms_ord o kw s0
        replace ht : registerBpms o kw s0 = .ok () t := ht
        rw [ht] at e1 e2
        rcases e2 with ⟨e, e2⟩ | e2
        · cases e2
        · rw [show t.ORD = _ from e2] at hi
          exact e1.trans (h2 i hi ab hab)
      | cavities o kw =>
        have e1 := C04_cavities_leave_lattice o kw s0 i ("NomPolynom" ++ ab) (Or.inr (by revert hd; generalize "NomPolynom" ++ ab = a; revert a; decide +kernel))
        have e2 := registerCavities_ord o kw s0
        replace ht : registerCavities o kw s0 = .ok () t := ht
        rw [ht] at e1 e2
        rcases e2 with ⟨e, e2⟩ | e2
        · cases e2
        · rw [show t.ORD = _ from e2] at hi
          exact e1.trans (h2 i hi ab hab)
      | magnets o kw =>
        replace ht : registerMagnets o kw s0 = .ok () t := ht
        by_cases hio : i ∈ o
        · obtain ⟨p, q1, q2, -⟩ := (registerMagnets_fresh ht i hio).poly ab hab
          rw [q2, ← q1]
          exact h1 i _ hab'
        · have e1 := C04_magnets_leave_lattice o kw s0 i ("NomPolynom" ++ ab) (Or.inl hio)
          rw [ht] at e1
          have hu := (C01_magnets_union o kw s0 t ht).1 i
          exact e1.trans (h2 i ((hu.1 hi).resolve_right hio) ab hab)
      | supports r tt kw =>
        have e1 := supports_design r tt kw s0 i _ hd
        replace ht : registerSupports r tt kw s0 = .ok () t := ht
        have e2 : t.ORD.Magnet = s0.ORD.Magnet := by
          rcases registerSupports_shape r tt kw s0 with ⟨e, he⟩ | ⟨-, -, -, new, -, he⟩
          · rw [he] at ht; cases ht
          · have hl := supportLoops_ord r tt kw { s0 with ORD := s0.ORD.setPairs tt new }
            rw [← he, ht] at hl
            rw [show t.ORD = _ from hl, (Ords.setPairs_other (o := s0.ORD) (t := tt) (v := new)).2.2.1]
        rw [ht] at e1
        rw [e2] at hi
        exact e1.trans (h2 i hi ab hab)
  obtain ⟨k1, k2⟩ := key regs (SC.init ring rng) s h (fun _ _ _ => rfl) (fun i hi => by cases hi) (wellRegistered_init ring rng)
  -- afterwards
  have keep : ∀ (later : List (Call K)), (∀ c ∈ later, ¬ c.IsRegistration) → ∀ s : SC K, WellRegistered s.SIG →
      Keeps s (history W later s) ∧ DesignKept s.RING (history W later s).RING := by
    intro later
    induction later with
    | nil => exact fun _ s _ => ⟨PreRel.refl s, fun _ _ _ => rfl⟩
    | cons c cs ih =>
      intro hl s hw
      have hk := run_keeps W c (hl c (by simp)) s
      obtain ⟨i1, i2⟩ := ih (fun c hc => hl c (by simp [hc])) (c.run W s).state (by rw [hk.sig]; exact hw)
      exact ⟨PreRel.trans (R := Keeps) _ _ _ hk i1, fun i a ha => (i2 i a ha).trans (run_design W c (hl c (by simp)) s hw i a ha)⟩
  obtain ⟨g1, g2⟩ := keep later hl s k2
  intro i hi
  rw [g1.ord] at hi
  rw [g1.toGrow.ideal]
  constructor
  · exact (g2 i _ (by decide +kernel)).trans (k1 i hi "A" (by simp))
  · exact (g2 i _ (by decide +kernel)).trans (k1 i hi "B" (by simp))

-- registrations followed by errors and set-points: the field has changed, the nominal field has not
example : ∃ s, Runs Example.world (([.magnets [2] [("CalErrorB", .vec [0, 1/10])]] : List (RegCall ℚ)).map .register) Example.raw s ∧
    (history Example.world [.applyErrors 2] s).RING.attr 2 "PolynomB" ≠ Example.rawRing.attr 2 "PolynomB" :=
  ⟨_, ⟨_, ok_of_isOk (by decide +kernel), rfl⟩, by decide +kernel⟩

/-- a magnet with errors is registered -/
def Example.late : List (Call ℚ) := [.register (.magnets [2] [("CalErrorB", .vec [0, 1/10])]), .applyErrors 2, .register (.magnets [2] [])]

/-- **C68** is violated: registering a magnet (again) after errors have been applied makes its field errors part of its
nominal fields. -/
theorem C68_violated_late_registration :
    Runs Example.world Example.late Example.raw (history Example.world Example.late Example.raw) ∧
    2 ∈ (history Example.world Example.late Example.raw).ORD.Magnet ∧
    (history Example.world Example.late Example.raw).RING.attr 2 "NomPolynomB" ≠ Example.rawRing.attr 2 "PolynomB" := by
  refine ⟨⟨_, ok_of_isOk (by decide +kernel), _, ok_of_isOk (by decide +kernel), _, ok_of_isOk (by decide +kernel), rfl⟩,
    by decide +kernel, by decide +kernel⟩

end PySC
