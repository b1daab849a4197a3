import Verif.Lemmas.SessionLimits
import Verif.Props.History
import Verif.Props.Bba
import Verif.Props.Rf
import Verif.Props.Tune
import Verif.Props.Chroma
import Verif.Props.Injection
import Verif.Props.LocoWrapper
/-
C90: whole sessions, from registration over errors to every correction and measurement.
-/
namespace PySC
open Py Spec
set_option linter.unusedSectionVars false
variable {K : Type} [Field K] [LinearOrder K] [IsStrictOrderedRing K] [FloorRing K]

/-- **C90**: whatever is done in whatever order – registrations, errors, every correction, every measurement, failures included –, the design
lattice stays as it is; elements of the machine are neither added nor removed, and they lose no attribute. -/
theorem C90_design_lattice (L : Lab K) (steps : List (Step K)) (s : SC K) :
    (sessionOf L steps s).IDEALRING = s.IDEALRING ∧ (sessionOf L steps s).RING.length = s.RING.length ∧
    ∀ i a, (s.RING.attr i a).isSome → ((sessionOf L steps s).RING.attr i a).isSome := by
  have : Grow s (sessionOf L steps s) := by
    unfold sessionOf
    induction steps generalizing s with
    | nil => exact PreRel.refl s
    | cons c cs ih => exact PreRel.trans (R := Grow) _ _ _ (step_grow L c s) (ih _)
  exact ⟨this.ideal, this.ring.len, this.ring.some⟩

theorem session_keeps (L : Lab K) (steps : List (Step K)) (h : ∀ t ∈ steps, ¬ t.IsRegistration) (s : SC K) :
    Keeps s (sessionOf L steps s) := by
  unfold sessionOf
  induction steps generalizing s with
  | nil => exact PreRel.refl s
  | cons c cs ih =>
    exact PreRel.trans (R := Keeps) _ _ _ (step_keeps L c (h c (List.mem_cons_self ..)) s)
      (ih (fun t ht => h t (List.mem_cons_of_mem _ ht)) _)

/-- **C90**: without registrations the records – which elements are BPMs, cavities, magnets, correctors and supports, and the registered
uncertainties – stay as they are, and so do the design data of magnets: their nominal fields, limits, children and bending angles. -/
theorem C90_records (L : Lab K) (steps : List (Step K)) (h : ∀ t ∈ steps, ¬ t.IsRegistration) (s : SC K) (hw : WellRegistered s.SIG) :
    (sessionOf L steps s).ORD = s.ORD ∧ (sessionOf L steps s).SIG = s.SIG ∧
    ∀ i, ∀ a ∈ designNames, (sessionOf L steps s).RING.attr i a = s.RING.attr i a := by
  refine ⟨(session_keeps L steps h s).ord, (session_keeps L steps h s).sig, ?_⟩
  unfold sessionOf
  induction steps generalizing s with
  | nil => exact fun _ _ _ => rfl
  | cons c cs ih =>
    have hc := h c (List.mem_cons_self ..)
    intro i a ha
    refine (ih (fun t ht => h t (List.mem_cons_of_mem _ ht)) _ ?_ i a ha).trans (step_design L c hc s hw i a ha)
    rw [(step_keeps L c hc s).sig]; exact hw

/-- **C90**: the records of a machine agree with each other after every session on a new object, failures included. -/
theorem C90_consistent (L : Lab K) (steps : List (Step K)) (ring : Ring K) (rng : Nat) :
    Consistent (sessionOf L steps (SC.init ring rng)) := by
  have step : ∀ (t : Step K) (s : SC K), Consistent s → Consistent (t.run L s).state := by
    intro t s hc
    by_cases hr : t.IsRegistration
    · cases t with
      | call c =>
        cases c with
        | register c => exact consistent_register c s hc (C01_lists_stay_sorted [c] s hc.tidy)
        | _ => exact hr.elim
      | _ => exact hr.elim
    · have hk := step_keeps L t hr s
      refine ⟨?_, ?_, ?_, ?_, ?_, ?_, ?_, ?_, ?_, ?_, ?_⟩ <;> (try rw [hk.ord]) <;> (try rw [hk.sig])
      exacts [hc.tidy, hc.girders, hc.plinths, hc.sections, hc.hcm, hc.vcm, hc.skewQuad, hc.sigBpm, hc.sigRf, hc.sigMagnet,
        hc.uncertainties]
  have h0 : Consistent (SC.init ring rng) := by
    refine ⟨by constructor <;> exact List.Pairwise.nil, List.Pairwise.nil, List.Pairwise.nil, List.Pairwise.nil, ?_, ?_, ?_, ?_, ?_, ?_,
      wellRegistered_init ring rng⟩ <;> intro i hi <;> cases hi
  unfold sessionOf
  generalize SC.init ring rng = s at h0
  induction steps generalizing s with
  | nil => exact h0
  | cons c cs ih => exact ih _ (step c s h0)

/-- **C90**: if no step failed, every registered element has an entry among the uncertainties and carries the attributes of its kind,
whatever was corrected and measured in between. -/
theorem C90_fully_registered (L : Lab K) (steps : List (Step K)) (ring : Ring K) (rng : Nat) (s : SC K)
    (h : Completes L steps (SC.init ring rng) s) : FullyRegistered s := by
  have step : ∀ (t : Step K) (s s' : SC K), FullyRegistered s → t.run L s = .ok () s' → FullyRegistered s' := by
    intro t s s' hf hc
    by_cases hr : t.IsRegistration
    · cases t with
      | call c =>
        cases c with
        | register c => exact fullyRegistered_register c s s' hf hc
        | _ => exact hr.elim
      | _ => exact hr.elim
    · have hk := (step_keeps L t hr).ok hc
      have hs := hk.toGrow.ring.some
      refine ⟨?_, ?_, ?_, ?_, ?_, ?_, ?_, ?_, ?_⟩ <;> rw [hk.ord] <;> (try rw [hk.sig])
      · exact fun i hi => ⟨(hf.bpm i hi).1, fun a ha => hs _ _ ((hf.bpm i hi).2 a ha)⟩
      · exact fun i hi => ⟨(hf.rf i hi).1, fun a ha => hs _ _ ((hf.rf i hi).2 a ha)⟩
      · exact fun i hi => ⟨(hf.magnet i hi).1, fun a ha => hs _ _ ((hf.magnet i hi).2 a ha)⟩
      · exact fun i hi => hs _ _ (hf.hcm i hi)
      · exact fun i hi => hs _ _ (hf.vcm i hi)
      · exact fun i hi => hs _ _ (hf.skewQuad i hi)
      · exact fun p hp i hi a ha => hs _ _ (hf.girder p hp i hi a ha)
      · exact fun p hp i hi a ha => hs _ _ (hf.plinth p hp i hi a ha)
      · exact fun p hp i hi a ha => hs _ _ (hf.sections p hp i hi a ha)
  have h0 : FullyRegistered (SC.init ring rng) := by
    refine ⟨?_, ?_, ?_, ?_, ?_, ?_, ?_, ?_, ?_⟩ <;> intro i hi <;> cases hi
  generalize SC.init ring rng = s0 at h h0
  induction steps generalizing s0 with
  | nil => rw [show s = s0 from h]; exact h0
  | cons c cs ih =>
    obtain ⟨t, ht, h⟩ := h
    exact ih t h (step c s0 t h0 ht)

/-- **C90**, what holds: no correction, measurement, error or request of a session sets a corrector beyond its limits.  What is missing:
steps which ask for dipole components of magnets by their order (see `C90_violated_dipole_component`), and elements with corrector
limits which are drifts or cavities. -/
theorem C90_limits_partial (L : Lab K) (steps : List (Step K)) (h : ∀ t ∈ steps, ¬ t.IsRegistration)
    (hk : ∀ t ∈ steps, t.chosenOrder ≠ some 0) (s : SC K) (hw : WellRegistered s.SIG) (hm : SteeringMagnets s)
    (hs : AllKicksWithin s.RING) : AllKicksWithin (sessionOf L steps s).RING := by
  have key : Steerable (sessionOf L steps s) := by
    have h0 : Steerable s := ⟨hs, hm⟩
    clear hs hm
    unfold sessionOf
    induction steps generalizing s with
    | nil => exact h0
    | cons c cs ih =>
      have hc := h c (List.mem_cons_self ..)
      refine ih (fun t ht => h t (List.mem_cons_of_mem _ ht)) (fun t ht => hk t (List.mem_cons_of_mem _ ht)) _ ?_
        (step_limits L c hc (hk c (List.mem_cons_self ..)) s hw h0)
      rw [(step_keeps L c hc s).sig]; exact hw
  exact key.1

/-! ### examples -/

/-- a laboratory for the examples -/
def Example.laboratory : Lab ℚ where
  toWorld := Example.world
  rf := Example.saw
  tune := Example.scan
  injection := Example.injection
  bba := Example.bbaEnv
  minimiser := Example.twoPoints
  fuel := 10
  chromaMerit := fun _ _ => some 1
  chromaOf := fun _ => (some 1, some 1)
  tunesOf := fun _ => .ok ()

/-- errors, requests (one of them beyond a limit, one with too many values), corrections and measurements -/
def Example.campaign : List (Step ℚ) :=
  [.call (.applyErrors 2), .call (.setCM [1] ⟨false, [1, 2]⟩ false "abs"), .call (.setCM [1] ⟨false, [1]⟩ false "abs"),
   .call (.switches ["radiationon", "cavityoff"]), .fakeBba [[0], [0]] [[2], [2]] none none,
   .bpmOffsets [[0], [0]] [[some (1/1000)], [none]] [[some (1/10000)], [none]],
   .setCorrection ⟨false, [1/100]⟩ [3] false 1 "add" true, .fitChroma [[2]] none [1, 1], .rfFrequency none none 3 (-1, 1),
   .call (.correct [] none none none 1 1 3 0), .modelRing]

theorem allKicks_of_all {r : Ring K} (h : ∀ i < r.length, ∀ sk, Within (kickLimit r i sk) (kick r i sk)) : AllKicksWithin r := by
  intro i sk
  by_cases hi : i < r.length
  · exact h i hi sk
  · have : r.attr i "CMlimit" = none := by
      by_contra hne
      obtain ⟨v, hv⟩ := Option.ne_none_iff_exists'.1 hne
      exact hi (Ring.attr_some_lt hv)
    unfold kickLimit
    rw [this]; trivial

theorem steering_of_all {s : SC K} (h : ∀ i < s.RING.length, (s.RING.attr i "CMlimit").isSome →
    s.RING.attr i "PassMethod" ≠ some (.str "DriftPass") ∧ s.RING.attr i "Frequency" = none ∧
    s.RING.attr i "FrequencyOffset" = none ∧ i ∉ s.ORD.RF) : SteeringMagnets s :=
  fun i hi => h i (Ring.isSome_lt hi) hi

-- the hypotheses are met, the session changes the machine, and a corrector ends at its limit
example : WellRegistered Example.lab.SIG ∧ SteeringMagnets Example.lab ∧ AllKicksWithin Example.lab.RING ∧
    (∀ t ∈ Example.campaign, ¬ t.IsRegistration) ∧ (∀ t ∈ Example.campaign, t.chosenOrder ≠ some 0) :=
  ⟨C03_only_uncertainties_stored _ _ _, steering_of_all (by decide +kernel), allKicks_of_all (by decide +kernel), by
    intro t ht
    simp only [Example.campaign, List.mem_cons, List.not_mem_nil, or_false] at ht
    rcases ht with rfl | rfl | rfl | rfl | rfl | rfl | rfl | rfl | rfl | rfl | rfl <;> exact id, by
    intro t ht
    simp only [Example.campaign, List.mem_cons, List.not_mem_nil, or_false] at ht
    rcases ht with rfl | rfl | rfl | rfl | rfl | rfl | rfl | rfl | rfl | rfl | rfl <;> decide +kernel⟩

example : (let s := sessionOf Example.laboratory (Example.campaign.take 10) Example.lab
     kick s.RING 1 false = 1/1000 ∧ kickLimit s.RING 1 false = .fin (1/1000) ∧
     s.RING.attr 3 "SetPointB" ≠ Example.lab.RING.attr 3 "SetPointB" ∧ s.RING.attr 2 "SetPointB" ≠ Example.lab.RING.attr 2 "SetPointB" ∧
     s.RING.attr 0 "Offset" ≠ Example.lab.RING.attr 0 "Offset" ∧ s.RING.attr 3 "PassMethod" ≠ Example.lab.RING.attr 3 "PassMethod") := by
  decide +kernel

-- steps without failures
example : ∃ s, Completes Example.laboratory [.call (.register (.magnets [2] [("HCM", .num 1), ("CalErrorB", .vec [0, 1/10])])),
    .call (.applyErrors 2), .call (.register (.bpms [0] [])), .setCorrection ⟨false, [1/100]⟩ [2] false 1 "add" true,
    .bpmOffsets [[0], [0]] [[some (1/1000)], [none]] [[some (1/10000)], [none]]] Example.raw s ∧ s.ORD.Magnet = [2] ∧ s.ORD.BPM = [0] :=
  ⟨_, ⟨_, ok_of_isOk (by decide +kernel), _, ok_of_isOk (by decide +kernel), _, ok_of_isOk (by decide +kernel), _,
    ok_of_isOk (by decide +kernel), _, ok_of_isOk (by decide +kernel), rfl⟩, by decide +kernel, by decide +kernel⟩

/-- **C90** is violated: the dipole component can be set by its order, and then the limit of the corrector is not respected. -/
theorem C90_violated_dipole_component : ∃ (t : Step ℚ), (t.run Example.laboratory Example.lab).isOk = true ∧
    AllKicksWithin Example.lab.RING ∧ ¬ AllKicksWithin (t.run Example.laboratory Example.lab).state.RING :=
  ⟨.call (.setMagnet [1] ⟨false, [5]⟩ false 0 "abs" false), by decide +kernel, allKicks_of_all (by decide +kernel), fun h =>
    absurd (h 1 false) (by decide +kernel)⟩

end PySC
