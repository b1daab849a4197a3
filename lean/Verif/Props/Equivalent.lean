import Verif.Lemmas.Equivalent
import Verif.Props.Instruments
import Verif.Props.Pieces
/-
C112: how the uncertainties were registered has no influence on anything that follows, also for a given seed.
-/
namespace PySC
set_option linter.unusedSectionVars false
variable {K : Type} [Field K] [LinearOrder K] [FloorRing K]
open Py Spec

/-- **C112**: On equivalent machines whatever the user does returns normally or raises the same exception, and the machines stay
equivalent.  This includes the generation of errors from the same position of the same stream of random numbers. -/
theorem C112_step (L : Lab K) (c : Step K) (s t : SC K) (h : Equivalent s t) :
    (c.run L s).err? = (c.run L t).err? ∧ Equivalent (c.run L s).state (c.run L t).state :=
  ⟨((same_step L c).sameRun s t h).2.1, ((same_step L c).sameRun s t h).2.2⟩

/-- … for every sequence of steps, the user catching exceptions -/
theorem C112_session (L : Lab K) (steps : List (Step K)) (s t : SC K) (h : Equivalent s t) :
    outcomes L steps s = outcomes L steps t ∧ Equivalent (sessionOf L steps s) (sessionOf L steps t) := by
  induction steps generalizing s t with
  | nil => exact ⟨rfl, h⟩
  | cons c cs ih =>
    obtain ⟨h1, h2⟩ := C112_step L c s t h
    obtain ⟨i1, i2⟩ := ih _ _ h2
    exact ⟨by show _ :: _ = _ :: _; rw [h1, i1], i2⟩

/-- What is measured on equivalent machines is equal: bunches, readings (also at all elements), transmissions, and everything made
from them. -/
theorem C112_measurements (E : Env K) (B : BeamEnv K) :
    (∀ n, SameRun Equivalent (generateBunches E B n)) ∧
    (∀ bpms errors, SameRun Equivalent (bpmReading E B bpms errors)) ∧
    (∀ n t, SameRun Equivalent (beamTransmission E B n t)) ∧
    SameRun Equivalent (allElementsReading E B) ∧
    (∀ amp d bpms cms, SameRun Equivalent (locoMeasurement E B amp d bpms cms)) ∧
    SameInstruments E B Equivalent :=
  ⟨fun n => (same_generateBunches E B n).sameRun, fun b c => (same_bpmReading E B b c).sameRun,
    fun n t => (same_beamTransmission E B n t).sameRun, (same_allElementsReading E B).sameRun,
    fun a d b c => (same_locoMeasurement E B a d b c).sameRun, equivalent_instruments E B⟩

/-- Copies of equivalent machines are equivalent. -/
theorem C112_copy (s t : SC K) (h : Equivalent s t) :
    (veryDeepCopy s).err? = (veryDeepCopy t).err? ∧
    ∀ a s' b t', veryDeepCopy s = .ok a s' → veryDeepCopy t = .ok b t' → Equivalent a b := by
  rcases veryDeepCopy_sync s t h with ⟨a, b, s', t', h1, h2, hv, -⟩ | ⟨e, s', t', h1, h2, -⟩
  · refine ⟨by rw [h1, h2]; rfl, fun a' _ b' _ g1 g2 => ?_⟩
    rw [h1] at g1; rw [h2] at g2
    cases g1; cases g2
    exact hv
  · refine ⟨by rw [h1, h2]; rfl, fun a' _ b' _ g1 g2 => ?_⟩
    rw [h1] at g1; cases g1

/-- **C112**: The order in which calls concerning different elements are made – registrations of BPMs, cavities and magnets, systematic
multipole errors, set-points – has no influence on any later session: neither on its exceptions nor on the machine it leads to,
including the errors drawn for a given seed. -/
theorem C112_registration_order (L : Lab K) (l l' : List (Call K)) (s : SC K) (ht : Tidy s.ORD) (hl : l.Pairwise (Apart s))
    (hp : l.Perm l') (steps : List (Step K)) :
    outcomes L steps (history L.toWorld l s) = outcomes L steps (history L.toWorld l' s) ∧
    Equivalent (sessionOf L steps (history L.toWorld l s)) (sessionOf L steps (history L.toWorld l' s)) :=
  C112_session L steps _ _ (C91_any_order L.toWorld l l' s ht hl hp).1.equivalent

/-- … in particular both end with the same ring. -/
theorem C112_same_ring (L : Lab K) (l l' : List (Call K)) (s : SC K) (ht : Tidy s.ORD) (hl : l.Pairwise (Apart s))
    (hp : l.Perm l') (steps : List (Step K)) :
    (sessionOf L steps (history L.toWorld l s)).RING = (sessionOf L steps (history L.toWorld l' s)).RING :=
  (C112_registration_order L l l' s ht hl hp steps).2.ring

theorem likeOne_of_sameResult {m m' : Py (SC K) Unit} {s u : SC K} (h : SameResult (m s) (m' s)) (hu : m s = .ok () u) (L : Lab K) :
    ∃ u', m' s = .ok () u' ∧ ∀ steps, LikeOne L steps u u' := by
  rw [hu] at h
  cases h' : m' s with
  | ok a u' => rw [h'] at h; exact ⟨u', rfl, fun steps => C112_session L steps u u' (Alike.equivalent h)⟩
  | error e u' => rw [h'] at h; exact h.elim

/-- **C112**: Whether elements were registered in one call or in two has no influence on any later session: if the one call returns,
so do the two, and from then on nothing tells the machines apart. -/
theorem C112_pieces (L : Lab K) (kw : Kwargs K) (hk : kw.keys.Nodup) (a b c : List Nat) (hc : ∀ i, i ∈ c ↔ i ∈ a ∨ i ∈ b) (s u : SC K) :
    (registerBpms c kw s = .ok () u → ∃ u', (registerBpms a kw >>= fun _ => registerBpms b kw) s = .ok () u' ∧ ∀ steps, LikeOne L steps u u') ∧
    (registerCavities c kw s = .ok () u →
      ∃ u', (registerCavities a kw >>= fun _ => registerCavities b kw) s = .ok () u' ∧ ∀ steps, LikeOne L steps u u') ∧
    ("MasterOf" ∉ kw.keys → registerMagnets c kw s = .ok () u →
      ∃ u', (registerMagnets a kw >>= fun _ => registerMagnets b kw) s = .ok () u' ∧ ∀ steps, LikeOne L steps u u') :=
  ⟨fun h => likeOne_of_sameResult (C101_bpms kw hk a b c hc s) h L, fun h => likeOne_of_sameResult (C101_cavities kw hk a b c hc s) h L,
    fun hm h => likeOne_of_sameResult (C101_magnets kw hk hm a b c hc s) h L⟩

/-- **C112** is sharp: the order of the keywords of one element does matter for a given seed. -/
theorem C112_keywords : ∃ s t : SC ℚ, registerBpms [0] [("Roll", .num 1), ("SumError", .num 1)] Example.raw = .ok () s ∧
    registerBpms [0] [("SumError", .num 1), ("Roll", .num 1)] Example.raw = .ok () t ∧
    (applyErrors Example.env 2 s).state.RING ≠ (applyErrors Example.env 2 t).state.RING := by
  refine ⟨_, _, ok_of_isOk (by decide +kernel), ok_of_isOk (by decide +kernel), fun h => ?_⟩
  have := congrArg (fun r => Ring.attr r 0 "Roll") h
  revert this
  decide +kernel

/-! ### examples -/

/-- registrations of different elements -/
def Example.inventory : List (Call ℚ) :=
  [.register (.bpms [0] [("Roll", .num 1), ("Offset", .vec [1, 1])]), .register (.bpms [6] [("Roll", .num 2)]),
   .register (.cavities [4] [("VoltageCalError", .num 1)]), .register (.magnets [2] [("CalErrorB", .vec [0, 1]), ("HCM", .num 1)])]

theorem Example.inventory_apart : Example.inventory.Pairwise (Apart Example.raw) := by
  unfold Example.inventory
  simp only [List.pairwise_cons, List.mem_cons, List.not_mem_nil, or_false, forall_eq_or_imp, forall_eq, List.Pairwise.nil,
    and_true, IsEmpty.forall_iff, implies_true]
  refine ⟨⟨?_, ?_, ?_⟩, ⟨?_, ?_⟩, ?_⟩ <;> exact apart_of rfl rfl (by decide +kernel)

-- registering in reverse order fills the dictionaries in another order; the machines are equivalent, and a campaign draws errors
example : Tidy Example.raw.ORD ∧ Example.inventory.Pairwise (Apart Example.raw) ∧ Example.inventory.Perm Example.inventory.reverse ∧
    (history Example.laboratory.toWorld Example.inventory Example.raw).SIG.BPM.keys = [0, 6] ∧
    (history Example.laboratory.toWorld Example.inventory.reverse Example.raw).SIG.BPM.keys = [6, 0] ∧
    (sessionOf Example.laboratory Example.campaign (history Example.laboratory.toWorld Example.inventory.reverse Example.raw)).RING.attr 6 "Roll"
      = some (.num 1) ∧
    (outcomes Example.laboratory Example.campaign (history Example.laboratory.toWorld Example.inventory Example.raw)).head? = some none :=
  ⟨C01_lists_of_new_object _ _ [], Example.inventory_apart, (List.reverse_perm _).symm, by decide +kernel, by decide +kernel,
    by decide +kernel, by decide +kernel⟩

-- one registration of two BPMs
example : (registerBpms [0, 6] [("Roll", .num 1)] Example.raw).isOk = true ∧ (∀ i, i ∈ [0, 6] ↔ i ∈ [6] ∨ i ∈ [0]) :=
  ⟨by decide +kernel, fun i => by simp; tauto⟩

end PySC
