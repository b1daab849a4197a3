import Verif.Lemmas.Reproducible
import Verif.Props.Applicable
import Verif.Props.History
/-
C108: with the same seed a machine gets the same errors, whatever it was used for before.
-/
namespace PySC
set_option linter.unusedSectionVars false
open Py Spec

section
variable {K : Type} [Field K] [LinearOrder K] [IsStrictOrderedRing K] [FloorRing K]

/-- **C108**: machines which were prepared in the same way get the same errors from the same random numbers.  Their set-points, fields, pass
methods, tracking and previous errors may be different. -/
theorem C108_same_preparation (E : Env K) (nsigmas : K) {s t s' t' : SC K} (hw : WellRegistered s.SIG) (hp : SamePreparation s t)
    (hr : t.rng = s.rng) (h1 : applyErrors E nsigmas s = .ok () s') (h2 : applyErrors E nsigmas t = .ok () t') : SameErrors s' t' :=
  applyErrors_twin hw hp hr h1 h2

/-- **C108**: so errors do not depend on what a machine was used for after its preparation, once the generator has been seeded again: set-points,
multipole errors, updates, switches, measurements, corrections, successful or not, in any number and order. -/
theorem C108_after_use (W : World K) (calls : List (Call K)) (hc : ∀ c ∈ calls, c.IsUse) (seed : Nat) (nsigmas : K) {s s' t' : SC K}
    (hw : WellRegistered s.SIG) (hd : NoDriftCavity s) (h1 : applyErrors W.E nsigmas { s with rng := seed } = .ok () s')
    (h2 : applyErrors W.E nsigmas { history W calls s with rng := seed } = .ok () t') : SameErrors s' t' := by
  obtain ⟨hp, -, -⟩ := history_prepared W hd calls hc
  exact applyErrors_twin (s := { s with rng := seed }) (t := { history W calls s with rng := seed }) hw
    ⟨hp.ord, hp.sig, hp.ideal, hp.length, hp.geometry, hp.drifts, hp.errors⟩ rfl h1 h2

/-- **C108**: the generator needs no new seed if it was not used: set-points, systematic multipole errors, updates, switches, and assignments to
the injection settings draw no random numbers, not even when they fail. -/
theorem C108_quiet (W : World K) (calls : List (Call K)) (hc : ∀ c ∈ calls, c.IsUse ∧ c.IsQuiet) (nsigmas : K) {s s' t' : SC K}
    (hw : WellRegistered s.SIG) (hd : NoDriftCavity s) (h1 : applyErrors W.E nsigmas s = .ok () s')
    (h2 : applyErrors W.E nsigmas (history W calls s) = .ok () t') : SameErrors s' t' :=
  applyErrors_twin hw (history_prepared W hd calls (fun c h => (hc c h).1)).same (history_quiet W calls hc s) h1 h2

/-- **C108**: and using a machine leaves it prepared as it was. -/
theorem C108_use_keeps_preparation (W : World K) (calls : List (Call K)) (hc : ∀ c ∈ calls, c.IsUse) {s : SC K} (hd : NoDriftCavity s) :
    SamePreparation s (history W calls s) := (history_prepared W hd calls hc).same

end

/-! ### examples -/

/-- a machine which is switched, steered (once without success), read, and displaced -/
def Example.beamtime : List (Call ℚ) :=
  [.setCM [7] ⟨false, [1]⟩ false "abs", .setMagnet [2] ⟨false, [3]⟩ false 1 "abs" false, .switches ["cavityoff", "radiationon"],
   .updateSupports true true, .bunches (some 2), .setCavity [4] ⟨false, [3]⟩ "Voltage" "rel"]
/-- the same without random numbers -/
def Example.quietTime : List (Call ℚ) := Example.beamtime.filter (fun c => match c with | .bunches _ => false | _ => true)
/-- an outside world -/
def Example.outside : World ℚ := ⟨Example.dice, Example.beam, Example.lineOrbit⟩

theorem beamtime_use : ∀ c ∈ Example.beamtime, c.IsUse := by
  simp [Example.beamtime, Call.IsUse]

theorem orderly_noDriftCavity : NoDriftCavity Example.orderly := by
  have h : ∀ i < Example.orderly.RING.length, i ∈ Example.orderly.ORD.RF ∨ (Example.orderly.RING.attr i "Frequency").isSome ∨
      (Example.orderly.RING.attr i "FrequencyOffset").isSome → Example.orderly.RING.attr i "PassMethod" ≠ some (.str "DriftPass") := by decide +kernel
  intro i hi
  by_cases hl : i < Example.orderly.RING.length
  · exact h i hl hi
  · have : Example.orderly.RING.attr i "PassMethod" = none := by
      unfold Ring.attr; rw [List.getElem?_eq_none (by omega)]; rfl
    rw [this]; simp

-- it leaves traces: random numbers were used, and set-points, pass methods, fields changed
example :
    let t := history Example.outside Example.beamtime Example.orderly
    t.rng ≠ Example.orderly.rng ∧ t.RING.attr 2 "PassMethod" = some (.str "StrMPoleSymplectic4RadPass") ∧
    t.RING.attr 4 "PassMethod" = some (.str "IdentityPass") ∧ t.RING.attr 4 "VoltageSetPoint" = some (.num 3000) ∧
    t.RING.attr 2 "SetPointB" ≠ Example.orderly.RING.attr 2 "SetPointB" := by decide +kernel
-- the errors are the same nevertheless, here after seeding the generator with 5
example : SameErrors (applyErrors Example.dice 2 { Example.orderly with rng := 5 }).state
    (applyErrors Example.dice 2 { history Example.outside Example.beamtime Example.orderly with rng := 5 }).state :=
  C108_after_use Example.outside Example.beamtime beamtime_use 5 2 orderly_registered orderly_noDriftCavity
    (ok_of_isOk (by decide +kernel)) (ok_of_isOk (by decide +kernel))
-- without seeding
example : SameErrors (applyErrors Example.dice 2 Example.orderly).state
    (applyErrors Example.dice 2 (history Example.outside Example.quietTime Example.orderly)).state :=
  C108_quiet Example.outside Example.quietTime (by simp [Example.quietTime, Example.beamtime, Call.IsUse, Call.IsQuiet]) 2 orderly_registered
    orderly_noDriftCavity (ok_of_isOk (by decide +kernel)) (ok_of_isOk (by decide +kernel))
-- these are not the errors of another seed
example : (applyErrors Example.dice 2 { Example.orderly with rng := 4 }).state.RING.attr 2 "MagnetOffset" ≠
    (applyErrors Example.dice 2 { Example.orderly with rng := 5 }).state.RING.attr 2 "MagnetOffset" := by decide +kernel

/-- the machine with its cavity parked as a drift of length 1 -/
def Example.driftCavity : SC ℚ :=
  { Example.orderly with RING := (Example.orderly.RING.setAttr 4 "PassMethod" (.str "DriftPass")).setAttr 4 "Length" (.num 1) }

/-- **C108**: cavities which are drifts until they are switched on are an exception: they take part in the change of the circumference only while
they are drifts. -/
theorem C108_drift_cavity : ∃ (W : World ℚ) (s s' t' : SC ℚ), WellRegistered s.SIG ∧ applyErrors W.E 2 s = .ok () s' ∧
    applyErrors W.E 2 (history W [.switches ["cavityon"]] s) = .ok () t' ∧ s'.RING.attr 6 "Length" ≠ t'.RING.attr 6 "Length" :=
  ⟨Example.outside, Example.driftCavity, (applyErrors Example.dice 2 Example.driftCavity).state,
    (applyErrors Example.dice 2 (history Example.outside [.switches ["cavityon"]] Example.driftCavity)).state, orderly_registered,
    ok_of_isOk (by decide +kernel), ok_of_isOk (by decide +kernel), by decide +kernel⟩

end PySC
