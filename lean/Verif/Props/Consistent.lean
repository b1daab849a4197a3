import Verif.Lemmas.Consistent
import Verif.Props.Restore
import Verif.Props.History
import Verif.Props.LocoWrapper
/-
C83: after errors have been applied the fields agree with set-points and errors.
-/
namespace PySC
open Py Spec
set_option linter.unusedSectionVars false
variable {K : Type} [Field K] [LinearOrder K] [IsStrictOrderedRing K] [FloorRing K]

/-- **C83**: after `apply_errors` the fields of every registered magnet are those implied by its set-points and its new errors: updating
it changes nothing. -/
theorem C83_magnets (E : Env K) (n : K) (s s' : SC K) (hw : WellRegistered s.SIG) (hsep : Separate s)
    (h : applyErrors E n s = .ok () s') : UpToDate s' ∧ Separate s' := by
  have hd := applyErrors_design E n s hw
  have hf := applyErrors_frame (E := E) (n := n) hw
  rw [h] at hd hf
  replace hf : ErrFrame (errorAttrs s) s s' := hf
  have hm : ∀ i, s'.RING.attr i "MasterOf" = s.RING.attr i "MasterOf" :=
    fun i => hd i "MasterOf" (by decide +kernel)
  have haff : ∀ o t, Affects s'.RING o t ↔ Affects s.RING o t := fun o t => by unfold Affects; rw [hm]
  have hsep' : Separate s' := by
    intro o ho o' ho' t h1 h2
    rw [hf.ord] at ho ho'
    exact hsep o ho o' ho' t ((haff _ _).1 h1) ((haff _ _).1 h2)
  refine ⟨?_, hsep'⟩
  obtain ⟨s1, s2, s3, s4, s5, s6, s7, s8, -, -, -, -, -, -, -, h8, h9⟩ := applyErrors_eq_ok h
  have f9 : Frame (fun _ a => a ∈ rfProperties) s8 s' := by
    rcases when_eq_ok h9 with ⟨-, h9⟩ | ⟨-, rfl⟩
    · have := updateCavities_frame (K := K) none s8
      rwa [h9] at this
    · exact Frame.refl _
  rcases when_eq_ok h8 with ⟨-, h8⟩ | ⟨h8, rfl⟩
  · have f8 := updateMagnets_frame (K := K) none s7
    rw [h8] at f8
    have f8m : ∀ o, s8.RING.attr o "MasterOf" = s7.RING.attr o "MasterOf" := fun o => f8.attr o _ (by simp [magnetWrites])
    have hsep7 : Separate s7 := by
      intro o ho o' ho' t h1 h2
      have ha : ∀ o t, Affects s7.RING o t ↔ Affects s'.RING o t := fun o t => by
        unfold Affects
        rw [f9.attr o "MasterOf" (by decide +kernel), f8m o]
      have ho7 : s'.ORD = s7.ORD := f9.ord.trans f8.ord
      exact hsep' o (ho7 ▸ ho) o' (ho7 ▸ ho') t ((ha _ _).1 h1) ((ha _ _).1 h2)
    have hu := C72_after_update s7 s8 hsep7 h8
    intro o ho
    exact (hu o (f9.ord ▸ ho)).keep_rf f9
  · intro o ho
    rw [f9.ord] at ho
    simp at h8
    rw [h8] at ho
    cases ho

/-- **C83**: the same for the cavities, if they have been registered with the uncertainties (as `register_cavities` does). -/
theorem C83_cavities (E : Env K) (n : K) (s s' : SC K) (hw : WellRegistered s.SIG) (hr : s.ORD.RF ≠ [] → s.SIG.RF.isEmpty = false)
    (h : applyErrors E n s = .ok () s') : updateCavities none s' = .ok () s' := by
  have hf := applyErrors_frame (E := E) (n := n) hw
  rw [h] at hf
  replace hf : ErrFrame (errorAttrs s) s s' := hf
  obtain ⟨s1, s2, s3, s4, s5, s6, s7, s8, -, -, -, -, -, -, -, h8, h9⟩ := applyErrors_eq_ok h
  have e7 : s7.ORD = s'.ORD ∧ s7.SIG = s'.SIG := by
    have f9 : s'.ORD = s8.ORD ∧ s'.SIG = s8.SIG := by
      rcases when_eq_ok h9 with ⟨-, h9⟩ | ⟨-, rfl⟩
      · have := updateCavities_frame (K := K) none s8
        rw [h9] at this
        exact ⟨this.ord, this.sig⟩
      · exact ⟨rfl, rfl⟩
    rcases when_eq_ok h8 with ⟨-, h8⟩ | ⟨-, rfl⟩
    · have f8 := updateMagnets_frame (K := K) none s7
      rw [h8] at f8
      exact ⟨(f9.1.trans f8.ord).symm, (f9.2.trans f8.sig).symm⟩
    · exact ⟨f9.1.symm, f9.2.symm⟩
  rcases when_eq_ok h9 with ⟨-, h9⟩ | ⟨hb, rfl⟩
  · exact C14_update_cavities_idempotent none s8 s' h9
  · have he : s'.ORD.RF = [] := by
      by_contra hne
      have h1 := hr (hf.ord ▸ hne)
      rw [e7.1, e7.2, hf.sig, h1] at hb
      simp at hb
      exact hne hb
    show forEach (s'.ORD.RF) _ s' = _
    rw [he]
    rfl

/-- **C83**: so that after errors have been applied the lattice is a function of the set-points: two histories of successful set-point calls
which end with the same set-points end with the same lattice. -/
theorem C83_histories (E : Env K) (n : K) (s s' s1 s2 : SC K) (hw : WellRegistered s.SIG) (hsep : Separate s)
    (h : applyErrors E n s = .ok () s') (calls calls' : List (Trim K))
    (hreg : ∀ c ∈ calls, ∀ o ∈ c.ords, o ∈ s.ORD.Magnet) (hreg' : ∀ c ∈ calls', ∀ o ∈ c.ords, o ∈ s.ORD.Magnet)
    (h1 : runTrims calls s' = .ok () s1) (h2 : runTrims calls' s' = .ok () s2)
    (heq : ∀ i skew k, setpoint s1.RING i skew k = setpoint s2.RING i skew k) : s1.RING = s2.RING := by
  obtain ⟨hu, hs⟩ := C83_magnets E n s s' hw hsep h
  have hf := applyErrors_frame (E := E) (n := n) hw
  rw [h] at hf
  replace hf : ErrFrame (errorAttrs s) s s' := hf
  have ho : s'.ORD = s.ORD := hf.ord
  exact C72_no_hysteresis calls calls' s' s1 s2 hs hu (fun c hc o h => ho ▸ hreg c hc o h) (fun c hc o h => ho ▸ hreg' c hc o h) h1 h2 heq

/-- a laboratory with magnets and a cavity, where a quadrupole has a calibration uncertainty -/
def Example.calibrated : SC ℚ := registrations (Example.calls ++ [.magnets [2] [("CalErrorB", .vec [0, 1/10, 0])]]) Example.raw

/-- no element gets its field from two magnets -/
theorem Example.calibrated_separate : Separate Example.calibrated := by
  have h0 : Example.calibrated.ORD.Magnet = [1, 2, 3] := by decide +kernel
  have h1 : ∀ o ∈ [1, 2, 3], Example.calibrated.RING.attr o "MasterOf" = none := by decide +kernel
  intro o ho o' ho' t a a'
  rw [h0] at ho ho'
  simp only [Affects, h1 o ho, h1 o' ho', reduceCtorEq, false_and, exists_false, or_false] at a a'
  exact a.symm.trans a'

-- the hypotheses are met, and the errors change the fields of a magnet and of the cavity
example : WellRegistered Example.calibrated.SIG ∧ Separate Example.calibrated ∧ Example.calibrated.ORD.RF ≠ [] ∧
    Example.calibrated.SIG.RF.isEmpty = false ∧ (applyErrors Example.env 2 Example.calibrated).isOk ∧
    Example.calibrated.RING.attr 2 "PolynomB" ≠ (applyErrors Example.env 2 Example.calibrated).state.RING.attr 2 "PolynomB" ∧
    Example.calibrated.RING.attr 4 "Voltage" ≠ (applyErrors Example.env 2 Example.calibrated).state.RING.attr 4 "Voltage" :=
  ⟨C03_only_uncertainties_stored _ _ _, Example.calibrated_separate, by decide +kernel, by decide +kernel, by decide +kernel,
    by decide +kernel, by decide +kernel⟩

end PySC
