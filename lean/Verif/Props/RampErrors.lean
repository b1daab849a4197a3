import Verif.Model.RampErrors
import Verif.Props.ApplyErrors
/-
C82: ramping up errors.
-/
set_option linter.unusedSectionVars false
namespace PySC
open Py Spec
variable {K : Type} [Field K] [LinearOrder K] [FloorRing K]

theorem modelRM_state (B : BeamEnv K) (bpms : List Nat) (cms : List Nat × List Nat) (mode : String) (Z0 : List K) (nTurns : Nat) (dkick : K)
    (s : SC K) : (modelRM B bpms cms mode Z0 nTurns dkick true s).state = s := by
  have : Rel (fun s s' : SC K => s' = s) (modelRM B bpms cms mode Z0 nTurns dkick true) := by
    unfold modelRM chooseModel
    haveI : PreRel (fun s s' : SC K => s' = s) := ⟨fun _ => rfl, fun _ _ _ h1 h2 => h2.trans h1⟩
    simp only [if_true]
    rels
  exact this s

/-- **C82** is violated: ramping up the errors never completes, whatever the machine; it changes nothing. -/
theorem C82_violated_ramp (B : BeamEnv K) (nSteps : Nat) (s : SC K) : ∃ e, rampUpErrors B nSteps s = .error e s := by
  have hs := modelRM_state B s.ORD.BPM (s.ORD.HCM, s.ORD.VCM) s.INJ.trackMode (List.replicate 6 0) s.INJ.nTurns (1 / 100000) s
  unfold rampUpErrors
  rw [bind_apply, get_apply]
  simp only
  rw [bind_apply]
  cases h : modelRM B s.ORD.BPM (s.ORD.HCM, s.ORD.VCM) s.INJ.trackMode (List.replicate 6 0) s.INJ.nTurns (1 / 100000) true s with
  | error e s' => rw [h] at hs; exact ⟨e, by rw [← hs]; rfl⟩
  | ok x s' =>
    rw [h] at hs
    obtain rfl : s' = s := hs
    simp only
    by_cases hn : nSteps = 0
    · rw [if_pos hn]; exact ⟨_, rfl⟩
    · rw [if_neg hn]
      unfold rampSupport
      rw [bind_apply, get_apply]
      simp only
      cases s'.ORD.Section <;> exact ⟨_, rfl⟩

/-- **C82** is violated: even if the supports could be scaled, each step of the ramp would be applied to what the step before has left
(the reference is the machine itself):
the injection error, its jitter and the beam size after scaling by each of a list of factors are multiplied by their product, ... -/
theorem C82_violated_compound (scales : List K) (s s' : SC K) (hl : s.INJ.Z0.length = s.INJ.Z0ideal.length)
    (h : forEach scales rampInjection s = .ok () s') :
    s'.INJ.Z0ideal = s.INJ.Z0ideal ∧ s'.INJ.Z0.length = s'.INJ.Z0ideal.length ∧
    (∀ k, coef s'.INJ.Z0 k - coef s.INJ.Z0ideal k = scales.prod * (coef s.INJ.Z0 k - coef s.INJ.Z0ideal k)) ∧
    s'.INJ.randomInjectionZ = s.INJ.randomInjectionZ.map (fun x => scales.prod * x) ∧
    s'.INJ.beamSize = s.INJ.beamSize.map (fun r => r.map (fun x => scales.prod * x)) := by
  induction scales generalizing s with
  | nil =>
    simp at h
    subst h
    exact ⟨rfl, hl, fun k => by simp, by simp, by simp⟩
  | cons x l ih =>
    rw [forEach_cons, bind_eq_ok] at h
    obtain ⟨⟨⟩, s1, h1, h2⟩ := h
    cases h1
    obtain ⟨h3, h4, h5, h6, h7⟩ := ih _ (by simp [hl]) h2
    have hm : ∀ y : K, l.prod * (x * y) = x * l.prod * y := fun y => by ring
    refine ⟨h3, h4, fun k => ?_, by simp [h6, hm, Function.comp_def], by simp [h7, hm, Function.comp_def]⟩
    have e := h5 k
    simp only at e
    rw [e, List.prod_cons]
    have hc : coef (List.zipWith (fun z i => i + x * (z - i)) s.INJ.Z0 s.INJ.Z0ideal) k - coef s.INJ.Z0ideal k =
        x * (coef s.INJ.Z0 k - coef s.INJ.Z0ideal k) := by
      unfold coef
      simp only [List.getD_eq_getElem?_getD, List.getElem?_zipWith]
      cases hz : s.INJ.Z0[k]? with
      | none =>
        have : s.INJ.Z0ideal[k]? = none := by
          rw [List.getElem?_eq_none_iff] at hz ⊢; omega
        simp [this]
      | some z =>
        have hk := (List.getElem?_eq_some_iff.1 hz).1
        have : s.INJ.Z0ideal[k]? = some (s.INJ.Z0ideal[k]'(by omega)) := List.getElem?_eq_getElem _
        rw [this]
        simp
    rw [hc]
    ring

/-- ... so that a ramp in two steps would end with half of the error. -/
example : (forEach (linspace (1/2) 1 2) rampInjection { Example.sc with INJ := { Example.sc.INJ with Z0 := [1, 0, 0, 0, 0, 0], Z0ideal := zeros 6 } }).state.INJ.Z0 =
    [1/2, 0, 0, 0, 0, 0] := by decide +kernel

/-- **C82**: one step of the ramp leaves the given fraction of the deviation of the circumference from the design. -/
theorem C82_circumference_partial (scale : K) (s : SC K) [IsStrictOrderedRing K] (hl : s.IDEALRING.length = s.RING.length)
    (hd : driftLength s.RING ≠ 0) :
    ∃ s', rampCircumference scale s = .ok () s' ∧ s'.RING.length = s.RING.length ∧
      circumference s'.RING - circumference s.IDEALRING = scale * (circumference s.RING - circumference s.IDEALRING) := by
  have ht : s.IDEALRING.take s.RING.length = s.IDEALRING := by rw [← hl]; exact List.take_length
  obtain ⟨r', f, h1, h2, -, h3⟩ := C22_scale_circumference s.RING
    (scale * ((s.RING.map elemLength).sum - (s.IDEALRING.map elemLength).sum) + (s.IDEALRING.map elemLength).sum) "abs" (Or.inl rfl) hd
  refine ⟨{ s with RING := r' }, ?_, h2, ?_⟩
  · unfold rampCircumference
    rw [bind_apply, get_apply]
    simp only [bind_apply, if_neg (show ¬ s.IDEALRING.length < s.RING.length by omega), ht, h1, lift]
    rfl
  · show circumference r' - _ = _
    rw [h3, if_neg (by decide), circumference_eq, circumference_eq]
    ring

example : Example.sc.IDEALRING.length = Example.sc.RING.length ∧ driftLength Example.sc.RING ≠ 0 := by decide +kernel

end PySC
