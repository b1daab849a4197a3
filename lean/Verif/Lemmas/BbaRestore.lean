import Verif.Lemmas.BbaMeasure
import Verif.Lemmas.Restore
/-
Trajectory BBA as a sequence of calls on registered magnets.
-/
set_option linter.unusedSectionVars false
namespace PySC
open Py Spec
variable {K : Type} [Field K] [LinearOrder K] [FloorRing K] [IsStrictOrderedRing K]

theorem dataMeasurementTbt_trimmed {E : Env K} {B : BeamEnv K} {par : BbaPar K} {mOrd bpmInd j p : Nat} {scaling : K} {s s' : SC K}
    {out : List (List (Option K × List (Option K)))} (hreg : mOrd ∈ s.ORD.Magnet)
    (h : dataMeasurementTbt E B par mOrd bpmInd j p scaling s = .ok out s') : Trimmed s s' := by
  unfold dataMeasurementTbt at h
  rw [bindGet_eq_ok] at h
  rw [bindLift_eq_ok] at h; obtain ⟨strengths, _, h⟩ := h
  rw [bindRd_eq_ok] at h; obtain ⟨init, hinit, h⟩ := h
  rw [bind_eq_ok] at h; obtain ⟨data, s1, h1, h⟩ := h
  rw [bind_eq_ok] at h; obtain ⟨_, s2, h2, h⟩ := h
  rw [bind_eq_ok] at h; obtain ⟨_, s3, h3, h⟩ := h
  cases h
  have set : ∀ {t t' : SC K} {sp : NpArr K} {m : String}, Trimmed s t → setMagnetSetpoints [mOrd] sp par.skew par.order m par.dipComp t = .ok () t' →
      Trimmed s t' := fun ht hh => ht.trans (setMagnetSetpoints_trimmed (fun o ho => by
        simp at ho; subst ho; rw [ht.ord]; exact hreg) hh)
  have i1 : Trimmed s s1 := by
    refine mapEach_inv (I := Trimmed s) ?_ h1 (Trimmed.refl s)
    rintro q - t t' y ht h
    rw [bind_eq_ok] at h; obtain ⟨_, t1, ht1, h⟩ := h
    refine mapEach_inv (I := Trimmed s) ?_ h (set ht ht1)
    rintro d - u u' y hu h
    obtain ⟨e1, e2, e3, e4, z', e5⟩ := measureStep_ok h
    exact hu.trans (Trimmed.of_ring e1 e4)
  have i2 : Trimmed s1 s2 := by
    cases h2
    exact Trimmed.of_ring rfl rfl
  exact set (i1.trans i2) h3

theorem restoreQuads_trimmed {q : List Nat} {q0 : List K} {s s' : SC K} (hreg : ∀ o ∈ q, o ∈ s.ORD.Magnet)
    (h : restoreQuads q q0 s = .ok () s') : Trimmed s s' := by
  unfold restoreQuads at h
  by_cases he : q0.isEmpty = true
  · rw [if_pos he] at h
    cases h
    exact Trimmed.refl s
  · rw [if_neg he] at h
    exact setMagnetSetpoints_trimmed hreg h

theorem OnlyRng.trimmed {s s' : SC K} (h : OnlyRng s s') : Trimmed s s' := by
  obtain ⟨h, -⟩ := h
  exact Trimmed.of_ring (by rw [h]) (by rw [h])

theorem phaseAdvanceScan_trimmed {E : Env K} {B : BeamEnv K} {par : BbaPar K} {p last : Nat} {s s' : SC K} {out : List (K × List (Option K))}
    (hreg : ∀ o ∈ par.qOrds, o ∈ s.ORD.Magnet) (h : phaseAdvanceScan E B par p last s = .ok out s') : Trimmed s s' := by
  unfold phaseAdvanceScan at h
  rw [bindRd_eq_ok] at h; obtain ⟨q0, hq0, h⟩ := h
  rw [bind_eq_ok] at h; obtain ⟨out', s1, h1, h⟩ := h
  rw [bind_eq_ok] at h; obtain ⟨_, s2, h2, h⟩ := h
  cases h
  have hinv : Trimmed s s1 := by
    refine mapEach_inv (I := Trimmed s) ?_ h1 (Trimmed.refl s)
    rintro q - t t' y ht h
    rw [bind_eq_ok] at h; obtain ⟨_, t1, ht1, h⟩ := h
    exact (ht.trans (setMagnetSetpoints_trimmed (fun o ho => by rw [ht.ord]; exact hreg o ho) ht1)).trans (scaleInjection_ok h).1.trimmed
  exact hinv.trans (restoreQuads_trimmed (fun o ho => by rw [hinv.ord]; exact hreg o ho) h2)

theorem bbaEntry_trimmed {E : Env K} {B : BeamEnv K} {Q : BbaEnv K} {par : BbaPar K} {q0 : List K} {scan : List (K × List (Option K))}
    {p j bpm mag : Nat} {s s' : SC K} {out : K × Option K}
    (hq : ∀ o ∈ par.qOrds, o ∈ s.ORD.Magnet) (hm : mag ∈ s.ORD.Magnet)
    (h : bbaEntry E B Q par q0 scan p j bpm mag s = .ok out s') : Trimmed s s' := by
  unfold bbaEntry at h
  rw [bindGet_eq_ok] at h
  rw [bindLift_eq_ok] at h; obtain ⟨_, _, h⟩ := h
  rw [bindLift_eq_ok] at h; obtain ⟨_, _, h⟩ := h
  rw [bindLift_eq_ok] at h; obtain ⟨_, _, h⟩ := h
  rw [bind_eq_ok] at h; obtain ⟨_, s1, h1, h⟩ := h
  rw [bindLift_eq_ok] at h; obtain ⟨_, _, h⟩ := h
  rw [bind_eq_ok] at h; obtain ⟨data, s2, h2, h⟩ := h
  rw [bind_eq_ok] at h; obtain ⟨_, s3, h3, h⟩ := h
  rw [bindLift_eq_ok] at h; obtain ⟨_, _, h⟩ := h
  rw [rd_eq_ok] at h
  obtain ⟨-, rfl⟩ := h
  have t1 := setMagnetSetpoints_trimmed hq h1
  have t2 := t1.trans (dataMeasurementTbt_trimmed (by rw [t1.ord]; exact hm) h2)
  exact t2.trans (restoreQuads_trimmed (fun o ho => by rw [t2.ord]; exact hq o ho) h3)

theorem bbaPlane_trimmed {E : Env K} {B : BeamEnv K} {Q : BbaEnv K} {par : BbaPar K} {q0 : List K}
    {p : Nat} {bpms mags : List Nat} {s s' : SC K} {out : List (K × Option K)}
    (hq : ∀ o ∈ par.qOrds, o ∈ s.ORD.Magnet) (hm : ∀ m ∈ mags, m ∈ s.ORD.Magnet)
    (h : bbaPlane E B Q par q0 p bpms mags s = .ok out s') : Trimmed s s' := by
  unfold bbaPlane at h
  rw [bindGet_eq_ok] at h
  rw [bindLift_eq_ok] at h; obtain ⟨_, _, h⟩ := h
  rw [bindLift_eq_ok] at h; obtain ⟨_, _, h⟩ := h
  rw [bind_eq_ok] at h; obtain ⟨scan, s1, h1, h⟩ := h
  refine mapEach_inv (I := Trimmed s) ?_ h (phaseAdvanceScan_trimmed hq h1)
  rintro ⟨⟨b, m⟩, j⟩ he t t' y ht h
  have hmem : m ∈ mags := by
    rw [List.mem_zipIdx_iff_getElem?, List.getElem?_zip_eq_some] at he
    exact List.mem_of_getElem? he.2
  exact ht.trans (bbaEntry_trimmed (fun o ho => by rw [ht.ord]; exact hq o ho) (by rw [ht.ord]; exact hm m hmem) h)

theorem trajectoryBba_trimmed {E : Env K} {B : BeamEnv K} {Q : BbaEnv K} {bpmOrds magOrds : List (List Nat)} {par : BbaPar K}
    {s s' : SC K} {out : List (List (K × Option K))}
    (hnd : par.qOrds.Nodup) (hsafe : ∀ o ∈ par.qOrds, Restorable s o false 1 true)
    (hm : ∀ row ∈ magOrds, ∀ m ∈ row, Restorable s m par.skew par.order par.dipComp)
    (hq : ∀ o ∈ par.qOrds, o ∈ s.ORD.Magnet) (hreg : ∀ row ∈ magOrds, ∀ m ∈ row, m ∈ s.ORD.Magnet)
    (h : trajectoryBba E B Q bpmOrds magOrds par s = .ok out s') :
    ∃ s1, NoTrace s s1 ∧ Trimmed s s1 ∧ applyBpmOffsets bpmOrds (out.map (fun row => row.map (fun v => some v.1)))
      (out.map (fun row => row.map (fun v => v.2))) s1 = .ok () s' := by
  unfold trajectoryBba at h
  rw [bindGet_eq_ok] at h
  rw [bindLift_eq_ok] at h; obtain ⟨_, _, h⟩ := h
  by_cases hc : s.INJ.trackMode ≠ "TBT" ∨ s.INJ.nTurns ≠ 2
  · rw [if_pos hc] at h; cases h
  rw [if_neg hc] at h
  rw [bindRd_eq_ok] at h; obtain ⟨q0, hq0, h⟩ := h
  rw [bind_eq_ok] at h; obtain ⟨out', s1, h1, h⟩ := h
  rw [bind_eq_ok] at h; obtain ⟨_, s2, h2, h⟩ := h
  cases h
  have key : NoTrace s s1 ∧ Trimmed s s1 := by
    refine mapEach_inv (I := fun t => NoTrace s t ∧ Trimmed s t) ?_ h1 ⟨NoTrace.refl s, Trimmed.refl s⟩
    rintro ⟨⟨b, m⟩, j⟩ he t t' y ⟨ht, ht2⟩ h
    have hmem : m ∈ magOrds := by
      rw [List.mem_zipIdx_iff_getElem?, List.getElem?_zip_eq_some] at he
      exact List.mem_of_getElem? he.2
    refine ⟨ht.trans (bbaPlane_ok hnd (fun o ho => (hsafe o ho).keep ht.toSameMachine)
      (fun x hx => (hm m hmem x hx).keep ht.toSameMachine) ?_ h),
      ht2.trans (bbaPlane_trimmed (fun o ho => by rw [ht2.ord]; exact hq o ho) (fun x hx => by rw [ht2.ord]; exact hreg m hmem x hx) h)⟩
    rw [fieldValues_setpoint hq0]
    exact List.map_congr_left (fun o _ => (ht.setpoints o false 1).symm)
  exact ⟨s1, key.1, key.2, h2⟩

end PySC
