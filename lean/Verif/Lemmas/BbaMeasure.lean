import Verif.Lemmas.BbaTrace
set_option linter.unusedSectionVars false
namespace PySC
open Py Spec
variable {K : Type} [Field K] [LinearOrder K] [FloorRing K] [IsStrictOrderedRing K]

theorem mapEach_inv {σ α β : Type _} {f : α → Py σ β} {I : σ → Prop} {l : List α}
    (hI : ∀ x ∈ l, ∀ s s' y, I s → f x s = .ok y s' → I s') {s s' : σ} {out : List β} (h : Py.mapEach l f s = .ok out s') (hs : I s) :
    I s' := by
  induction l generalizing s out with
  | nil => simp at h; obtain ⟨-, rfl⟩ := h; exact hs
  | cons x xs ih =>
    rw [mapEach_cons, bind_eq_ok] at h
    obtain ⟨y, s1, h1, h2⟩ := h
    rw [bind_eq_ok] at h2
    obtain ⟨ys, s2, h2, h3⟩ := h2
    cases h3
    exact ih (fun y hy => hI y (by simp [hy])) h2 (hI x (by simp) s s1 y hs h1)

theorem Spec.SameMachine.refl (s : SC K) : SameMachine s s := ⟨rfl, rfl, rfl, rfl, fun _ _ _ => rfl, fun _ _ _ => rfl⟩
theorem Spec.SameMachine.trans {a b c : SC K} (h1 : SameMachine a b) (h2 : SameMachine b c) : SameMachine a c :=
  ⟨h2.ideal.trans h1.ideal, h2.sig.trans h1.sig, h2.ord.trans h1.ord, h2.len.trans h1.len,
    fun i a ha => (h2.attr i a ha).trans (h1.attr i a ha), fun i sk k => (h2.setpoints i sk k).trans (h1.setpoints i sk k)⟩
theorem Spec.NoTrace.refl (s : SC K) : NoTrace s s := ⟨SameMachine.refl s, rfl⟩
theorem Spec.NoTrace.trans {a b c : SC K} (h1 : NoTrace a b) (h2 : NoTrace b c) : NoTrace a c :=
  ⟨h1.toSameMachine.trans h2.toSameMachine, h2.inj.trans h1.inj⟩
theorem OnlyRng.noTrace {s s' : SC K} (h : OnlyRng s s') : NoTrace s s' := by
  obtain ⟨h, -⟩ := h
  rw [h]
  exact ⟨⟨rfl, rfl, rfl, rfl, fun _ _ _ => rfl, fun _ _ _ => rfl⟩, rfl⟩

theorem injectAt_ok {z0 : List K} {p : Nat} {d : K × K} {s s' : SC K} (h : injectAt z0 p d s = .ok () s') :
    s' = { s with INJ := { s.INJ with Z0 := shifted z0 p d } } := by
  unfold injectAt at h
  split at h
  · cases h
  · cases h; rfl

/-- one step of the measurement changes only the injected coordinates and the random stream -/
theorem measureStep_ok {E : Env K} {B : BeamEnv K} {z0 : List K} {bpmInd p : Nat} {skew : Bool} {n : Nat} {d : K × K} {s s' : SC K}
    {out : Option K × List (Option K)} (h : measureStep E B z0 bpmInd p skew n d s = .ok out s') :
    s'.RING = s.RING ∧ s'.IDEALRING = s.IDEALRING ∧ s'.SIG = s.SIG ∧ s'.ORD = s.ORD ∧ ∃ z, s'.INJ = { s.INJ with Z0 := z } := by
  unfold measureStep at h
  rw [bind_eq_ok] at h; obtain ⟨_, s1, h1, h⟩ := h
  rw [bind_eq_ok] at h; obtain ⟨r, s2, h2, h⟩ := h
  rw [bindLift_eq_ok] at h; obtain ⟨_, _, h⟩ := h
  rw [bindLift_eq_ok] at h; obtain ⟨_, _, h⟩ := h
  rw [bindLift_eq_ok] at h; obtain ⟨_, _, h⟩ := h
  rw [bindLift_eq_ok] at h; obtain ⟨_, _, h⟩ := h
  cases h
  have h1 := injectAt_ok h1
  have h2 := ((bpmReading_onlyRng E B none false).ok h2).1
  rw [h2, h1]
  exact ⟨rfl, rfl, rfl, rfl, _, rfl⟩

theorem dataMeasurementTbt_ok {E : Env K} {B : BeamEnv K} {par : BbaPar K} {mOrd bpmInd j p : Nat} {scaling : K} {s s' : SC K}
    {out : List (List (Option K × List (Option K)))} (hsafe : Restorable s mOrd par.skew par.order par.dipComp)
    (h : dataMeasurementTbt E B par mOrd bpmInd j p scaling s = .ok out s') : NoTrace s s' := by
  have hsafe' : ∀ o ∈ [mOrd], Restorable s o par.skew par.order par.dipComp := by simpa using hsafe
  unfold dataMeasurementTbt at h
  rw [bindGet_eq_ok] at h
  rw [bindLift_eq_ok] at h; obtain ⟨strengths, _, h⟩ := h
  rw [bindRd_eq_ok] at h; obtain ⟨init, hinit, h⟩ := h
  rw [bind_eq_ok] at h; obtain ⟨data, s1, h1, h⟩ := h
  rw [bind_eq_ok] at h; obtain ⟨_, s2, h2, h⟩ := h
  rw [bind_eq_ok] at h; obtain ⟨_, s3, h3, h⟩ := h
  cases h
  have hinv : Tracked [mOrd] par.skew par.order par.dipComp s s1 ∧ ∃ z, s1.INJ = { s.INJ with Z0 := z } := by
    refine mapEach_inv (I := fun t => Tracked [mOrd] par.skew par.order par.dipComp s t ∧ ∃ z, t.INJ = { s.INJ with Z0 := z })
      ?_ h1 ⟨Tracked.refl _ _ _ _ _, s.INJ.Z0, rfl⟩
    rintro q - t t' y ⟨ht, z, hz⟩ h
    rw [bind_eq_ok] at h; obtain ⟨_, t1, ht1, h⟩ := h
    have ha := ht.set (by simp) hsafe' ht1
    have hb : t1.INJ = t.INJ := ((setMagnetSetpoints_modifies _ _ _ _ _ _).ok ht1).inj
    refine mapEach_inv (I := fun t => Tracked [mOrd] par.skew par.order par.dipComp s t ∧ ∃ z, t.INJ = { s.INJ with Z0 := z })
      ?_ h ⟨ha, z, hb.trans hz⟩
    rintro d - u u' y ⟨hu, z, hz⟩ h
    obtain ⟨e1, e2, e3, e4, z', e5⟩ := measureStep_ok h
    exact ⟨hu.draw e1 e2 e3 e4, z', by rw [e5, hz]⟩
  obtain ⟨ht, z, hz⟩ := hinv
  cases h2
  have ht2 : Tracked [mOrd] par.skew par.order par.dipComp s { s1 with INJ := { s1.INJ with Z0 := s.INJ.Z0 } } :=
    ht.draw rfl rfl rfl rfl
  refine ⟨ht2.restore (by simp) hsafe' ?_ h3, ?_⟩
  · rw [Ring.getVecAt_eq_ok] at hinit
    obtain ⟨v, hv, hk⟩ := hinit
    simp only [List.map_cons, List.map_nil, List.cons.injEq, and_true]
    rw [← plane_eq_letter] at hv
    rw [setpoint_of_attr hv, coef_of_getElem? hk]
  · rw [((setMagnetSetpoints_modifies _ _ _ _ _ _).ok h3).inj]
    simp only [hz]

/-! ### scaling of the injection -/

theorem trialReading_ok {E : Env K} {B : BeamEnv K} {z0 : List K} {nb p : Nat} {d : K × K} {s s' : SC K} {v : List (Option K)}
    (h : trialReading E B z0 nb p d s = .ok v s') :
    ∃ r : Reading K, bpmReading E B none false { s with INJ := { s.INJ with Z0 := shifted z0 p d } } = .ok r s' ∧
      [r.x, r.y][p]? = some v ∧ v.length = nb ∧ OnlyRng { s with INJ := { s.INJ with Z0 := shifted z0 p d } } s' := by
  unfold trialReading at h
  rw [bind_eq_ok] at h; obtain ⟨_, s1, h1, h⟩ := h
  rw [bind_eq_ok] at h; obtain ⟨r, s2, h2, h⟩ := h
  rw [bindLift_eq_ok] at h; obtain ⟨w, hw, h⟩ := h
  rw [Reading.plane, idx_eq_ok] at hw
  have h1 := injectAt_ok h1
  subst h1
  by_cases hl : w.length = nb
  · rw [if_pos hl] at h
    cases h
    exact ⟨r, h2, hw, hl, (bpmReading_onlyRng E B none false).ok h2⟩
  · rw [if_neg hl] at h
    cases h

theorem all_take {v : List (Option K)} {n b : Nat} (h : (v.take (n + 1)).all (fun x => x.isSome) = true) (hb : b ≤ n) (hl : b < v.length) :
    (v.getD b none).isSome = true := by
  rw [List.all_eq_true] at h
  have : v[b] ∈ v.take (n + 1) := by
    rw [List.mem_take_iff_getElem]
    exact ⟨b, by omega, rfl⟩
  rw [List.getD_eq_getElem?_getD, List.getElem?_eq_getElem hl]
  exact h _ this

theorem scaleTrials_ok {E : Env K} {B : BeamEnv K} {last p : Nat} {m : K × K} {s0 : SC K} :
    ∀ {n : Nat} {f : K} {s s' : SC K} {out : K × List (Option K)},
    OnlyRng { s0 with INJ := { s0.INJ with nTurns := 1 } } s →
    scaleTrials E B s0.INJ.Z0 s0.ORD.BPM.length last p m n f s = .ok out s' →
    OnlyRng { s0 with INJ := { s0.INJ with nTurns := 1 } } s' ∧ out.2.length = s0.ORD.BPM.length ∧
      ((∃ k < n, out.1 = f * (4 / 5) ^ k ∧ Reaches E B s0 p last (out.1 * m.1, out.1 * m.2) ∧
          Reaches E B s0 p last (-(out.1 * m.1), -(out.1 * m.2)) ∧
          (∀ b ≤ last, b < s0.ORD.BPM.length → (out.2.getD b none).isSome = true)) ∨
        (out.1 = f * (4 / 5) ^ n ∧ ∀ b, b < s0.ORD.BPM.length → out.2.getD b none = some 0)) := by
  intro n
  induction n with
  | zero =>
    intro f s s' out hs h
    cases h
    refine ⟨hs, by simp, Or.inr ⟨by simp, fun b hb => by simp [List.getD_eq_getElem?_getD, hb]⟩⟩
  | succ n ih =>
    intro f s s' out hs h
    unfold scaleTrials at h
    rw [bind_eq_ok] at h; obtain ⟨a, s1, h1, h⟩ := h
    rw [bind_eq_ok] at h; obtain ⟨b, s2, h2, h⟩ := h
    rw [bind_eq_ok] at h; obtain ⟨_, s3, h3, h⟩ := h
    obtain ⟨r1, hr1, hp1, hl1, ho1⟩ := trialReading_ok h1
    obtain ⟨r2, hr2, hp2, hl2, ho2⟩ := trialReading_ok h2
    have q1 : ({ s with INJ := { s.INJ with Z0 := shifted s0.INJ.Z0 p (f * m.1, f * m.2) } } : SC K) =
        { s0 with INJ := { s0.INJ with Z0 := shifted s0.INJ.Z0 p (f * m.1, f * m.2), nTurns := 1 }, rng := s.rng } := by
      rw [hs.1]
    have q2 : ({ s1 with INJ := { s1.INJ with Z0 := shifted s0.INJ.Z0 p (-(f * m.1), -(f * m.2)) } } : SC K) =
        { s0 with INJ := { s0.INJ with Z0 := shifted s0.INJ.Z0 p (-(f * m.1), -(f * m.2)), nTurns := 1 }, rng := s1.rng } := by
      rw [ho1.1, hs.1]
    have hs3 : OnlyRng { s0 with INJ := { s0.INJ with nTurns := 1 } } s3 := by
      cases h3
      refine ⟨?_, (hs.2.trans ho1.2).trans ho2.2⟩
      rw [ho2.1, ho1.1, hs.1]
    by_cases hc : ((a.take (last + 1)) ++ (b.take (last + 1))).all (fun v => v.isSome) = true
    · rw [if_pos hc] at h
      cases h
      rw [List.all_append, Bool.and_eq_true] at hc
      refine ⟨hs3, by simp [hl1, hl2], Or.inl ⟨0, by omega, by simp, ?_, ?_, ?_⟩⟩
      · exact ⟨s.rng, r1, s1, a, by rw [← q1]; exact hr1, hp1, hl1, fun b hb hlt => all_take hc.1 hb hlt⟩
      · exact ⟨s1.rng, r2, s2, b, by rw [← q2]; exact hr2, hp2, hl2, fun b hb hlt => all_take hc.2 hb hlt⟩
      · intro c hc1 hc2
        have ha := all_take hc.1 hc1 (by omega)
        have hb := all_take hc.2 hc1 (by omega)
        rw [List.getD_eq_getElem?_getD] at ha hb ⊢
        rw [List.getElem?_zipWith]
        cases hx : a[c]? with
        | none => rw [hx] at ha; simp at ha
        | some x =>
          cases hy : b[c]? with
          | none => rw [hy] at hb; simp at hb
          | some y =>
            rw [hx] at ha
            rw [hy] at hb
            simp only [Option.getD_some] at ha hb
            cases x with
            | none => simp at ha
            | some x => cases y with
              | none => simp at hb
              | some y => rfl
    · rw [if_neg hc] at h
      obtain ⟨i1, i2, i3⟩ := ih hs3 h
      refine ⟨i1, i2, ?_⟩
      rcases i3 with ⟨k, hk, e, rest⟩ | ⟨e, rest⟩
      · exact Or.inl ⟨k + 1, by omega, by rw [e, pow_succ]; ring, rest⟩
      · exact Or.inr ⟨by rw [e, pow_succ]; ring, rest⟩

theorem scaleInjection_ok {E : Env K} {B : BeamEnv K} {p last : Nat} {m : K × K} {s s' : SC K} {out : K × List (Option K)}
    (h : scaleInjection E B p last m s = .ok out s') :
    OnlyRng s s' ∧ out.2.length = s.ORD.BPM.length ∧
      ((∃ k < 20, out.1 = (4 / 5) ^ k ∧ Reaches E B s p last (out.1 * m.1, out.1 * m.2) ∧
          Reaches E B s p last (-(out.1 * m.1), -(out.1 * m.2)) ∧
          (∀ b ≤ last, b < s.ORD.BPM.length → (out.2.getD b none).isSome = true)) ∨
        (out.1 = (4 / 5) ^ 20 ∧ ∀ b, b < s.ORD.BPM.length → out.2.getD b none = some 0)) := by
  unfold scaleInjection at h
  rw [bindGet_eq_ok] at h
  rw [bind_eq_ok] at h; obtain ⟨_, s1, h1, h⟩ := h
  rw [bind_eq_ok] at h; obtain ⟨out', s2, h2, h⟩ := h
  rw [bind_eq_ok] at h; obtain ⟨_, s3, h3, h⟩ := h
  cases h
  cases h1
  cases h3
  obtain ⟨i1, i2, i3⟩ := scaleTrials_ok (s0 := s) ⟨rfl, le_refl _⟩ h2
  refine ⟨⟨?_, i1.2⟩, i2, ?_⟩
  · rw [i1.1]
  · simpa only [one_mul] using i3

/-! ### the whole measurement -/

theorem restoreQuads_ok {q : List Nat} {q0 : List K} {s0 s s' : SC K} (hnd : q.Nodup) (hsafe : ∀ o ∈ q, Restorable s0 o false 1 true)
    (hq0 : q0 = q.map (fun o => setpoint s0.RING o false 1)) (ht : Tracked q false 1 true s0 s)
    (h : restoreQuads q q0 s = .ok () s') : SameMachine s0 s' ∧ s'.INJ = s.INJ := by
  unfold restoreQuads at h
  by_cases he : q0.isEmpty = true
  · rw [if_pos he] at h
    cases h
    have hq : q = [] := by
      subst hq0
      simpa using he
    subst hq
    exact ⟨ht.back (by simp) (by simp), rfl⟩
  · rw [if_neg he] at h
    exact ⟨ht.restore hnd hsafe hq0 h, ((setMagnetSetpoints_modifies _ _ _ _ _ _).ok h).inj⟩

theorem fieldValues_setpoint {r : Ring K} {q : List Nat} {w : List K} (h : fieldValues r q "SetPointB" 1 = .ok w) :
    w = q.map (fun o => setpoint r o false 1) := fieldValues_eq_ok h

theorem phaseAdvanceScan_ok {E : Env K} {B : BeamEnv K} {par : BbaPar K} {p last : Nat} {s s' : SC K} {out : List (K × List (Option K))}
    (hnd : par.qOrds.Nodup) (hsafe : ∀ o ∈ par.qOrds, Restorable s o false 1 true)
    (h : phaseAdvanceScan E B par p last s = .ok out s') : NoTrace s s' := by
  unfold phaseAdvanceScan at h
  rw [bindRd_eq_ok] at h; obtain ⟨q0, hq0, h⟩ := h
  rw [bind_eq_ok] at h; obtain ⟨out', s1, h1, h⟩ := h
  rw [bind_eq_ok] at h; obtain ⟨_, s2, h2, h⟩ := h
  cases h
  have hinv : Tracked par.qOrds false 1 true s s1 ∧ s1.INJ = s.INJ := by
    refine mapEach_inv (I := fun t => Tracked par.qOrds false 1 true s t ∧ t.INJ = s.INJ) ?_ h1 ⟨Tracked.refl _ _ _ _ _, rfl⟩
    rintro q - t t' y ⟨ht, hz⟩ h
    rw [bind_eq_ok] at h; obtain ⟨_, t1, ht1, h⟩ := h
    have hn := (scaleInjection_ok h).1.noTrace
    exact ⟨(ht.set hnd hsafe ht1).keep hn.toSameMachine,
      (hn.inj.trans ((setMagnetSetpoints_modifies _ _ _ _ _ _).ok ht1).inj).trans hz⟩
  obtain ⟨i1, i2⟩ := restoreQuads_ok hnd hsafe (fieldValues_setpoint hq0) hinv.1 h2
  exact ⟨i1, i2.trans hinv.2⟩

theorem Spec.Restorable.congr {s s' : SC K} {o : Nat} {skew : Bool} {order : Nat} {comp : Bool} (h : Restorable s o skew order comp)
    (ha : ∀ i a, a ∉ spNames → a ∉ magnetWrites → s'.RING.attr i a = s.RING.attr i a) (ho : s'.ORD = s.ORD)
    (hsp : ∀ k, setpoint s'.RING o true k = setpoint s.RING o true k) : Restorable s' o skew order comp := by
  refine ⟨fun h1 h2 => ?_, fun h1 h2 h3 h4 => ?_⟩
  · rw [skewLimit_congr (ha _ _ (by simp [spNames]) (by simp [magnetWrites]))]
    have := h.limit h1 h2
    subst h1
    rw [hsp]
    exact this
  · rw [numAt_congr (ha _ _ (by simp [spNames]) (by simp [magnetWrites]))] at h3
    rw [ho] at h4
    rw [kickLimit_congr (ha _ _ (by simp [spNames]) (by simp [magnetWrites])),
      kickFactor_congr (ha _ _ (by simp [spNames]) (by simp [magnetWrites])) (ha _ _ (by simp [spNames]) (by simp [magnetWrites]))]
    exact h.bending h1 h2 h3 h4

theorem Spec.SameMachine.attr' {s s' : SC K} (h : SameMachine s s') (i : Nat) (a : String) (h1 : a ∉ spNames) (h2 : a ∉ magnetWrites) :
    s'.RING.attr i a = s.RING.attr i a := by
  refine h.attr i a ?_
  simp [spNames, magnetWrites] at h1 h2 ⊢
  tauto

theorem Spec.Restorable.keep {s s' : SC K} {o : Nat} {skew : Bool} {order : Nat} {comp : Bool} (h : Restorable s o skew order comp)
    (hs : SameMachine s s') : Restorable s' o skew order comp := h.congr hs.attr' hs.ord (fun k => hs.setpoints o true k)

theorem bbaEntry_ok {E : Env K} {B : BeamEnv K} {Q : BbaEnv K} {par : BbaPar K} {q0 : List K} {scan : List (K × List (Option K))}
    {p j bpm mag : Nat} {s s' : SC K} {out : K × Option K}
    (hnd : par.qOrds.Nodup) (hsafe : ∀ o ∈ par.qOrds, Restorable s o false 1 true) (hm : Restorable s mag par.skew par.order par.dipComp)
    (hq0 : q0 = par.qOrds.map (fun o => setpoint s.RING o false 1))
    (h : bbaEntry E B Q par q0 scan p j bpm mag s = .ok out s') : NoTrace s s' := by
  unfold bbaEntry at h
  rw [bindGet_eq_ok] at h
  rw [bindLift_eq_ok] at h; obtain ⟨_, _, h⟩ := h
  rw [bindLift_eq_ok] at h; obtain ⟨_, _, h⟩ := h
  rw [bindLift_eq_ok] at h; obtain ⟨_, _, h⟩ := h
  rw [bind_eq_ok] at h; obtain ⟨_, s1, h1, h⟩ := h
  rw [bindLift_eq_ok] at h; obtain ⟨_, _, h⟩ := h
  rw [bind_eq_ok] at h; obtain ⟨data, s2, h2, h⟩ := h
  rw [bind_eq_ok] at h; obtain ⟨_, s3, h3, h⟩ := h
  rw [bindLift_eq_ok] at h; obtain ⟨_, _, h⟩ := h
  rw [rd_eq_ok] at h
  obtain ⟨-, rfl⟩ := h
  have t1 := (Tracked.refl par.qOrds false 1 true s).set hnd hsafe h1
  have hm1 : Restorable s1 mag par.skew par.order par.dipComp :=
    hm.congr t1.attr t1.ord (fun k => t1.other _ _ _ (by simp) (by simp))
  have n2 := dataMeasurementTbt_ok hm1 h2
  obtain ⟨i1, i2⟩ := restoreQuads_ok hnd hsafe hq0 (t1.keep n2.toSameMachine) h3
  exact ⟨i1, (i2.trans n2.inj).trans ((setMagnetSetpoints_modifies _ _ _ _ _ _).ok h1).inj⟩

theorem bbaPlane_ok {E : Env K} {B : BeamEnv K} {Q : BbaEnv K} {par : BbaPar K} {q0 : List K}
    {p : Nat} {bpms mags : List Nat} {s s' : SC K} {out : List (K × Option K)}
    (hnd : par.qOrds.Nodup) (hsafe : ∀ o ∈ par.qOrds, Restorable s o false 1 true)
    (hm : ∀ m ∈ mags, Restorable s m par.skew par.order par.dipComp)
    (hq0 : q0 = par.qOrds.map (fun o => setpoint s.RING o false 1))
    (h : bbaPlane E B Q par q0 p bpms mags s = .ok out s') : NoTrace s s' := by
  unfold bbaPlane at h
  rw [bindGet_eq_ok] at h
  rw [bindLift_eq_ok] at h; obtain ⟨_, _, h⟩ := h
  rw [bindLift_eq_ok] at h; obtain ⟨_, _, h⟩ := h
  rw [bind_eq_ok] at h; obtain ⟨scan, s1, h1, h⟩ := h
  refine mapEach_inv (I := fun t => NoTrace s t) ?_ h (phaseAdvanceScan_ok hnd hsafe h1)
  rintro ⟨⟨b, m⟩, j⟩ he t t' y ht h
  have hmem : m ∈ mags := by
    rw [List.mem_zipIdx_iff_getElem?, List.getElem?_zip_eq_some] at he
    exact List.mem_of_getElem? he.2
  refine ht.trans (bbaEntry_ok hnd (fun o ho => (hsafe o ho).keep ht.toSameMachine) ((hm m hmem).keep ht.toSameMachine) ?_ h)
  rw [hq0]
  exact List.map_congr_left (fun o _ => (ht.setpoints o false 1).symm)

theorem trajectoryBba_ok {E : Env K} {B : BeamEnv K} {Q : BbaEnv K} {bpmOrds magOrds : List (List Nat)} {par : BbaPar K}
    {s s' : SC K} {out : List (List (K × Option K))}
    (hnd : par.qOrds.Nodup) (hsafe : ∀ o ∈ par.qOrds, Restorable s o false 1 true)
    (hm : ∀ row ∈ magOrds, ∀ m ∈ row, Restorable s m par.skew par.order par.dipComp)
    (h : trajectoryBba E B Q bpmOrds magOrds par s = .ok out s') :
    ∃ s1, NoTrace s s1 ∧ applyBpmOffsets bpmOrds (out.map (fun row => row.map (fun v => some v.1)))
      (out.map (fun row => row.map (fun v => v.2))) s1 = .ok () s' := by
  unfold trajectoryBba at h
  rw [bindGet_eq_ok] at h
  rw [bindLift_eq_ok] at h; obtain ⟨_, _, h⟩ := h
  by_cases hc : s.INJ.trackMode ≠ "TBT" ∨ s.INJ.nTurns ≠ 2
  · rw [if_pos hc] at h; cases h
  rw [if_neg hc] at h
  rw [bindRd_eq_ok] at h; obtain ⟨q0, hq0, h⟩ := h
  rw [bind_eq_ok] at h; obtain ⟨out', s1, h1, h⟩ := h
  rw [bind_eq_ok] at h; obtain ⟨_, s2, h2, h⟩ := h
  cases h
  refine ⟨s1, ?_, h2⟩
  refine mapEach_inv (I := fun t => NoTrace s t) ?_ h1 (NoTrace.refl s)
  rintro ⟨⟨b, m⟩, j⟩ he t t' y ht h
  have hmem : m ∈ magOrds := by
    rw [List.mem_zipIdx_iff_getElem?, List.getElem?_zip_eq_some] at he
    exact List.mem_of_getElem? he.2
  refine ht.trans (bbaPlane_ok hnd (fun o ho => (hsafe o ho).keep ht.toSameMachine)
    (fun x hx => (hm m hmem x hx).keep ht.toSameMachine) ?_ h)
  rw [fieldValues_setpoint hq0]
  exact List.map_congr_left (fun o _ => (ht.setpoints o false 1).symm)

end PySC
