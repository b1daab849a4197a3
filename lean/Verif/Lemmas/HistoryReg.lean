import Verif.Lemmas.History
/-
What registrations keep and establish, for histories of calls.
-/
namespace PySC
set_option linter.unusedSectionVars false
variable {K : Type} [Field K] [LinearOrder K] [FloorRing K]
open Py Spec

/-! ### every registration keeps the design lattice and the attributes -/

theorem registerBpm1_grow (kw : Kwargs K) (i : Nat) : Rel (Grow (K := K)) (registerBpm1 kw i) := by
  unfold registerBpm1 modSig
  rels
  · exact Grow.recs
  · exact Grow.setAttr

theorem registerCavity1_grow (kw : Kwargs K) (i : Nat) : Rel (Grow (K := K)) (registerCavity1 kw i) := by
  unfold registerCavity1 registerRfField modSig
  rels
  · exact Grow.recs
  all_goals exact Grow.setAttr

theorem optionalMagnetFields_grow (ords : List Nat) (kw : Kwargs K) (i : Nat) : Rel (Grow (K := K)) (optionalMagnetFields i ords kw) := by
  unfold optionalMagnetFields ensureCMlimit setCMlimit
  refine Rels.bind (Rels.withKey (fun _ => ?_)) (fun _ => Rels.bind ?_ (fun _ => Rels.bind (Rels.withKey (fun _ => ?_))
    (fun _ => Rels.bind (Rels.withKey (fun _ => ?_)) (fun _ => Rels.bind (Rels.withKey (fun _ => ?_))
    (fun _ => Rels.withKey (fun _ => ?_))))))
  all_goals rels
  all_goals exact Grow.setAttr

theorem registerMagnet1_grow (ords : List Nat) (kw : Kwargs K) (i : Nat) : Rel (Grow (K := K)) (registerMagnet1 ords kw i) := by
  rw [registerMagnet1_eq]
  unfold modSig registerMagnetElem registerZeros addPolynom
  rels
  · exact Grow.recs
  all_goals first
    | exact Grow.setAttr
    | exact optionalMagnetFields_grow _ _ _

theorem supportLoops_grow (rows : List (List Nat)) (t : String) (kw : Kwargs K) : Rel (Grow (K := K)) (supportLoops rows t kw) := by
  unfold supportLoops initSupport modSig
  rels
  · exact Grow.setAttr
  · exact Grow.setAttr
  · exact Grow.recs
  · exact storeSupportSig_keep (fun s g => ⟨rfl, RGrow.rfl' _⟩) _ _ _

theorem registration_grow (c : RegCall K) : Rel (Grow (K := K)) c.run := by
  have key : ∀ (kw : Kwargs K) (A : List String) (f : Ords → Ords) (l : List Nat) (b : Nat → Py (SC K) Unit),
      (∀ i, Rel (Grow (K := K)) (b i)) → Rel (Grow (K := K)) (lift (checkKwargs kw A) >>= fun _ => modOrd f >>= fun _ => forEach l b) := by
    intro kw A f l b hb
    refine Rels.bind (Rels.lift _) (fun _ => Rels.bind ?_ (fun _ => Rels.forEach (fun i _ => hb i)))
    unfold modOrd
    exact Rels.modify (fun s => Grow.recs)
  cases c with
  | bpms o kw => exact key kw _ _ _ _ (registerBpm1_grow kw)
  | cavities o kw => exact key kw _ _ _ _ (registerCavity1_grow kw)
  | magnets o kw => exact key kw _ _ _ _ (registerMagnet1_grow o kw)
  | supports r t kw =>
    intro s
    change Grow s (registerSupports r t kw s).state
    rcases registerSupports_shape r t kw s with ⟨e, h⟩ | ⟨-, -, -, new, -, h⟩
    · rw [h]; exact PreRel.refl s
    · rw [h]
      exact PreRel.trans (R := Grow) _ _ _ (Grow.recs (s := s) (o := s.ORD.setPairs t new) (g := s.SIG)) (supportLoops_grow r t kw _)

/-- every call keeps the design lattice and the attributes -/
theorem run_grow (W : World K) (c : Call K) : Rel (Grow (K := K)) (c.run W) := by
  by_cases h : c.IsRegistration
  · cases c with
    | register c => exact registration_grow c
    | _ => exact h.elim
  · exact Rel.mono (fun _ _ h => h.toGrow) (run_keeps W c h)

/-! ### records -/

/-- uncertainties are added only for the given elements -/
structure SigIn (B R M : Nat → Prop) (s s' : SC K) : Prop where
  bpm : ∀ i ∈ s'.SIG.BPM.keys, i ∈ s.SIG.BPM.keys ∨ B i
  rf : ∀ i ∈ s'.SIG.RF.keys, i ∈ s.SIG.RF.keys ∨ R i
  magnet : ∀ i ∈ s'.SIG.Magnet.keys, i ∈ s.SIG.Magnet.keys ∨ M i

instance (B R M : Nat → Prop) : PreRel (SigIn (K := K) B R M) :=
  ⟨fun _ => ⟨fun _ h => Or.inl h, fun _ h => Or.inl h, fun _ h => Or.inl h⟩, fun _ _ _ h1 h2 =>
    ⟨fun i h => (h2.bpm i h).elim (h1.bpm i) Or.inr, fun i h => (h2.rf i h).elim (h1.rf i) Or.inr,
     fun i h => (h2.magnet i h).elim (h1.magnet i) Or.inr⟩⟩

theorem SigIn.same {B R M : Nat → Prop} {s s' : SC K} (h : s'.SIG = s.SIG) : SigIn B R M s s' := by
  constructor <;> · rw [h]; exact fun i h => Or.inl h

theorem mem_keys_sigUpdate {d : Dict Nat (Kwargs K)} {i j : Nat} {kw : Kwargs K} : j ∈ (sigUpdate d i kw).keys ↔ j ∈ d.keys ∨ j = i := by
  unfold sigUpdate; rw [Dict.mem_keys_set]

theorem registerBpm1_sigIn (kw : Kwargs K) (i : Nat) (B R M : Nat → Prop) (hi : B i) : Rel (SigIn (K := K) B R M) (registerBpm1 kw i) := by
  unfold registerBpm1 modSig
  rels
  · refine ⟨fun j hj => ?_, fun j hj => Or.inl hj, fun j hj => Or.inl hj⟩
    rcases mem_keys_sigUpdate.1 hj with h | rfl
    · exact Or.inl h
    · exact Or.inr hi
  · exact SigIn.same rfl

theorem registerCavity1_sigIn (kw : Kwargs K) (i : Nat) (B R M : Nat → Prop) (hi : R i) : Rel (SigIn (K := K) B R M) (registerCavity1 kw i) := by
  unfold registerCavity1 registerRfField modSig
  rels
  · refine ⟨fun j hj => Or.inl hj, fun j hj => ?_, fun j hj => Or.inl hj⟩
    rcases mem_keys_sigUpdate.1 hj with h | rfl
    · exact Or.inl h
    · exact Or.inr hi
  all_goals exact SigIn.same rfl

theorem registerMagnet1_sigIn (ords : List Nat) (kw : Kwargs K) (i : Nat) (B R M : Nat → Prop) (hi : M i) :
    Rel (SigIn (K := K) B R M) (registerMagnet1 ords kw i) := by
  rw [registerMagnet1_eq]; unfold modSig
  rels
  · refine ⟨fun j hj => Or.inl hj, fun j hj => Or.inl hj, fun j hj => ?_⟩
    rcases mem_keys_sigUpdate.1 hj with h | rfl
    · exact Or.inl h
    · exact Or.inr hi
  · exact Rel.mono (fun s s' h => SigIn.same h.sig) (registerMagnetElem_frame ords kw i)

theorem consistent_register (c : RegCall K) (s : SC K) (hc : Consistent s) (ht : Tidy (c.run s).state.ORD) :
    Consistent (c.run s).state := by
  have hu : WellRegistered (c.run s).state.SIG := WR.call c s hc.uncertainties
  cases c with
  | bpms o kw =>
    rcases register_shape (kw := kw) (A := bpmErrorFields) (f := fun r => { r with BPM := npUnique (r.BPM ++ o) })
      (l := npUnique o) (b := registerBpm1 kw) (registerBpm1_ord kw) s with ⟨e, he⟩ | ⟨-, h1, h2⟩
    · rw [show (RegCall.bpms o kw).run s = _ from he]; exact hc
    · rw [show (RegCall.bpms o kw).run s = _ from h1] at ht hu ⊢
      have hs : SigIn (· ∈ o) (fun _ => False) (fun _ => False) _ _ := Rels.forEach (fun i hi => registerBpm1_sigIn kw i (· ∈ o) _ _ (mem_npUnique.1 hi))
        { s with ORD := { s.ORD with BPM := npUnique (s.ORD.BPM ++ o) } }
      refine ⟨ht, ?_, ?_, ?_, ?_, ?_, ?_, ?_, ?_, ?_, hu⟩ <;> rw [h2]
      · exact hc.girders
      · exact hc.plinths
      · exact hc.sections
      · exact hc.hcm
      · exact hc.vcm
      · exact hc.skewQuad
      · intro i hi
        refine mem_npUnique.2 (List.mem_append.2 ((hs.bpm i hi).imp (hc.sigBpm i) id))
      · exact fun i hi => (hs.rf i hi).elim (hc.sigRf i) False.elim
      · exact fun i hi => (hs.magnet i hi).elim (hc.sigMagnet i) False.elim
  | cavities o kw =>
    rcases register_shape (kw := kw) (A := rfErrorFields) (f := fun r => { r with RF := npUnique (r.RF ++ o) })
      (l := npUnique o) (b := registerCavity1 kw) (registerCavity1_ord kw) s with ⟨e, he⟩ | ⟨-, h1, h2⟩
    · rw [show (RegCall.cavities o kw).run s = _ from he]; exact hc
    · rw [show (RegCall.cavities o kw).run s = _ from h1] at ht hu ⊢
      have hs : SigIn (fun _ => False) (· ∈ o) (fun _ => False) _ _ := Rels.forEach (fun i hi => registerCavity1_sigIn kw i _ (· ∈ o) _ (mem_npUnique.1 hi))
        { s with ORD := { s.ORD with RF := npUnique (s.ORD.RF ++ o) } }
      refine ⟨ht, ?_, ?_, ?_, ?_, ?_, ?_, ?_, ?_, ?_, hu⟩ <;> rw [h2]
      · exact hc.girders
      · exact hc.plinths
      · exact hc.sections
      · exact hc.hcm
      · exact hc.vcm
      · exact hc.skewQuad
      · exact fun i hi => (hs.bpm i hi).elim (hc.sigBpm i) False.elim
      · intro i hi
        refine mem_npUnique.2 (List.mem_append.2 ((hs.rf i hi).imp (hc.sigRf i) id))
      · exact fun i hi => (hs.magnet i hi).elim (hc.sigMagnet i) False.elim
  | magnets o kw =>
    rcases register_shape (kw := kw) (A := magnetTypeFields ++ magnetErrorFields) (f := fun r => magnetOrds r o kw)
      (l := o) (b := registerMagnet1 o kw) (registerMagnet1_ord o kw) s with ⟨e, he⟩ | ⟨-, h1, h2⟩
    · rw [show (RegCall.magnets o kw).run s = _ from he]; exact hc
    · rw [show (RegCall.magnets o kw).run s = _ from h1] at ht hu ⊢
      have hs : SigIn (fun _ => False) (fun _ => False) (· ∈ o) _ _ := Rels.forEach (fun i hi => registerMagnet1_sigIn o kw i _ _ (· ∈ o) hi)
        { s with ORD := magnetOrds s.ORD o kw }
      have hm : ∀ (c : Bool) (l : List Nat), (∀ i ∈ l, i ∈ s.ORD.Magnet) → ∀ i ∈ (if c then npUnique (l ++ o) else l),
          i ∈ npUnique (s.ORD.Magnet ++ o) := by
        intro c l hl i hi
        rw [mem_npUnique, List.mem_append]
        cases c with
        | true =>
          rw [if_pos rfl, mem_npUnique, List.mem_append] at hi
          exact hi.imp (hl i) id
        | false => exact Or.inl (hl i (by simpa using hi))
      refine ⟨ht, ?_, ?_, ?_, ?_, ?_, ?_, ?_, ?_, ?_, hu⟩ <;> rw [h2]
      · exact hc.girders
      · exact hc.plinths
      · exact hc.sections
      · exact hm _ _ hc.hcm
      · exact hm _ _ hc.vcm
      · exact hm _ _ hc.skewQuad
      · exact fun i hi => (hs.bpm i hi).elim (hc.sigBpm i) False.elim
      · exact fun i hi => (hs.rf i hi).elim (hc.sigRf i) False.elim
      · intro i hi
        refine mem_npUnique.2 (List.mem_append.2 ((hs.magnet i hi).imp (hc.sigMagnet i) id))
  | supports r t kw =>
    rcases registerSupports_shape r t kw s with ⟨e, he⟩ | ⟨htt, -, hl, new, hn, h1⟩
    · rw [show (RegCall.supports r t kw).run s = _ from he]; exact hc
    · rw [show (RegCall.supports r t kw).run s = _ from h1] at ht hu ⊢
      have h2 : (supportLoops r t kw { s with ORD := s.ORD.setPairs t new }).state.ORD = s.ORD.setPairs t new := supportLoops_ord r t kw _
      have hf := supportLoops_sigFrame hl t kw { s with ORD := s.ORD.setPairs t new }
      have hsort := (updateDoubleOrdinates_eq_ok hn).1
      obtain ⟨o1, o2, o3, o4, o5, o6⟩ := Ords.setPairs_other (o := s.ORD) (t := t) (v := new)
      have hp : ∀ t' ∈ supportTypes, SortedPairs (s.ORD.pairs t') → SortedPairs ((s.ORD.setPairs t new).pairs t') := by
        intro t' ht' h'
        rw [Ords.pairs_setPairs htt ht']; split
        · exact hsort
        · exact h'
      refine ⟨ht, ?_, ?_, ?_, ?_, ?_, ?_, ?_, ?_, ?_, hu⟩ <;> rw [h2]
      · exact hp "Girder" (by simp [supportTypes]) hc.girders
      · exact hp "Plinth" (by simp [supportTypes]) hc.plinths
      · exact hp "Section" (by simp [supportTypes]) hc.sections
      · rw [o5, o3]; exact hc.hcm
      · rw [o6, o3]; exact hc.vcm
      · rw [o4, o3]; exact hc.skewQuad
      · rw [hf.bpm, o1]; exact hc.sigBpm
      · rw [hf.rf, o2]; exact hc.sigRf
      · rw [hf.magnet, o3]; exact hc.sigMagnet

/-! ### attributes -/

theorem forEach_some {l : List Nat} {b : Nat → Py (SC K) Unit} {P : Nat → String → Prop} (hg : ∀ i, Rel (Grow (K := K)) (b i))
    (hp : ∀ i ∈ l, ∀ s s', b i s = .ok () s' → ∀ a, P i a → (s'.RING.attr i a).isSome) {s s' : SC K}
    (h : forEach l b s = .ok () s') : ∀ i ∈ l, ∀ a, P i a → (s'.RING.attr i a).isSome := by
  refine forEach_post (I := fun _ => True) (P := fun i t => ∀ a, P i a → (t.RING.attr i a).isSome) (fun _ _ _ _ _ => trivial)
    (fun x hx s s' _ h => hp x hx s s' h) (fun x _ y _ s s' _ _ hy h a ha => ?_) h trivial
  exact ((hg x).ok h).ring.some _ _ (hy a ha)

theorem registerBpms_some {ords : List Nat} {kw : Kwargs K} {s s' : SC K} (h : registerBpms ords kw s = .ok () s') :
    ∀ i ∈ ords, ∀ a ∈ bpmNames, (s'.RING.attr i a).isSome := by
  unfold registerBpms modOrd at h
  rw [bindLift_eq_ok] at h
  obtain ⟨-, -, h⟩ := h
  rw [bind_eq_ok] at h
  obtain ⟨⟨⟩, s1, -, h⟩ := h
  intro i hi
  refine forEach_some (P := fun _ a => a ∈ bpmNames) (registerBpm1_grow kw) (fun i _ t t' ht a ha => ?_) h i (mem_npUnique.2 hi)
  unfold registerBpm1 modSig at ht
  rw [bind_eq_ok] at ht
  obtain ⟨⟨⟩, t1, -, ht⟩ := ht
  have hv := forEach_setAttr_value (by simp [bpmInit]) ht
  simp only [bpmNames, List.mem_cons, List.not_mem_nil, or_false] at ha
  have : a ∈ (bpmInit (K := K)).map Prod.fst := by simp [bpmInit]; tauto
  obtain ⟨p, hp, rfl⟩ := List.mem_map.1 this
  rw [hv p hp]; rfl

theorem registerCavities_some {ords : List Nat} {kw : Kwargs K} {s s' : SC K} (h : registerCavities ords kw s = .ok () s') :
    ∀ i ∈ ords, ∀ a ∈ cavityNames, (s'.RING.attr i a).isSome := by
  intro i hi a ha
  have hf := registerCavities_fresh h i hi
  have hg := (registration_grow (.cavities ords kw)).ok h
  obtain ⟨v1, a1, b1, c1, d1⟩ := hf "Voltage" (by simp [rfProperties])
  obtain ⟨v2, a2, b2, c2, d2⟩ := hf "Frequency" (by simp [rfProperties])
  obtain ⟨v3, a3, b3, c3, d3⟩ := hf "TimeLag" (by simp [rfProperties])
  have e1 := hg.ring.some i "Voltage" (by rw [a1]; rfl)
  have e2 := hg.ring.some i "Frequency" (by rw [a2]; rfl)
  have e3 := hg.ring.some i "TimeLag" (by rw [a3]; rfl)
  simp only [String.reduceAppend] at b1 c1 d1 b2 c2 d2 b3 c3 d3
  simp only [cavityNames, List.mem_cons, List.not_mem_nil, or_false] at ha
  rcases ha with rfl | rfl | rfl | rfl | rfl | rfl | rfl | rfl | rfl | rfl | rfl | rfl <;>
    first | assumption | simp only [b1, c1, d1, b2, c2, d2, b3, c3, d3, Option.isSome_some]

theorem registerMagnets_some {ords : List Nat} {kw : Kwargs K} {s s' : SC K} (h : registerMagnets ords kw s = .ok () s') :
    ∀ i ∈ ords, ∀ a ∈ magnetNames, (s'.RING.attr i a).isSome := by
  intro i hi a ha
  have hf := registerMagnets_fresh h i hi
  have hg := (registration_grow (.magnets ords kw)).ok h
  obtain ⟨v1, a1, b1, c1, d1⟩ := hf.poly "A" (by simp)
  obtain ⟨v2, a2, b2, c2, d2⟩ := hf.poly "B" (by simp)
  simp only [String.reduceAppend] at a1 b1 c1 d1 a2 b2 c2 d2
  have e1 := hg.ring.some i "PolynomA" (by rw [a1]; rfl)
  have e2 := hg.ring.some i "PolynomB" (by rw [a2]; rfl)
  have hi' : ∀ a ∈ (magnetInit (K := K)).map Prod.fst, (s'.RING.attr i a).isSome := by
    intro a ha
    obtain ⟨p, hp, rfl⟩ := List.mem_map.1 ha
    rw [hf.init p hp]; rfl
  simp only [magnetNames, List.mem_cons, List.not_mem_nil, or_false] at ha
  rcases ha with rfl | rfl | rfl | rfl | rfl | rfl | rfl | rfl | rfl | rfl | rfl | rfl | rfl | rfl <;>
    first | assumption | simp only [b1, c1, d1, b2, c2, d2, Option.isSome_some] | exact hi' _ (by simp [magnetInit])

theorem registerMagnets_limits {ords : List Nat} {kw : Kwargs K} {s s' : SC K} (h : registerMagnets ords kw s = .ok () s') :
    ∀ i ∈ ords, ∀ a, (a = "CMlimit" ∧ ("HCM" ∈ kw.keys ∨ "VCM" ∈ kw.keys)) ∨ (a = "SkewQuadLimit" ∧ "SkewQuad" ∈ kw.keys) →
      (s'.RING.attr i a).isSome := by
  unfold registerMagnets modOrd at h
  rw [bindLift_eq_ok] at h
  obtain ⟨-, -, h⟩ := h
  rw [bind_eq_ok] at h
  obtain ⟨⟨⟩, s1, -, h⟩ := h
  refine forEach_some (registerMagnet1_grow ords kw) (fun i _ t t' ht a ha => ?_) h
  rw [registerMagnet1_eq, bind_eq_ok] at ht
  obtain ⟨⟨⟩, t1, -, ht⟩ := ht
  unfold registerMagnetElem at ht
  simp only [bind_eq_ok] at ht
  obtain ⟨⟨⟩, -, -, ⟨⟩, -, -, ⟨⟩, -, -, ⟨⟩, -, -, ⟨⟩, -, -, ⟨⟩, t2, -, ht⟩ := ht
  unfold optionalMagnetFields at ht
  simp only [bind_eq_ok] at ht
  obtain ⟨⟨⟩, t3, -, ⟨⟩, t4, h4, ⟨⟩, t5, h5, ⟨⟩, t6, h6, ⟨⟩, t7, h7, h8⟩ := ht
  have hg : ∀ (k : String) (n : Nat), Rel (Grow (K := K)) (withKey kw k (setCMlimit i n)) := by
    intro k n; unfold setCMlimit
    refine Rels.withKey (fun _ => ?_); rels; exact Grow.setAttr
  have g5 := (hg "HCM" 0).ok h5
  have g6 := (hg "VCM" 1).ok h6
  have g7 : Grow t6 t7 := (Rels.withKey (fun _ => Rels.setAttr (fun _ => Grow.setAttr))).ok h7
  have g8 : Grow t7 t' := (Rels.withKey (fun _ => Rels.bind (Rels.lift _) (fun _ => Rels.setAttr (fun _ => Grow.setAttr)))).ok h8
  rcases ha with ⟨rfl, hk⟩ | ⟨rfl, hk⟩
  · have h0 : (kw.has "HCM" || kw.has "VCM") = true := by
      rcases hk with hk | hk
      · rw [Dict.has_iff.2 hk]; rfl
      · rw [Dict.has_iff.2 hk, Bool.or_true]
    rw [h0] at h4
    refine g8.ring.some _ _ (g7.ring.some _ _ (g6.ring.some _ _ (g5.ring.some _ _ ?_)))
    unfold Py.when at h4
    rw [if_pos rfl] at h4
    unfold ensureCMlimit at h4
    rw [bindRd_eq_ok] at h4
    obtain ⟨b, hb, h4⟩ := h4
    rw [Ring.hasA_eq_ok] at hb
    cases b with
    | true =>
      simp [Py.when] at h4
      subst h4
      exact hb.2.symm
    | false =>
      simp only [Py.when, Bool.not_false, if_true] at h4
      rw [setAttr_eq_ok] at h4
      obtain ⟨hl, rfl⟩ := h4
      rw [Ring.attr_setAttr_same hl]; rfl
  · refine g8.ring.some _ _ ?_
    unfold withKey at h7
    obtain ⟨v, hv⟩ : ∃ v, kw.get? "SkewQuad" = some v := by
      cases hq : kw.get? "SkewQuad" with
      | some v => exact ⟨v, rfl⟩
      | none => exact absurd hk (by simpa using Dict.get?_eq_none_iff.1 hq)
    rw [hv] at h7
    simp only at h7
    rw [setAttr_eq_ok] at h7
    obtain ⟨hl, rfl⟩ := h7
    rw [Ring.attr_setAttr_same hl]; rfl

theorem registerSupports_some {rows : List (List Nat)} {t : String} {kw : Kwargs K} {s s' : SC K}
    (h : registerSupports rows t kw s = .ok () s') :
    ∀ i ∈ rows.flatten, ∀ a ∈ [t ++ "Offset", t ++ "Roll"], (s'.RING.attr i a).isSome := by
  rcases registerSupports_shape rows t kw s with ⟨e, he⟩ | ⟨-, -, -, new, -, he⟩
  · rw [he] at h; cases h
  rw [he] at h
  unfold supportLoops at h
  rw [bind_eq_ok] at h
  obtain ⟨⟨⟩, s1, h1, h2⟩ := h
  have g2 : Grow s1 s' := (Rels.forEach (fun pr _ => Rels.forEach (fun kv _ =>
    storeSupportSig_keep (fun s g => ⟨rfl, RGrow.rfl' _⟩) _ _ _))).ok h2
  have hg : ∀ i, Rel (Grow (K := K)) (initSupport t i) := by
    intro i; unfold initSupport modSig; rels
    · exact Grow.setAttr
    · exact Grow.setAttr
    · exact Grow.recs
  intro i hi a ha
  refine g2.ring.some _ _ (forEach_some (P := fun _ a => a ∈ [t ++ "Offset", t ++ "Roll"]) hg (fun i _ u u' hu a ha => ?_) h1 i hi a ha)
  unfold initSupport at hu
  rw [bind_eq_ok] at hu; obtain ⟨⟨⟩, u1, hu1, hu⟩ := hu
  rw [bind_eq_ok] at hu; obtain ⟨⟨⟩, u2, hu2, hu⟩ := hu
  rw [setAttr_eq_ok] at hu1 hu2
  obtain ⟨hl1, rfl⟩ := hu1
  obtain ⟨hl2, rfl⟩ := hu2
  unfold modSig at hu
  have g3 := (Rels.modify (R := Grow (K := K)) (fun s => Grow.recs (s := s) (o := s.ORD) (g := { s.SIG with Support := s.SIG.Support.set i [] }))).ok hu
  refine g3.ring.some _ _ ?_
  simp only [List.mem_cons, List.not_mem_nil, or_false] at ha
  rcases ha with rfl | rfl
  · exact (RGrow.setAttr _ _ _ _).some _ _ (by rw [Ring.attr_setAttr_same hl1]; rfl)
  · show ((Ring.setAttr _ _ _ _).attr i _).isSome
    rw [Ring.attr_setAttr_same hl2]; rfl

theorem mem_keys_foldl {l : List Nat} {kw : Kwargs K} {d : Dict Nat (Kwargs K)} {j : Nat} :
    j ∈ (l.foldl (fun d i => sigUpdate d i kw) d).keys ↔ j ∈ d.keys ∨ j ∈ l := by
  induction l generalizing d with
  | nil => simp
  | cons x xs ih => rw [List.foldl_cons, ih, mem_keys_sigUpdate]; simp only [List.mem_cons]; tauto

/-- a successful registration completes what it registers and keeps the rest -/
theorem fullyRegistered_register (c : RegCall K) (s s' : SC K) (hf : FullyRegistered s) (h : c.run s = .ok () s') :
    FullyRegistered s' := by
  have hs := ((registration_grow c).ok h).ring.some
  have old : ∀ (o : Ords), o.HCM = s.ORD.HCM → o.VCM = s.ORD.VCM → o.SkewQuad = s.ORD.SkewQuad → o.Girder = s.ORD.Girder →
      o.Plinth = s.ORD.Plinth → o.Section = s.ORD.Section → s'.ORD = o →
      (∀ i ∈ o.BPM, i ∈ s'.SIG.BPM.keys ∧ ∀ a ∈ bpmNames, (s'.RING.attr i a).isSome) →
      (∀ i ∈ o.RF, i ∈ s'.SIG.RF.keys ∧ ∀ a ∈ cavityNames, (s'.RING.attr i a).isSome) →
      (∀ i ∈ o.Magnet, i ∈ s'.SIG.Magnet.keys ∧ ∀ a ∈ magnetNames, (s'.RING.attr i a).isSome) → FullyRegistered s' := by
    intro o e1 e2 e3 e4 e5 e6 e h1 h2 h3
    refine ⟨?_, ?_, ?_, ?_, ?_, ?_, ?_, ?_, ?_⟩ <;> rw [e]
    · exact h1
    · exact h2
    · exact h3
    · rw [e1]; exact fun i hi => hs _ _ (hf.hcm i hi)
    · rw [e2]; exact fun i hi => hs _ _ (hf.vcm i hi)
    · rw [e3]; exact fun i hi => hs _ _ (hf.skewQuad i hi)
    · rw [e4]; exact fun p hp i hi a ha => hs _ _ (hf.girder p hp i hi a ha)
    · rw [e5]; exact fun p hp i hi a ha => hs _ _ (hf.plinth p hp i hi a ha)
    · rw [e6]; exact fun p hp i hi a ha => hs _ _ (hf.sections p hp i hi a ha)
  cases c with
  | bpms o kw =>
    replace h : registerBpms o kw s = .ok () s' := h
    rcases registerBpms_ord o kw s with ⟨e, he⟩ | he
    · rw [he] at h; cases h
    rw [h] at he
    have hg := (registerBpms_sig h).2
    refine old { s.ORD with BPM := npUnique (s.ORD.BPM ++ o) } rfl rfl rfl rfl rfl rfl he ?_ ?_ ?_
    · intro i hi
      replace hi : i ∈ s.ORD.BPM ∨ i ∈ o := by simpa [mem_npUnique] using hi
      refine ⟨?_, ?_⟩
      · rw [hg, mem_keys_foldl, mem_npUnique]
        exact hi.imp (fun h => (hf.bpm i h).1) id
      · rcases hi with hi | hi
        · exact fun a ha => hs _ _ ((hf.bpm i hi).2 a ha)
        · exact registerBpms_some h i hi
    · exact fun i hi => ⟨by rw [hg]; exact (hf.rf i hi).1, fun a ha => hs _ _ ((hf.rf i hi).2 a ha)⟩
    · exact fun i hi => ⟨by rw [hg]; exact (hf.magnet i hi).1, fun a ha => hs _ _ ((hf.magnet i hi).2 a ha)⟩
  | cavities o kw =>
    replace h : registerCavities o kw s = .ok () s' := h
    rcases registerCavities_ord o kw s with ⟨e, he⟩ | he
    · rw [he] at h; cases h
    rw [h] at he
    have hg := (registerCavities_sig h).2
    refine old { s.ORD with RF := npUnique (s.ORD.RF ++ o) } rfl rfl rfl rfl rfl rfl he ?_ ?_ ?_
    · exact fun i hi => ⟨by rw [hg]; exact (hf.bpm i hi).1, fun a ha => hs _ _ ((hf.bpm i hi).2 a ha)⟩
    · intro i hi
      replace hi : i ∈ s.ORD.RF ∨ i ∈ o := by simpa [mem_npUnique] using hi
      refine ⟨?_, ?_⟩
      · rw [hg, mem_keys_foldl, mem_npUnique]
        exact hi.imp (fun h => (hf.rf i h).1) id
      · rcases hi with hi | hi
        · exact fun a ha => hs _ _ ((hf.rf i hi).2 a ha)
        · exact registerCavities_some h i hi
    · exact fun i hi => ⟨by rw [hg]; exact (hf.magnet i hi).1, fun a ha => hs _ _ ((hf.magnet i hi).2 a ha)⟩
  | magnets o kw =>
    replace h : registerMagnets o kw s = .ok () s' := h
    rcases registerMagnets_ord o kw s with ⟨e, he⟩ | he
    · rw [he] at h; cases h
    rw [h] at he
    have hg := (registerMagnets_sig h).2
    have hl := registerMagnets_limits h
    have role : ∀ (n : String) (l : List Nat) (a : String), (∀ i ∈ l, (s.RING.attr i a).isSome) →
        (n ∈ kw.keys → ∀ i ∈ o, (s'.RING.attr i a).isSome) →
        ∀ i ∈ (if kw.has n then npUnique (l ++ o) else l), (s'.RING.attr i a).isSome := by
      intro n l a h1 h2 i hi
      by_cases hn : n ∈ kw.keys
      · rw [if_pos (Dict.has_iff.2 hn), mem_npUnique, List.mem_append] at hi
        exact hi.elim (fun h => hs _ _ (h1 i h)) (h2 hn i)
      · rw [if_neg (fun hh => hn (Dict.has_iff.1 hh))] at hi
        exact hs _ _ (h1 i hi)
    refine ⟨?_, ?_, ?_, ?_, ?_, ?_, ?_, ?_, ?_⟩ <;> rw [show s'.ORD = magnetOrds s.ORD o kw from he]
    · exact fun i hi => ⟨by rw [hg]; exact (hf.bpm i hi).1, fun a ha => hs _ _ ((hf.bpm i hi).2 a ha)⟩
    · exact fun i hi => ⟨by rw [hg]; exact (hf.rf i hi).1, fun a ha => hs _ _ ((hf.rf i hi).2 a ha)⟩
    · intro i hi
      replace hi : i ∈ s.ORD.Magnet ∨ i ∈ o := by simpa [magnetOrds, mem_npUnique] using hi
      refine ⟨?_, ?_⟩
      · rw [hg, mem_keys_foldl]
        exact hi.imp (fun h => (hf.magnet i h).1) id
      · rcases hi with hi | hi
        · exact fun a ha => hs _ _ ((hf.magnet i hi).2 a ha)
        · exact registerMagnets_some h i hi
    · exact role "HCM" s.ORD.HCM _ hf.hcm (fun hn i hi => hl i hi _ (Or.inl ⟨rfl, Or.inl hn⟩))
    · exact role "VCM" s.ORD.VCM _ hf.vcm (fun hn i hi => hl i hi _ (Or.inl ⟨rfl, Or.inr hn⟩))
    · exact role "SkewQuad" s.ORD.SkewQuad _ hf.skewQuad (fun hn i hi => hl i hi _ (Or.inr ⟨rfl, hn⟩))
    · exact fun p hp i hi a ha => hs _ _ (hf.girder p hp i hi a ha)
    · exact fun p hp i hi a ha => hs _ _ (hf.plinth p hp i hi a ha)
    · exact fun p hp i hi a ha => hs _ _ (hf.sections p hp i hi a ha)
  | supports r t kw =>
    replace h : registerSupports r t kw s = .ok () s' := h
    have hsome := registerSupports_some h
    rcases registerSupports_shape r t kw s with ⟨e, he⟩ | ⟨htt, -, hl, new, hn, he⟩
    · rw [he] at h; cases h
    have h2 : (supportLoops r t kw { s with ORD := s.ORD.setPairs t new }).state.ORD = s.ORD.setPairs t new := supportLoops_ord r t kw _
    have hg := supportLoops_sigFrame hl t kw { s with ORD := s.ORD.setPairs t new }
    rw [← he, h] at h2 hg
    obtain ⟨o1, o2, o3, o4, o5, o6⟩ := Ords.setPairs_other (o := s.ORD) (t := t) (v := new)
    have hp : ∀ t' ∈ supportTypes, (∀ p ∈ s.ORD.pairs t', ∀ i ∈ [p.1, p.2], ∀ a ∈ [t' ++ "Offset", t' ++ "Roll"], (s.RING.attr i a).isSome) →
        ∀ p ∈ (s.ORD.setPairs t new).pairs t', ∀ i ∈ [p.1, p.2], ∀ a ∈ [t' ++ "Offset", t' ++ "Roll"], (s'.RING.attr i a).isSome := by
      intro t' ht' h' p hp i hi a ha
      rw [Ords.pairs_setPairs htt ht'] at hp
      split at hp
      · rename_i heq
        subst heq
        rcases ((updateDoubleOrdinates_eq_ok hn).2 p).1 hp with hp | hp
        · exact hs _ _ (h' p hp i hi a ha)
        · refine hsome i ?_ a ha
          match r, hl with
          | [x, y], _ =>
            have := List.of_mem_zip (a := p.1) (b := p.2) hp
            simp only [List.getD_cons_zero, List.getD_cons_succ] at this
            simp only [List.mem_cons, List.not_mem_nil, or_false] at hi
            simp only [List.flatten_cons, List.flatten_nil, List.append_nil, List.mem_append]
            rcases hi with rfl | rfl
            · exact Or.inl this.1
            · exact Or.inr this.2
      · exact hs _ _ (h' p hp i hi a ha)
    refine ⟨?_, ?_, ?_, ?_, ?_, ?_, ?_, ?_, ?_⟩ <;> rw [show s'.ORD = _ from h2]
    · rw [o1]; exact fun i hi => ⟨by rw [show s'.SIG.BPM = _ from hg.bpm]; exact (hf.bpm i hi).1, fun a ha => hs _ _ ((hf.bpm i hi).2 a ha)⟩
    · rw [o2]; exact fun i hi => ⟨by rw [show s'.SIG.RF = _ from hg.rf]; exact (hf.rf i hi).1, fun a ha => hs _ _ ((hf.rf i hi).2 a ha)⟩
    · rw [o3]; exact fun i hi => ⟨by rw [show s'.SIG.Magnet = _ from hg.magnet]; exact (hf.magnet i hi).1, fun a ha => hs _ _ ((hf.magnet i hi).2 a ha)⟩
    · rw [o5]; exact fun i hi => hs _ _ (hf.hcm i hi)
    · rw [o6]; exact fun i hi => hs _ _ (hf.vcm i hi)
    · rw [o4]; exact fun i hi => hs _ _ (hf.skewQuad i hi)
    · exact hp "Girder" (by simp [supportTypes]) hf.girder
    · exact hp "Plinth" (by simp [supportTypes]) hf.plinth
    · exact hp "Section" (by simp [supportTypes]) hf.sections

end PySC
