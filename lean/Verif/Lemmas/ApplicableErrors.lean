import Verif.Lemmas.ApplicableUpdate
/-
`apply_errors` as a whole settles on machines in order.
-/
namespace PySC
open Py Spec
set_option linter.unusedSectionVars false

variable {K : Type} [Field K] [LinearOrder K] [IsStrictOrderedRing K] [FloorRing K]

/-- names which nothing but the alignment of supports and the circumference change -/
def steadyNames : List String := "Length" :: supportNamesList

/-- what the first four kinds of errors leave in place -/
structure Early (b t : SC K) : Prop where
  fit : FitState b t
  cav : CavKept b t
  inj : t.INJ.Z0ideal = b.INJ.Z0ideal
  keep : ∀ i, ∀ a ∈ steadyNames, t.RING.attr i a = b.RING.attr i a
  place : ∀ i ∈ b.ORD.Magnet, HasVec3 t.RING i "MagnetOffset" ∧ HasVec3 t.RING i "MagnetRoll"

theorem early_of_draw {b s s' : SC K} {W : Nat → String → Prop} (h : Early b s) (f : DrawFrame W s s') (hc : CavKept s s')
    (hW : ∀ i, ∀ a ∈ fixedNames ++ shapedNames ++ steadyNames ++ ["MagnetOffset", "MagnetRoll"], ¬ W i a) : Early b s' := by
  refine ⟨fit_of_draw h.fit f (fun i a ha => hW i a (by simp only [List.mem_append] at ha ⊢; tauto)), PreRel.trans _ _ _ h.cav hc, by rw [f.inj]; exact h.inj,
    fun i a ha => (f.attr i a (hW i a (by simp only [List.mem_append]; tauto))).trans (h.keep i a ha), fun i hi => ?_⟩
  obtain ⟨h1, h2⟩ := h.place i hi
  exact ⟨h1.congr (f.attr i _ (hW i _ (by decide +kernel))), h2.congr (f.attr i _ (hW i _ (by decide +kernel)))⟩

theorem applyRf_early {b s : SC K} (hw : WellRegistered b.SIG) (hf : FittingErrors b) (h : Early b s) (E : Env K) (n : K) :
    Early b (applyRf E n s).state := by
  refine early_of_draw h (applyRf_frame (by rw [h.fit.sig]; exact hw)) ?_ ?_
  · unfold applyRf
    show CavKept s (forEach _ _ s).state
    refine (Rels.forEach (R := CavKept) (fun i hi => Rels.forEach (fun kv hkv => drawNum_cav ?_))) s
    rw [h.fit.ord, h.fit.sig] at hi
    rw [h.fit.sig] at hkv
    exact hf.cavities i (mem_intersect.1 hi).1 kv.1 kv.2 ((entries_mem hw.rfSingle).1 hkv)
  · rintro i a ha ⟨-, m, v, hv, rfl⟩
    rw [h.fit.sig] at hv
    exact (by decide +kernel : ∀ a ∈ fixedNames ++ shapedNames ++ steadyNames ++ ["MagnetOffset", "MagnetRoll"], a ∉ rfNamesList) _ ha
      (hw.rfNames _ _ _ hv)

theorem applyBpm_early {b s : SC K} (hw : WellRegistered b.SIG) (h : Early b s) (E : Env K) (n : K) :
    Early b (applyBpm E n s).state := by
  have f := applyBpm_frame (E := E) (n := n) (s := s) (by rw [h.fit.sig]; exact hw)
  have nm : ∀ i, ∀ a, drawn s.ORD.BPM s.SIG.BPM id i a → a ∈ bpmNamesList := by
    rintro i a ⟨-, m, v, hv, rfl⟩
    rw [h.fit.sig] at hv
    exact hw.bpmNames _ _ _ hv
  refine early_of_draw h f (cav_of_draw f (fun i a ha hd => ?_)) (fun i a ha hd => ?_)
  · exact (by decide +kernel : ∀ a ∈ cavityNames, a ∉ bpmNamesList) _ ha (nm i a hd)
  · exact (by decide +kernel : ∀ a ∈ fixedNames ++ shapedNames ++ steadyNames ++ ["MagnetOffset", "MagnetRoll"], a ∉ bpmNamesList) _ ha (nm i a hd)

theorem applyMagnet_early {b s s' : SC K} {E : Env K} {n : K} (hA : Applicable n b) (h : Early b s) (hok : applyMagnet E n s = .ok () s') :
    Early b s' := by
  have hw := hA.registered
  have hws : WellRegistered s.SIG := by rw [h.fit.sig]; exact hw
  have f := applyMagnet_frame (E := E) (n := n) (s := s) hws
  have g := applyMagnet_fit hw E n s h.fit
  rw [hok] at f g
  simp only [Res.state] at f g
  have nm : ∀ i, ∀ a, drawn s.ORD.Magnet s.SIG.Magnet magnetAttrOf i a → ∃ m v, m ∈ magnetNamesList ∧ sigma s.SIG.Magnet i m = some v ∧ magnetAttrOf m = a := by
    rintro i a ⟨-, m, v, hv, rfl⟩
    exact ⟨m, v, hws.magnetNames _ _ _ hv, hv, rfl⟩
  refine ⟨g, PreRel.trans _ _ _ h.cav (cav_of_draw f (fun i a ha hd => ?_)), by rw [f.inj]; exact h.inj, fun i a ha => ?_, fun i hi => ?_⟩
  · obtain ⟨m, v, hm, -, rfl⟩ := nm i a hd
    exact (by decide +kernel : ∀ m ∈ magnetNamesList, magnetAttrOf m ∉ cavityNames) _ hm ha
  · refine (f.attr i a (fun hd => ?_)).trans (h.keep i a ha)
    obtain ⟨m, v, hm, -, rfl⟩ := nm i a hd
    exact (by decide +kernel : ∀ m ∈ magnetNamesList, magnetAttrOf m ∉ steadyNames) _ hm ha
  · have key : ∀ a ∈ ["MagnetOffset", "MagnetRoll"], HasVec3 s.RING i a → HasVec3 s'.RING i a := by
      intro a ha hv
      by_cases hd : drawn s.ORD.Magnet s.SIG.Magnet magnetAttrOf i a
      · obtain ⟨m, v, hm, hsig, e⟩ := nm i a hd
        have hma : m = a := by
          clear hd hv hsig
          subst e
          exact (by decide +kernel : ∀ m ∈ magnetNamesList, magnetAttrOf m ∈ ["MagnetOffset", "MagnetRoll"] → m = magnetAttrOf m) m hm ha
        subst hma
        obtain ⟨err, he, hr⟩ := applyMagnet_stored hws hok i (by rw [h.fit.ord]; exact hi) m v hsig
        rw [if_neg (by simp)] at hr
        rw [h.fit.sig] at hsig
        obtain ⟨hdr, hl⟩ := hA.magnetErrors i hi m v hsig
        obtain ⟨w, rfl, hw3, -⟩ := errorFor_vec3 hr hdr (hl ha)
        rw [e] at he
        exact hasVec3_iff.2 ⟨w, he, hw3⟩
      · exact hv.congr (f.attr i a hd)
    exact ⟨key _ (by simp) (h.place i hi).1, key _ (by simp) (h.place i hi).2⟩

theorem applyInjection_early {b s : SC K} (h : Early b s) (E : Env K) (n : K) : 
    FitState b (applyInjection E n s).state ∧ CavKept b (applyInjection E n s).state ∧
      ∀ i a, (applyInjection E n s).state.RING.attr i a = s.RING.attr i a := by
  have f := applyInjection_frame E n s
  exact ⟨fit_of_frame h.fit f.ord f.sig f.len f.attr (fun _ _ _ h => h),
    PreRel.trans _ _ _ h.cav (cav_of_attr f.ord f.sig f.attr (fun _ _ _ h => h)), fun i a => f.attr i a (fun h => h)⟩

theorem Scaled.pos {r r' : Ring K} (h : Scaled r r') : ∃ q : K, 0 < q ∧ ∀ i, numAt r' i "Length" = if DriftAt r i then q * numAt r i "Length" else numAt r i "Length" := by
  obtain ⟨hl, q, hq, h⟩ := h
  refine ⟨q, hq, fun i => ?_⟩
  by_cases hi : i < r.length
  · have := h i hi "Length"
    by_cases hd : DriftAt r i
    · rw [if_pos ⟨rfl, hd⟩] at this
      rw [if_pos hd]
      exact numAt_of_attr this
    · rw [if_neg (fun c => hd c.2)] at this
      rw [if_neg hd]
      exact numAt_congr this
  · have none : ∀ {u : Ring K}, u.length ≤ i → ∀ a, u.attr i a = none := by
      intro u hu a
      unfold Ring.attr
      rw [List.getElem?_eq_none hu]
      rfl
    have hd : ¬ DriftAt r i := by
      unfold DriftAt
      rw [none (by omega)]
      simp
    rw [if_neg hd]
    exact numAt_congr (by rw [none (by omega), none (by omega)])

theorem Scaled.forward {r r' : Ring K} (h : Scaled r r') (hf : Forward r) : Forward r' := by
  obtain ⟨q, hq, hn⟩ := h.pos
  intro i
  rw [hn]
  split
  · exact mul_nonneg hq.le (hf i)
  · exact hf i

theorem Scaled.positive {r r' : Ring K} (h : Scaled r r') {i : Nat} (hp : 0 < numAt r i "Length") : 0 < numAt r' i "Length" := by
  obtain ⟨q, hq, hn⟩ := h.pos
  rw [hn]
  split
  · exact mul_pos hq hp
  · exact hp

theorem driftLength_congr {r r' : Ring K} (hl : r'.length = r.length) (h : ∀ i, ∀ a ∈ ["Length", "PassMethod"], r'.attr i a = r.attr i a) :
    driftLength r' = driftLength r := by
  unfold driftLength
  rw [hl]
  congr 1
  refine List.map_congr_left (fun i _ => ?_)
  have e1 : DriftAt r' i ↔ DriftAt r i := by unfold DriftAt; rw [h i _ (by simp)]
  have e2 : numAt r' i "Length" = numAt r i "Length" := numAt_congr (h i _ (by simp))
  by_cases hd : DriftAt r i
  · rw [if_pos hd, if_pos (e1.2 hd), e2]
  · rw [if_neg hd, if_neg (fun c => hd (e1.1 c))]

theorem stretchable_congr {n : K} {s t : SC K} (h : Stretchable n s) (hg : t.SIG = s.SIG) (hl : t.RING.length = s.RING.length)
    (ha : ∀ i, ∀ a ∈ ["Length", "PassMethod"], t.RING.attr i a = s.RING.attr i a) : Stretchable n t := by
  rcases h with h | h
  · left
    intro i hi hd
    refine h i (hl ▸ hi) ?_
    unfold DriftAt at hd ⊢
    rw [← ha i _ (by simp)]
    exact hd
  · right
    rw [hg, driftLength_congr hl ha]
    have : circumference t.RING = circumference s.RING := by
      unfold circumference
      rw [hl]
      exact sPos_congr (fun i => ha i _ (by simp)) _
    rw [this]
    exact h

/-- with enough passes applying errors to a machine in order succeeds, unless a transformation is refused -/
theorem applyErrors_settles {E : Env K} (hE : KeepsDrawing E.randn) {n : K} {s : SC K} (h : Applicable n s) :
    Settles (Refused E) (fun f => applyErrors (E.passes f) n) s (fun _ _ => True) := by
  have hw := h.registered
  have e0 : Early s s := ⟨FitState.refl s, PreRel.refl s, rfl, fun _ _ _ => rfl, fun i hi => ⟨(h.magnets i hi).2.offset, (h.magnets i hi).2.roll⟩⟩
  have wr : ∀ {t : SC K}, FitState s t → WellRegistered t.SIG := fun ht => by rw [ht.sig]; exact hw
  unfold applyErrors
  refine ((applyRf_settles hE h.cutOff hw (fun i hi => (h.cavities i hi).1) h.cavityErrors).post (Q := fun _ t => Early s t) (fun f a t ht => by
    have := applyRf_early hw h.fitting e0 (E.passes f) n
    rw [ht] at this; exact this)).bind (fun _ s1 h1 => ?_)
  replace h1 := h1.2
  refine ((applyBpm_settles hE h.cutOff (wr h1.fit) (by rw [h1.fit.ord, h1.fit.len]; exact h.bpms) (by rw [h1.fit.ord, h1.fit.sig]; exact h.bpmErrors)).post
    (Q := fun _ t => Early s t) (fun f a t ht => by
    have := applyBpm_early hw h1 (E.passes f) n
    rw [ht] at this; exact this)).bind (fun _ s2 h2 => ?_)
  replace h2 := h2.2
  refine ((applyMagnet_settles hE h.cutOff (wr h2.fit) (by rw [h2.fit.ord, h2.fit.len]; exact fun i hi => (h.magnets i hi).1.self.inRing)
    (by rw [h2.fit.ord, h2.fit.sig]; exact fun i hi m v hv => (h.magnetErrors i hi m v hv).1)).post
    (Q := fun _ t => Early s t) (fun f a t ht => applyMagnet_early h h2 ht)).bind (fun _ s3 h3 => ?_)
  replace h3 := h3.2
  refine ((applyInjection_settles hE h.cutOff (by rw [h3.fit.sig, h3.inj]; exact h.injection)).post
    (Q := fun _ t => FitState s t ∧ CavKept s t ∧ ∀ i a, t.RING.attr i a = s3.RING.attr i a) (fun f a t ht => by
    have := applyInjection_early h3 (E.passes f) n
    rw [ht] at this; exact this)).bind (fun _ s4 h4 => ?_)
  obtain ⟨-, fit4, cav4, same4⟩ := h4
  have keep4 : ∀ i, ∀ a ∈ steadyNames, s4.RING.attr i a = s.RING.attr i a := fun i a ha => (same4 i a).trans (h3.keep i a ha)
  have lp : ∀ i, ∀ a ∈ ["Length", "PassMethod"], s4.RING.attr i a = s.RING.attr i a := by
    intro i a ha
    simp only [List.mem_cons, List.not_mem_nil, or_false] at ha
    rcases ha with rfl | rfl
    · exact keep4 i _ (by decide +kernel)
    · exact fit4.fixed i _ (by decide +kernel)
  have num4 : ∀ i, numAt s4.RING i "Length" = numAt s.RING i "Length" := fun i => numAt_congr (keep4 i _ (by decide +kernel))
  have fwd4 : Forward s4.RING := fun i => by rw [num4]; exact h.forward i
  refine ((applyCircumference_settles hE h.cutOff fwd4 (stretchable_congr h.circumference fit4.sig fit4.len lp)).post
    (Q := fun _ t => FitState s t ∧ CavKept s t ∧ DrawFrame (fun _ a => a = "Length") s4 t) (fun f a t ht => by
    have f1 := applyCircumference_fit s (E.passes f) n s4 fit4
    have f2 := applyCircumference_frame (E.passes f) n s4
    rw [ht] at f1 f2
    exact ⟨f1, PreRel.trans _ _ _ cav4 (cav_of_draw f2 (fun _ => by decide +kernel)), f2⟩)).bind (fun _ s5 h5 => ?_)
  obtain ⟨sc5, fit5, cav5, fr5⟩ := h5
  have span5 : ∀ tp ∈ typedPairs s.ORD, Span s5.RING tp.2 := by
    intro tp htp
    obtain ⟨ht, hp⟩ := typedPairs_type htp
    have so := h.supports tp.1 ht tp.2 hp
    refine span_of (sc5.forward fwd4) (by rw [fit5.len]; exact so.start) (by rw [fit5.len]; exact so.end_) ?_ ?_
    · obtain ⟨k, a, b, c⟩ := so.inside
      exact ⟨k, a, b, sc5.positive (by rw [num4]; exact c)⟩
    · obtain ⟨k, a, b, c⟩ := so.outside
      exact ⟨k, by rw [fit5.len]; exact a, b, sc5.positive (by rw [num4]; exact c)⟩
  have fitS5 : ∀ tp ∈ typedPairs s.ORD, SupportFit s5 tp.1 tp.2 := by
    intro tp htp
    obtain ⟨ht, hp⟩ := typedPairs_type htp
    have so := h.supports tp.1 ht tp.2 hp
    refine SupportFit.congr (s := s) ⟨so.startOffset, so.endOffset, so.roll, so.known, so.uncertainty, so.tilt⟩ fit5.sig (fun i a hd => ?_)
    have hn : a ∈ supportNamesList := supportDrawn_name ⟨tp, htp, hd⟩
    exact (fr5.attr i a (fun e => by subst e; exact absurd hn (by decide +kernel))).trans (keep4 i a (List.mem_cons_of_mem _ hn))
  have pl5 : ∀ i ∈ s.ORD.Magnet, Placeable s5.RING i := by
    intro i hi
    have hp := (h.magnets i hi).2
    obtain ⟨v1, v2⟩ := h3.place i hi
    refine ⟨v1.congr ((fr5.attr i _ (by decide +kernel)).trans (same4 i _)), v2.congr ((fr5.attr i _ (by decide +kernel)).trans (same4 i _)), ?_, ?_⟩
    · have hlt : i < s4.RING.length := by rw [fit4.len]; exact (h.magnets i hi).1.self.inRing
      obtain ⟨-, q, hq, hs⟩ := sc5
      have := hs i hlt "Length"
      unfold NumberOrNothing
      rw [this]
      split
      · exact Or.inr ⟨_, rfl⟩
      · rw [keep4 i _ (by decide +kernel)]; exact hp.length
    · unfold NumberOrNothing
      rw [fit5.fixed i _ (by decide +kernel)]
      exact hp.angle
  have nm5 : ∀ i a, (∃ tp ∈ typedPairs s5.ORD, supportDrawn tp.1 tp.2 i a) → a ∈ supportNamesList := fun i a hd => supportDrawn_name hd
  refine ((applySupports_settles hE h.cutOff (wr fit5) (by rw [fit5.ord]; exact span5) (by rw [fit5.ord]; exact fitS5)
    (by rw [fit5.ord]; exact h.apart)).post
    (Q := fun _ t => FitState s t ∧ CavKept s t ∧ DrawFrame (fun _ a => a ∈ supportNamesList) s5 t) (fun f a t ht => by
    have f1 := applySupports_frame (E := E.passes f) (n := n) (wr fit5)
    rw [ht] at f1
    simp only [Res.state] at f1
    have f2 : DrawFrame (fun _ a => a ∈ supportNamesList) s5 t := f1.mono nm5
    exact ⟨fit_of_draw fit5 f2 (fun _ => by decide +kernel), PreRel.trans _ _ _ cav5 (cav_of_draw f2 (fun _ => by decide +kernel)), f2⟩)).bind (fun _ s6 h6 => ?_)
  obtain ⟨shape6, fit6, cav6, fr6⟩ := h6
  have ready6 : SupportsReady s6.RING s6.ORD := by
    rw [fit6.ord]
    rw [fit5.ord] at shape6
    refine ⟨fun tp htp => ?_, shape6⟩
    have sp := span5 tp htp
    have el : s6.RING.length = s5.RING.length := fit6.len.trans fit5.len.symm
    have es : ∀ k, sPos s6.RING k = sPos s5.RING k := sPos_congr (fun i => fr6.attr i _ (by decide +kernel))
    refine ⟨by rw [el]; exact sp.start, by rw [el]; exact sp.end_, by rw [es, es]; exact sp.ne, ?_⟩
    have : circumference s6.RING = circumference s5.RING := by unfold circumference; rw [el, es]
    rw [es, es, this]
    exact sp.short
  refine ((updateSupports_settles ready6 (by
      rw [fit6.ord]
      exact fun i hi => ⟨fit6.magnet h.fitting (h.magnets i hi).1, (pl5 i hi).congr (fun a ha => fr6.attr i a (by revert a; decide +kernel))⟩)
    (by rw [fit6.ord, fit6.len]; exact h.bpms) true true).post
    (Q := fun _ t => FitState s t ∧ CavKept s t) (fun f a t ht => by
    have f1 := updateSupports_frame (E.passes f) true true s6
    rw [ht] at f1
    exact ⟨fit_of_draw fit6 (DrawFrame.of_frame f1) (fun _ => by decide +kernel),
      PreRel.trans _ _ _ cav6 (cav_of_frame f1 (fun _ => by decide +kernel))⟩)).bind (fun _ s7 h7 => ?_)
  obtain ⟨-, fit7, cav7⟩ := h7
  refine (Settles.get (P := fun a u => a = s7 ∧ u = s7) ⟨rfl, rfl⟩).bind (fun a u hu => ?_)
  obtain ⟨hA, hB⟩ := hu
  subst a
  subst u
  refine Settles.bind (P := fun _ t => CavKept s t) (Settles.when (fun _ => ?_) (fun _ => cav7)) (fun _ s8 cav8 => Settles.when (fun _ => ?_) (fun _ => trivial))
  · obtain ⟨t, ht⟩ := updateMagnets_total (l := s7.ORD.Magnet) (s := s7) (by
      rw [fit7.ord]; exact fun i hi => fit7.magnet h.fitting (h.magnets i hi).1)
    rw [← updateMagnets_none] at ht
    refine Settles.of_ok (fun _ => ht) ?_
    have f1 := updateMagnets_modifies none s7
    rw [ht] at f1
    exact PreRel.trans _ _ _ cav7 (cav_of_frame f1 (fun _ => by decide +kernel))
  · obtain ⟨t, ht⟩ := updateCavities_total (l := s8.ORD.RF) (s := s8) (by
      rw [cav8.1]; exact fun i hi => cav8.2.2 i (h.cavities i hi).2)
    exact Settles.of_ok (t := t) (fun _ => ht) trivial

end PySC
