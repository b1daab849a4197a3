import Verif.Lemmas.RequestsRun
import Verif.Lemmas.Rf
/-
Well-formed requests are carried out.
-/
namespace PySC
set_option linter.unusedSectionVars false
variable {K : Type} [Field K] [LinearOrder K] [FloorRing K]
open Py Spec

theorem Spec.CorrectorReady.normBy {r : Ring K} {i : Nat} {sk : Bool} (h : CorrectorReady r i sk) : ∃ x, PySC.normBy r i sk = .ok x ∧ x ≠ 0 := by
  obtain ⟨p, hp⟩ := h.magnet.pass
  unfold PySC.normBy
  rw [Ring.getStr_eq_ok.2 hp]
  show ∃ x, (if p = "CorrectorPass" then _ else _) = Except.ok x ∧ x ≠ 0
  by_cases hc : p = "CorrectorPass"
  · rw [if_pos hc]; exact ⟨1, rfl, one_ne_zero⟩
  · rw [if_neg hc]
    rcases h.length with h1 | ⟨⟨L, hL, h1⟩, -⟩
    · rw [hp] at h1; cases h1; exact absurd rfl hc
    · rw [Ring.getNum_eq_ok.2 h1]
      refine ⟨_, rfl, mul_ne_zero ?_ hL⟩
      cases sk
      · exact neg_ne_zero.2 one_ne_zero
      · exact one_ne_zero

theorem Spec.CorrectorReady.clip {r : Ring K} {i : Nat} {sk : Bool} (h : CorrectorReady r i sk) (isInt : Bool) (x : K) :
    ∃ y, clipCM r i sk isInt x = .ok y := by
  unfold clipCM
  rw [Ring.hasA_of_lt h.magnet.self.inRing]
  rcases h.limit with hl | ⟨l, hl, hn⟩
  · rw [hl]; exact ⟨x, rfl⟩
  · rw [hl]
    show ∃ y, (r.getA i "CMlimit" >>= _) = .ok y
    rw [Ring.getA_eq_ok.2 hl]
    show ∃ y, (idx l (if sk then 1 else 0) >>= _) = .ok y
    rw [idx_eq_ok.2 (List.getElem?_eq_getElem hn)]
    exact ⟨_, rfl⟩

theorem plane_if (sk : Bool) : (if sk then "A" else "B") = letter sk := rfl

theorem Spec.MagnetReady.spAt {r : Ring K} {i : Nat} (h : MagnetReady r i) (sk : Bool) :
    ∃ v, r.attr i ("SetPoint" ++ letter sk) = some (.vec v) ∧ arrLen r i ("SetPoint" ++ letter sk) = v.length ∧ 0 < v.length := by
  obtain ⟨v, hv, hl⟩ := exists_of_arrLen (h.setpoints _ (letter_mem sk)).1
  exact ⟨v, hv, hl, hl ▸ (h.setpoints _ (letter_mem sk)).2⟩

theorem Spec.CorrectorReady.newCM {r : Ring K} {i : Nat} {sk : Bool} (h : CorrectorReady r i sk) (m : String) (isInt : Bool) (x : K) :
    ∃ w, PySC.newCM r sk m isInt i x = .ok w := by
  obtain ⟨nb, hnb, hn0⟩ := h.normBy
  obtain ⟨v, hv, -, hl⟩ := h.magnet.spAt sk
  have hi : idx v 0 = .ok v[0] := idx_eq_ok.2 (List.getElem?_eq_getElem hl)
  obtain ⟨y, hy⟩ := h.clip isInt (if m = "rel" then store isInt (x * (v[0] * nb)) else if m = "add" then store isInt (x + v[0] * nb) else x)
  refine ⟨v.set 0 (y / nb), ?_⟩
  simp only [PySC.newCM, Except.bind_eq_ok', Ring.getVec_eq_ok]
  exact ⟨nb, hnb, v, hv, _, hi, y, hy, _, divE_eq_ok.2 ⟨hn0, rfl⟩, rfl⟩

theorem checkInput_ok {method : String} {ords : List Nat} {sp : NpArr K} (h : Fits method ords.length sp) :
    checkInput method ords sp = .ok ⟨sp.isInt, spread ords.length sp.vals⟩ := by
  unfold checkInput spread
  rw [if_neg (fun hn => hn h.1), if_neg (by have := h.2; omega)]
  split <;> rfl

theorem setCM_total {l : List Nat} {sp : NpArr K} {sk : Bool} {m : String} {s : SC K} (h : ∀ i ∈ l, CorrectorReady s.RING i sk)
    (hf : Fits m l.length sp) : ∃ s', setCMSetpoints l sp sk m s = .ok () s' := by
  have hloop : ∃ s1, forEach (l.zip (spread l.length sp.vals)) (fun p => setCM1 sk m sp.isInt p.1 p.2) s = .ok () s1 ∧ ShapeKept s s1 := by
    refine forEach_progress (I := fun t => ShapeKept s t) (fun p hp t ht => ?_) (PreRel.refl s)
    obtain ⟨w, hw⟩ := (ht.1.corrector (h p.1 (List.of_mem_zip (a := p.1) (b := p.2) hp).1)).newCM m sp.isInt p.2
    obtain ⟨v, y, hv, -⟩ := newCM_shape hw
    have he : ∃ t', setCM1 sk m sp.isInt p.1 p.2 t = .ok () t' := by
      unfold setCM1
      simp only [bindRd_eq_ok]
      exact ⟨_, w, hw, setAttr_eq_ok.2 ⟨Ring.attr_some_lt hv, rfl⟩⟩
    obtain ⟨t', he⟩ := he
    exact ⟨t', he, PreRel.trans _ _ _ ht ((setCM1_shape sk m sp.isInt p.1 p.2).ok he)⟩
  obtain ⟨s1, h1, hs⟩ := hloop
  obtain ⟨s2, h2⟩ := updateMagnets_total (s := s1) (fun i hi => hs.1.magnet (h i hi).magnet)
  refine ⟨s2, ?_⟩
  unfold setCMSetpoints
  rw [bindLift_eq_ok]
  exact ⟨_, checkInput_ok hf, bind_eq_ok.2 ⟨(), s1, h1, h2⟩⟩

theorem getCM_total {l : List Nat} {sk : Bool} {s : SC K} (h : ∀ i ∈ l, CorrectorReady s.RING i sk) :
    ∃ v, getCMSetpoints l sk s = .ok v s ∧ v.length = l.length := by
  have h1 : ∀ i ∈ l, ∃ x, getCM1 s.RING sk i = .ok x := by
    intro i hi
    obtain ⟨nb, hnb, -⟩ := (h i hi).normBy
    obtain ⟨v, hv, -, hl⟩ := (h i hi).magnet.spAt sk
    simp only [getCM1, Except.bind_eq_ok', Ring.getVecAt_eq_ok]
    exact ⟨_, v[0], ⟨v, hv, List.getElem?_eq_getElem hl⟩, nb, hnb, rfl⟩
  classical
  have hm : l.mapM (getCM1 s.RING sk) = .ok (l.map (fun i => if hi : ∃ x, getCM1 s.RING sk i = .ok x then hi.choose else 0)) :=
    mapM_except_ok (fun i hi => by rw [dif_pos (h1 i hi)]; exact (h1 i hi).choose_spec)
  exact ⟨_, rd_apply_ok hm, List.length_map _⟩

/-! ### components of magnets -/

theorem clipSkew_ok {s : SC K} {i k : Nat} {sk d : Bool} (h : ComponentReady s i sk k d) (isInt : Bool) (x : K) :
    ∃ y, clipSkew s.RING i sk k isInt x = .ok y := by
  unfold clipSkew
  split
  · rw [Ring.hasA_of_lt h.magnet.self.inRing]
    rcases h.limit with hl | ⟨l, hl⟩ | ⟨l, hl⟩
    · rw [hl]; exact ⟨x, rfl⟩
    · rw [hl]
      show ∃ y, (s.RING.getA i "SkewQuadLimit" >>= _) = .ok y
      rw [Ring.getA_eq_ok.2 hl]
      cases l
      · exact ⟨_, rfl⟩
      · exact ⟨_, rfl⟩
    · rw [hl]
      show ∃ y, (s.RING.getA i "SkewQuadLimit" >>= _) = .ok y
      rw [Ring.getA_eq_ok.2 hl]
      exact ⟨_, rfl⟩
  · exact ⟨x, rfl⟩

theorem dipoleCompensation_ok {s : SC K} {i : Nat} {sk : Bool} (h : ComponentReady s i sk 1 true) (x : K) :
    ∃ s', dipoleCompensation i x s = .ok () s' := by
  have hba : ∃ a, bendingAngleOr0 s.RING i = .ok a ∧ (a ≠ 0 → s.RING.attr i "BendingAngle" = some (.num a)) := by
    unfold bendingAngleOr0
    rw [Ring.hasA_of_lt h.magnet.self.inRing]
    rcases h.angle rfl rfl with ha | ⟨a, ha⟩
    · rw [ha]; exact ⟨0, rfl, fun h => absurd rfl h⟩
    · rw [ha]; exact ⟨a, Ring.getNum_eq_ok.2 ha, fun _ => rfl⟩
  obtain ⟨a, ha, ha'⟩ := hba
  unfold dipoleCompensation
  simp only [bindRd_eq_ok, bindGet_eq_ok]
  by_cases hc : a ≠ 0 ∧ i ∈ s.ORD.HCM
  · obtain ⟨h1, h2, v, y, hv, hy, hy0⟩ := h.compensation rfl rfl hc.2 (by rw [ha' hc.1]; rfl)
    obtain ⟨w, hw, hwl⟩ := exists_of_arrLen (h.magnet.setpoints "B" (by simp)).1
    simp only [String.reduceAppend] at hw hwl
    have hk : compensatingKick s.RING i x = .ok ((x - w[1]'(by omega)) / y * a) := by
      simp only [compensatingKick, Except.bind_eq_ok', Ring.getVecAt_eq_ok, Ring.getNum_eq_ok]
      exact ⟨_, ⟨w, hw, List.getElem?_eq_getElem (by omega)⟩, y, ⟨v, hv, hy⟩, _, divE_eq_ok.2 ⟨hy0, rfl⟩, a, ha' hc.1, rfl⟩
    obtain ⟨s', hs'⟩ := setCM_total (s := s) (l := [i]) (sp := ⟨false, [(x - w[1]'(by omega)) / y * a]⟩) (sk := false) (m := "add")
      (fun j hj => by rw [List.mem_singleton.1 hj]; exact h1) ⟨by simp, Or.inl rfl⟩
    refine ⟨s', a, ha, ?_⟩
    have : (decide (a ≠ 0) && decide (i ∈ s.ORD.HCM)) = true := by simp [hc.1, hc.2]
    rw [this]
    show (rd _ >>= _) s = _
    rw [bindRd_eq_ok]
    exact ⟨_, hk, hs'⟩
  · refine ⟨s, a, ha, ?_⟩
    have : (decide (a ≠ 0) && decide (i ∈ s.ORD.HCM)) = false := by
      rw [Bool.and_eq_false_iff]
      by_cases h0 : a ≠ 0
      · exact Or.inr (by simpa using fun hi => hc ⟨h0, hi⟩)
      · exact Or.inl (by simpa using h0)
    rw [this]; rfl

theorem setMagnet1_ok {s : SC K} {i k : Nat} {sk d : Bool} (h : ComponentReady s i sk k d) (isInt : Bool) (x : K) :
    ∃ s', setMagnet1 sk k isInt d i x s = .ok () s' := by
  obtain ⟨y, hy⟩ := clipSkew_ok h isInt x
  have hcomp : ∃ s1, Py.when (d && decide (k = 1)) (dipoleCompensation i y) s = .ok () s1 := by
    by_cases hc : d = true ∧ k = 1
    · obtain ⟨rfl, rfl⟩ := hc
      exact dipoleCompensation_ok h y
    · have : (d && decide (k = 1)) = false := by
        rw [Bool.and_eq_false_iff]
        by_cases h0 : d = true
        · exact Or.inr (by simpa using fun hi => hc ⟨h0, hi⟩)
        · exact Or.inl (by simpa using h0)
      rw [this]; exact ⟨s, rfl⟩
  obtain ⟨s1, h1⟩ := hcomp
  have hsh : ShapeKept s s1 := by
    refine Rel.ok (Rels.when ?_) h1
    unfold dipoleCompensation
    exact Rels.bind (Rels.rd _) (fun _ => Rels.bind Rels.get (fun _ => Rels.when (Rels.bind (Rels.rd _) (fun _ => setCM_shape _ _ _ _))))
  have h' := hsh.1.component hsh.2.1 h
  obtain ⟨v, hv, hl, -⟩ := h'.magnet.spAt sk
  have hk : k < v.length := by rw [← hl]; exact h'.component
  have hn : newSetpoint s1.RING sk k i y = .ok (v.set k y) := by
    simp only [newSetpoint, Except.bind_eq_ok', Ring.getVec_eq_ok]
    exact ⟨v, hv, _, idx_eq_ok.2 (List.getElem?_eq_getElem hk), rfl⟩
  unfold setMagnet1
  simp only [bind_eq_ok]
  exact ⟨_, y, s, rd_eq_ok.2 ⟨hy, rfl⟩, (), s1, h1, _, s1, rd_eq_ok.2 ⟨hn, rfl⟩, setAttr_eq_ok.2 ⟨Ring.attr_some_lt hv, rfl⟩⟩

theorem magnetRequest_ok {r : Ring K} {l : List Nat} {sp : NpArr K} {sk : Bool} {k : Nat} {m : String} (h : ∀ i ∈ l, MagnetReady r i)
    (hk : ∀ i ∈ l, k < arrLen r i ("SetPoint" ++ letter sk)) (hf : Fits m l.length sp) (hi : m = "abs" ∨ sp.isInt = false) :
    ∃ sps, magnetRequest r l sp sk k m = .ok sps ∧ sps.isInt = sp.isInt := by
  have hval : ∀ a : String, (∀ i ∈ l, HasVec r i a ∧ k < arrLen r i a) → ∃ w, fieldValues r l a k = .ok w := by
    intro a ha
    have h1 : ∀ i ∈ l, r.getVecAt i a k = .ok (coef (vecAt r i a) k) := by
      intro i hi
      obtain ⟨⟨v, hv⟩, hlt⟩ := ha i hi
      rw [arrLen_of_vec hv] at hlt
      refine Ring.getVecAt_eq_ok.2 ⟨v, hv, ?_⟩
      rw [vecAt_of_attr hv, List.getElem?_eq_getElem hlt, coef_of_getElem? (List.getElem?_eq_getElem hlt)]
    exact ⟨_, mapM_except_ok h1⟩
  unfold magnetRequest
  rw [checkInput_ok hf]
  show ∃ sps, (if m = "rel" then _ else if m = "add" then _ else _) = Except.ok sps ∧ _
  by_cases hrel : m = "rel"
  · rw [if_pos hrel]
    obtain ⟨w, hw⟩ := hval ("NomPolynom" ++ letter sk) (fun i hi => by
      obtain ⟨h1, h2⟩ := (h i hi).nominal _ (letter_mem sk)
      exact ⟨h1, by rw [h2]; exact hk i hi⟩)
    rw [hw]
    have : sp.isInt = false := by rcases hi with hi | hi; exacts [by rw [hi] at hrel; simp at hrel, hi]
    show ∃ sps, inPlace (· * ·) _ w = Except.ok sps ∧ _
    unfold inPlace
    rw [if_neg (by simp [this])]
    exact ⟨_, rfl, this.symm⟩
  · rw [if_neg hrel]
    by_cases hadd : m = "add"
    · rw [if_pos hadd]
      obtain ⟨w, hw⟩ := hval ("SetPoint" ++ letter sk) (fun i hi => ⟨((h i hi).setpoints _ (letter_mem sk)).1, hk i hi⟩)
      rw [hw]
      have : sp.isInt = false := by rcases hi with hi | hi; exacts [by rw [hi] at hadd; simp at hadd, hi]
      show ∃ sps, inPlace (· + ·) _ w = Except.ok sps ∧ _
      unfold inPlace
      rw [if_neg (by simp [this])]
      exact ⟨_, rfl, this.symm⟩
    · rw [if_neg hadd]; exact ⟨_, rfl, rfl⟩

theorem setMagnet_total {l : List Nat} {sp : NpArr K} {sk d : Bool} {k : Nat} {m : String} {s : SC K}
    (h : ∀ i ∈ l, ComponentReady s i sk k d) (hf : Fits m l.length sp) (hi : m = "abs" ∨ sp.isInt = false) :
    ∃ s', setMagnetSetpoints l sp sk k m d s = .ok () s' := by
  obtain ⟨sps, hs, -⟩ := magnetRequest_ok (fun i hi => (h i hi).magnet) (fun i hi => (h i hi).component) hf hi
  have hloop : ∃ s1, forEach (l.zip sps.vals) (fun p => setMagnet1 sk k sps.isInt d p.1 p.2) s = .ok () s1 ∧ ShapeKept s s1 := by
    refine forEach_progress (I := fun t => ShapeKept s t) (fun p hp t ht => ?_) (PreRel.refl s)
    obtain ⟨t', he⟩ := setMagnet1_ok (ht.1.component ht.2.1 (h p.1 (List.of_mem_zip (a := p.1) (b := p.2) hp).1)) sps.isInt p.2
    exact ⟨t', he, PreRel.trans _ _ _ ht ((setMagnet1_shape _ _ _ _ _ _).ok he)⟩
  obtain ⟨s1, h1, hsh⟩ := hloop
  obtain ⟨s2, h2⟩ := updateMagnets_total (s := s1) (fun i hi => hsh.1.magnet (h i hi).magnet)
  refine ⟨s2, ?_⟩
  unfold setMagnetSetpoints
  rw [bindRd_eq_ok]
  exact ⟨_, hs, bind_eq_ok.2 ⟨(), s1, h1, h2⟩⟩

/-! ### cavities -/

theorem setCavity_total' {l : List Nat} {sp : NpArr K} {s : SC K} (h : ∀ i ∈ l, CavityReady s.RING i) {field m : String}
    (hfield : field ∈ ["Voltage", "Frequency", "TimeLag"]) (hf : Fits m l.length sp) (hi : m = "abs" ∨ sp.isInt = false) :
    ∃ s', setCavitySetpoints l sp field m s = .ok () s' := by
  have hreq : ∃ v, cavityRequest s.RING l sp field m = .ok v := by
    have hw : l.mapM (fun o => s.RING.getNum o (field ++ "SetPoint")) = .ok (l.map (fun o => numAt s.RING o (field ++ "SetPoint"))) :=
      mapM_except_ok (fun i hi => Ring.getNum_eq_ok.2 ((h i hi).numAt hfield (by simp)))
    unfold cavityRequest
    rw [checkInput_ok hf]
    show ∃ sps, (if m = "rel" then _ else if m = "add" then _ else _) = Except.ok sps
    by_cases hrel : m = "rel"
    · rw [if_pos hrel, hw]
      have : sp.isInt = false := by rcases hi with hi | hi; exacts [by rw [hi] at hrel; simp at hrel, hi]
      show ∃ sps, inPlace (· * ·) _ _ = Except.ok sps
      unfold inPlace
      rw [if_neg (by simp [this])]
      exact ⟨_, rfl⟩
    · rw [if_neg hrel]
      by_cases hadd : m = "add"
      · rw [if_pos hadd, hw]
        have : sp.isInt = false := by rcases hi with hi | hi; exacts [by rw [hi] at hadd; simp at hadd, hi]
        show ∃ sps, inPlace (· + ·) _ _ = Except.ok sps
        unfold inPlace
        rw [if_neg (by simp [this])]
        exact ⟨_, rfl⟩
      · rw [if_neg hadd]; exact ⟨_, rfl⟩
  obtain ⟨v, hv⟩ := hreq
  have hloop : ∃ s1, forEach (l.zip v.vals) (fun p => setAttr p.1 (field ++ "SetPoint") (.num p.2)) s = .ok () s1 ∧
      ∀ i ∈ l, CavityReady s1.RING i := by
    refine forEach_progress (I := fun (t : SC K) => ∀ i ∈ l, CavityReady t.RING i) (fun p hp t ht => ?_) h
    have hmem : p.1 ∈ l := (List.of_mem_zip (a := p.1) (b := p.2) hp).1
    have hlt : p.1 < t.RING.length := Ring.attr_some_lt ((ht _ hmem).numAt (f := "Voltage") (part := "SetPoint") (by simp) (by simp))
    refine ⟨_, setAttr_eq_ok.2 ⟨hlt, rfl⟩, fun i hi g hg part hpart => ?_⟩
    simp only
    by_cases hip : i = p.1
    · subst hip
      by_cases ha : g ++ part = field ++ "SetPoint"
      · rw [ha, Ring.attr_setAttr_same hlt]; exact ⟨_, rfl⟩
      · rw [Ring.attr_setAttr_ne ha]; exact ht p.1 hi g hg part hpart
    · rw [Ring.attr_setAttr_ne' hip]; exact ht i hi g hg part hpart
  obtain ⟨s1, h1, hr⟩ := hloop
  obtain ⟨s2, h2⟩ := updateCavities_total hr
  refine ⟨s2, ?_⟩
  simp only [setCavitySetpoints, bind_eq_ok, rd_eq_ok]
  exact ⟨_, _, ⟨hv, rfl⟩, _, _, h1, h2⟩

end PySC
