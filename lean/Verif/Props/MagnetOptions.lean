import Verif.Spec.MagnetOptions
import Verif.Props.Register
import Verif.Lemmas.Beam
/-
C130: the options of a registration decide about the type of a magnet.
-/
namespace PySC
set_option linter.unusedSectionVars false
variable {K : Type} [Field K] [LinearOrder K]
open Py Spec

theorem withKey_ok {kw : Kwargs K} {k : String} {b : Attr K → Py (SC K) Unit} {s s' : SC K} (h : withKey kw k b s = .ok () s') :
    (∃ v, kw.get? k = some v ∧ b v s = .ok () s') ∨ (kw.get? k = none ∧ s' = s) := by
  unfold withKey at h
  cases e : kw.get? k with
  | none => rw [e] at h; cases h; exact Or.inr ⟨rfl, rfl⟩
  | some v => rw [e] at h; exact Or.inl ⟨v, rfl, h⟩

theorem setCMlimit_ok {ind k : Nat} {v : Attr K} {s s' : SC K} (h : setCMlimit ind k v s = .ok () s') :
    ∃ ls l, s.RING.attr ind "CMlimit" = some (.lims ls) ∧ asLimit v = some l ∧ k < ls.length ∧ s'.RING.attr ind "CMlimit" = some (.lims (ls.set k l)) ∧
      ∀ a, a ≠ "CMlimit" → s'.RING.attr ind a = s.RING.attr ind a := by
  unfold setCMlimit at h
  obtain ⟨a, s1, h1, h2⟩ := bind_eq_ok.1 h
  obtain ⟨h1, rfl⟩ := rd_eq_ok.1 h1
  obtain ⟨ls, e2, h3⟩ := bindLift_eq_ok.1 h2
  obtain ⟨l, e3, h4⟩ := bindLift_eq_ok.1 h3
  obtain ⟨x, e4, h5⟩ := bindLift_eq_ok.1 h4
  obtain ⟨hl, rfl⟩ := setAttr_eq_ok.1 h5
  have ha : s1.RING.attr ind "CMlimit" = some a := Ring.getA_eq_ok.1 h1
  have e2' : a = .lims ls := by cases a <;> simp [Attr.toLims] at e2 ; rw [e2]
  refine ⟨ls, l, by rw [ha, e2'], ?_, ?_, Ring.attr_setAttr_same hl, fun a ha => Ring.attr_setAttr_ne ha⟩
  · cases v <;> simp [Attr.toLim] at e3 <;> simp [asLimit, e3]
  · unfold idx at e4
    cases e : ls[k]? with
    | none => rw [e] at e4; cases e4
    | some y => exact (List.getElem?_eq_some_iff.1 e).1

theorem ensureCMlimit_ok {ind : Nat} {s s' : SC K} (h : ensureCMlimit ind s = .ok () s') :
    ((s.RING.attr ind "CMlimit" ≠ none ∧ s' = s) ∨ (s.RING.attr ind "CMlimit" = none ∧ s'.RING.attr ind "CMlimit" = some (.lims [.fin 0, .fin 0]))) ∧
      ∀ a, a ≠ "CMlimit" → s'.RING.attr ind a = s.RING.attr ind a := by
  unfold ensureCMlimit at h
  obtain ⟨b, s1, h1, h2⟩ := bind_eq_ok.1 h
  obtain ⟨h1, rfl⟩ := rd_eq_ok.1 h1
  have hb : b = (s1.RING.attr ind "CMlimit").isSome := (Ring.hasA_eq_ok.1 h1).2
  cases b with
  | true =>
    cases h2
    exact ⟨Or.inl ⟨fun e => (by rw [e] at hb; cases hb), rfl⟩, fun _ _ => rfl⟩
  | false =>
    have h : setAttr ind "CMlimit" (.lims [.fin 0, .fin 0]) s1 = .ok () s' := h2
    obtain ⟨hl, rfl⟩ := setAttr_eq_ok.1 h
    exact ⟨Or.inr ⟨by simpa using hb.symm, Ring.attr_setAttr_same hl⟩, fun a ha => Ring.attr_setAttr_ne ha⟩

theorem optional_ok {ind : Nat} {ords : List Nat} {kw : Kwargs K} {s s' : SC K} (h : optionalMagnetFields ind ords kw s = .ok () s') :
    Options kw.get? s.RING s'.RING ind := by
  unfold optionalMagnetFields at h
  obtain ⟨⟨⟩, s1, h1, h⟩ := bind_eq_ok.1 h
  obtain ⟨⟨⟩, s2, h2, h⟩ := bind_eq_ok.1 h
  obtain ⟨⟨⟩, s3, h3, h⟩ := bind_eq_ok.1 h
  obtain ⟨⟨⟩, s4, h4, h⟩ := bind_eq_ok.1 h
  obtain ⟨⟨⟩, s5, h5, h6⟩ := bind_eq_ok.1 h
  -- the flag
  have c1 : s1.RING.attr ind "CombinedFunction" = (if kw.get? "CF" ≠ none then some (.flag true) else s.RING.attr ind "CombinedFunction") ∧
      ∀ a, a ≠ "CombinedFunction" → s1.RING.attr ind a = s.RING.attr ind a := by
    rcases withKey_ok h1 with ⟨v, e, g⟩ | ⟨e, rfl⟩
    · obtain ⟨hl, rfl⟩ := setAttr_eq_ok.1 g
      exact ⟨by rw [if_pos (by simp [e])]; exact Ring.attr_setAttr_same hl, fun a ha => Ring.attr_setAttr_ne ha⟩
    · exact ⟨by rw [if_neg (by simp [e])], fun _ _ => rfl⟩
  -- the limits of correctors
  have c2 : (if kw.get? "HCM" ≠ none ∨ kw.get? "VCM" ≠ none then
        ((s1.RING.attr ind "CMlimit" ≠ none ∧ s2.RING.attr ind "CMlimit" = s1.RING.attr ind "CMlimit") ∨
          (s1.RING.attr ind "CMlimit" = none ∧ s2.RING.attr ind "CMlimit" = some (.lims [.fin 0, .fin 0])))
      else s2 = s1) ∧ ∀ a, a ≠ "CMlimit" → s2.RING.attr ind a = s1.RING.attr ind a := by
    have hh : ∀ k, kw.has k = true ↔ kw.get? k ≠ none := fun k => by
      rw [Dict.has_iff, ← Dict.get?_isSome_iff]; cases kw.get? k <;> simp
    by_cases c : kw.get? "HCM" ≠ none ∨ kw.get? "VCM" ≠ none
    · have : (kw.has "HCM" || kw.has "VCM") = true := by simpa [hh] using c
      rw [this] at h2
      obtain ⟨g, g'⟩ := ensureCMlimit_ok h2
      rw [if_pos c]
      exact ⟨g.imp (fun g => ⟨g.1, by rw [g.2]⟩) id, g'⟩
    · have : (kw.has "HCM" || kw.has "VCM") = false := by
        rw [Bool.eq_false_iff]; intro e; exact c (by simpa [hh] using e)
      rw [this] at h2
      cases h2
      rw [if_neg c]
      exact ⟨rfl, fun _ _ => rfl⟩
  have c3 : (∀ a, a ≠ "CMlimit" → s3.RING.attr ind a = s2.RING.attr ind a) ∧
      ((∃ v ls l, kw.get? "HCM" = some v ∧ s2.RING.attr ind "CMlimit" = some (.lims ls) ∧ asLimit v = some l ∧ 0 < ls.length ∧
        s3.RING.attr ind "CMlimit" = some (.lims (ls.set 0 l))) ∨ (kw.get? "HCM" = none ∧ s3 = s2)) := by
    rcases withKey_ok h3 with ⟨v, e, g⟩ | ⟨e, rfl⟩
    · obtain ⟨ls, l, g1, g2, g3, g4, g5⟩ := setCMlimit_ok g
      exact ⟨g5, Or.inl ⟨v, ls, l, e, g1, g2, g3, g4⟩⟩
    · exact ⟨fun _ _ => rfl, Or.inr ⟨e, rfl⟩⟩
  have c4 : (∀ a, a ≠ "CMlimit" → s4.RING.attr ind a = s3.RING.attr ind a) ∧
      ((∃ v ls l, kw.get? "VCM" = some v ∧ s3.RING.attr ind "CMlimit" = some (.lims ls) ∧ asLimit v = some l ∧ 1 < ls.length ∧
        s4.RING.attr ind "CMlimit" = some (.lims (ls.set 1 l))) ∨ (kw.get? "VCM" = none ∧ s4 = s3)) := by
    rcases withKey_ok h4 with ⟨v, e, g⟩ | ⟨e, rfl⟩
    · obtain ⟨ls, l, g1, g2, g3, g4, g5⟩ := setCMlimit_ok g
      exact ⟨g5, Or.inl ⟨v, ls, l, e, g1, g2, g3, g4⟩⟩
    · exact ⟨fun _ _ => rfl, Or.inr ⟨e, rfl⟩⟩
  have c5 : (∀ a, a ≠ "SkewQuadLimit" → s5.RING.attr ind a = s4.RING.attr ind a) ∧
      s5.RING.attr ind "SkewQuadLimit" = (match kw.get? "SkewQuad" with | some v => some v | none => s4.RING.attr ind "SkewQuadLimit") := by
    rcases withKey_ok h5 with ⟨v, e, g⟩ | ⟨e, rfl⟩
    · obtain ⟨hl, rfl⟩ := setAttr_eq_ok.1 g
      exact ⟨fun a ha => Ring.attr_setAttr_ne ha, by rw [e]; exact Ring.attr_setAttr_same hl⟩
    · exact ⟨fun _ _ => rfl, by rw [e]⟩
  have c6 : ∀ a, a ≠ "MasterOf" → s'.RING.attr ind a = s5.RING.attr ind a := by
    rcases withKey_ok h6 with ⟨v, e, g⟩ | ⟨e, rfl⟩
    · obtain ⟨l, _, g⟩ := bindLift_eq_ok.1 g
      obtain ⟨hl, rfl⟩ := setAttr_eq_ok.1 g
      exact fun a ha => Ring.attr_setAttr_ne ha
    · exact fun _ _ => rfl
  have l1 : s1.RING.attr ind "CMlimit" = s.RING.attr ind "CMlimit" := c1.2 _ (by decide)
  have l6 : s'.RING.attr ind "CMlimit" = s4.RING.attr ind "CMlimit" := by rw [c6 _ (by decide), c5.1 _ (by decide)]
  have cf : s'.RING.attr ind "CombinedFunction" = (if kw.get? "CF" ≠ none then some (.flag true) else s.RING.attr ind "CombinedFunction") := by
    rw [c6 _ (by decide), c5.1 _ (by decide), c4.1 _ (by decide), c3.1 _ (by decide), c2.2 _ (by decide), c1.1]
  have sk : s'.RING.attr ind "SkewQuadLimit" = (match kw.get? "SkewQuad" with | some v => some v | none => s.RING.attr ind "SkewQuadLimit") := by
    rw [c6 _ (by decide), c5.2, c4.1 _ (by decide), c3.1 _ (by decide), c2.2 _ (by decide), c1.2 _ (by decide)]
  have lim : ∀ (r : Ring K) k, limitIn r ind k = (match r.attr ind "CMlimit" with | some (.lims l) => l[k]? | _ => none) := fun _ _ => rfl
  have key : limitIn s'.RING ind 0 = limitAfter (kw.get? "HCM") (kw.get? "VCM") (s.RING.attr ind "CMlimit") (limitIn s.RING ind 0) ∧
      limitIn s'.RING ind 1 = limitAfter (kw.get? "VCM") (kw.get? "HCM") (s.RING.attr ind "CMlimit") (limitIn s.RING ind 1) ∧
      (kw.get? "HCM" ≠ none ∨ kw.get? "VCM" ≠ none → ∃ l, s'.RING.attr ind "CMlimit" = some (.lims l)) ∧
      (kw.get? "HCM" = none → kw.get? "VCM" = none → s'.RING.attr ind "CMlimit" = s.RING.attr ind "CMlimit") := by
    obtain ⟨c2, -⟩ := c2
    rw [lim, lim, lim, lim, l6]
    rw [l1] at c2
    rcases c3.2 with ⟨v, ls, l, e, g1, g2, g3, g4⟩ | ⟨e, rfl⟩
    · rw [if_pos (Or.inl (by simp [e]))] at c2
      rcases c4.2 with ⟨v', ls', l', e', k1, k2, k3, k4⟩ | ⟨e', rfl⟩
      · rw [g4] at k1
        cases k1
        rw [k4]
        refine ⟨?_, ?_, fun _ => ⟨_, rfl⟩, fun h => by rw [e] at h; cases h⟩
        · simp [limitAfter, e, g2, g3]
        · simp only [limitAfter, e', k2]
          exact List.getElem?_set_self k3
      · rw [g4]
        refine ⟨?_, ?_, fun _ => ⟨_, rfl⟩, fun h => by rw [e] at h; cases h⟩
        · simp [limitAfter, e, g2, g3]
        · simp only [limitAfter, e', e]
          rw [List.getElem?_set_ne (by decide)]
          rcases c2 with ⟨n, q⟩ | ⟨n, q⟩
          · rw [if_neg (fun h => n h.1), ← q, g1]
          · rw [if_pos ⟨n, by simp⟩]
            rw [q] at g1
            cases g1
            rfl
    · rcases c4.2 with ⟨v', ls', l', e', k1, k2, k3, k4⟩ | ⟨e', rfl⟩
      · rw [if_pos (Or.inr (by simp [e']))] at c2
        rw [k4]
        refine ⟨?_, ?_, fun _ => ⟨_, rfl⟩, fun _ h => by rw [e'] at h; cases h⟩
        · simp only [limitAfter, e', e]
          rw [List.getElem?_set_ne (by decide)]
          rcases c2 with ⟨n, q⟩ | ⟨n, q⟩
          · rw [if_neg (fun h => n h.1), ← q, k1]
          · rw [if_pos ⟨n, by simp⟩]
            rw [q] at k1
            cases k1
            rfl
        · simp only [limitAfter, e', k2]
          exact List.getElem?_set_self k3
      · rw [if_neg (by simp [e, e'])] at c2
        subst c2
        rw [l1]
        exact ⟨by simp [limitAfter, e, e'], by simp [limitAfter, e, e'], fun h => absurd h (by simp [e, e']), fun _ _ => rfl⟩
  exact ⟨cf, sk, key.1, key.2.1, key.2.2⟩

theorem Spec.Options.of_same {given : String → Option (Attr K)} {r1 r2 r1' r2' : Ring K} {i : Nat} (h : Options given r1 r2 i)
    (h1 : ∀ a ∈ optionalAttrs, r1'.attr i a = r1.attr i a) (h2 : ∀ a ∈ optionalAttrs, r2'.attr i a = r2.attr i a) : Options given r1' r2' i := by
  have l1 : ∀ k, limitIn r1' i k = limitIn r1 i k := fun k => by unfold limitIn; rw [h1 _ (by simp [optionalAttrs])]
  have l2 : ∀ k, limitIn r2' i k = limitIn r2 i k := fun k => by unfold limitIn; rw [h2 _ (by simp [optionalAttrs])]
  obtain ⟨a, b, c, d, e⟩ := h
  constructor
  · rw [h1 _ (by simp [optionalAttrs]), h2 _ (by simp [optionalAttrs])]; exact a
  · rw [h1 _ (by simp [optionalAttrs]), h2 _ (by simp [optionalAttrs])]; exact b
  · rw [l1, l2, h1 _ (by simp [optionalAttrs])]; exact c
  · rw [l1, l2, h1 _ (by simp [optionalAttrs])]; exact d
  · rw [h1 _ (by simp [optionalAttrs]), h2 _ (by simp [optionalAttrs])]; exact e

theorem limitAfter_trans {g o g' o' b b' : Option (Attr K)} {l l' l'' : Option (Lim K)} (h1 : l' = limitAfter g o b l) (h2 : l'' = limitAfter g' o' b' l')
    (hb : g ≠ none ∨ o ≠ none → b' ≠ none) (hn : g = none → o = none → b' = b) : l'' = limitAfter (g'.or g) (o'.or o) b l := by
  cases g' with
  | some v => exact h2
  | none =>
    cases g with
    | some v =>
      simp only [limitAfter] at h1 h2
      rw [h2, if_neg (fun h => hb (Or.inl (by simp)) h.1), h1]
      rfl
    | none =>
      simp only [limitAfter, Option.or_none] at h1 h2 ⊢
      cases o with
      | some v =>
        rw [h2, if_neg (fun h => hb (Or.inr (by simp)) h.1), h1]
        cases o' <;> simp
      | none =>
        rw [h2, h1, hn rfl rfl]
        simp

theorem Spec.Options.trans {g g' : String → Option (Attr K)} {r1 r2 r3 : Ring K} {i : Nat} (h : Options g r1 r2 i) (h' : Options g' r2 r3 i) :
    Options (fun k => (g' k).or (g k)) r1 r3 i := by
  have hb : g "HCM" ≠ none ∨ g "VCM" ≠ none → r2.attr i "CMlimit" ≠ none := fun c => by
    obtain ⟨l, e⟩ := h.corrector.1 c; rw [e]; simp
  refine ⟨?_, ?_, limitAfter_trans h.horizontal h'.horizontal hb h.corrector.2,
    limitAfter_trans h.vertical h'.vertical (fun c => hb c.symm) (fun a b => h.corrector.2 b a), ?_, ?_⟩
  · rw [h'.cf, h.cf]; cases g' "CF" <;> cases g "CF" <;> simp
  · rw [h'.skew, h.skew]; cases g' "SkewQuad" <;> simp
  · intro c
    by_cases c' : g' "HCM" ≠ none ∨ g' "VCM" ≠ none
    · exact h'.corrector.1 c'
    · have n1 : g' "HCM" = none := by by_contra q; exact c' (Or.inl q)
      have n2 : g' "VCM" = none := by by_contra q; exact c' (Or.inr q)
      rw [h'.corrector.2 n1 n2]
      exact h.corrector.1 (by simpa [n1, n2] using c)
  · intro a b
    rw [Option.or_eq_none_iff] at a b
    exact (h'.corrector.2 a.1 b.1).trans (h.corrector.2 a.2 b.2)

theorem options_none {r r' : Ring K} {i : Nat} (h : ∀ a, r'.attr i a = r.attr i a) : Options (fun _ => none) r r' i := by
  refine ⟨by simp [h], by simp [h], ?_, ?_, by simp, fun _ _ => h _⟩ <;> simp [limitAfter, limitIn, h]

/-- before the options are looked at, what they decide about is not touched -/
theorem registerMagnetElem_split {ords : List Nat} {kw : Kwargs K} {ind : Nat} {s s' : SC K} (h : registerMagnetElem ords kw ind s = .ok () s') :
    ∃ t, (∀ a ∈ optionalAttrs, t.RING.attr ind a = s.RING.attr ind a) ∧ optionalMagnetFields ind ords kw t = .ok () s' := by
  have z : ∀ ab ∈ ["A", "B"], Rel (Frame (K := K) (fun i a => a ∉ optionalAttrs)) (registerZeros ind ab) := by
    intro ab hab
    unfold registerZeros
    rels
    rename_i f hf _
    refine Frame.setAttr ?_
    simp at hab hf
    rcases hab with rfl | rfl <;> rcases hf with rfl | rfl | rfl <;> simp [optionalAttrs]
  have p : ∀ f ∈ ["NomPolynom", "SetPoint"], ∀ ab ∈ ["A", "B"], Rel (Frame (K := K) (fun i a => a ∉ optionalAttrs)) (addPolynom ind f ab) := by
    intro f hf ab hab
    unfold addPolynom
    rels
    refine Frame.setAttr ?_
    simp at hab hf
    rcases hab with rfl | rfl <;> rcases hf with rfl | rfl <;> simp [optionalAttrs]
  have q : Rel (Frame (K := K) (fun i a => a ∉ optionalAttrs)) (forEach magnetInit (fun p => setAttr ind p.1 p.2)) := by
    refine Rels.forEach (fun p hp => Rels.setAttr (fun s => Frame.setAttr ?_))
    simp only [magnetInit, List.mem_cons, List.not_mem_nil, or_false] at hp
    rcases hp with rfl | rfl | rfl | rfl | rfl | rfl <;> simp [optionalAttrs]
  unfold registerMagnetElem at h
  obtain ⟨⟨⟩, s1, h1, h⟩ := bind_eq_ok.1 h
  obtain ⟨⟨⟩, s2, h2, h⟩ := bind_eq_ok.1 h
  obtain ⟨⟨⟩, s3, h3, h⟩ := bind_eq_ok.1 h
  obtain ⟨⟨⟩, s4, h4, h⟩ := bind_eq_ok.1 h
  obtain ⟨⟨⟩, s5, h5, h⟩ := bind_eq_ok.1 h
  obtain ⟨⟨⟩, s6, h6, h⟩ := bind_eq_ok.1 h
  refine ⟨s6, fun a ha => ?_, h⟩
  have f1 := (Rels.forEach z).ok h1
  have f2 := (p _ (by simp) _ (by simp)).ok h2
  have f3 := (p _ (by simp) _ (by simp)).ok h3
  have f4 := (p _ (by simp) _ (by simp)).ok h4
  have f5 := (p _ (by simp) _ (by simp)).ok h5
  have f6 := q.ok h6
  rw [f6.attr _ _ (fun c => c ha), f5.attr _ _ (fun c => c ha), f4.attr _ _ (fun c => c ha), f3.attr _ _ (fun c => c ha),
    f2.attr _ _ (fun c => c ha), f1.attr _ _ (fun c => c ha)]

theorem registerMagnet1_options {ords : List Nat} {kw : Kwargs K} {ind : Nat} {s s' : SC K} (h : registerMagnet1 ords kw ind s = .ok () s') :
    Options kw.get? s.RING s'.RING ind := by
  rw [registerMagnet1_eq] at h
  obtain ⟨⟨⟩, s1, h1, h⟩ := bind_eq_ok.1 h
  have e : s1.RING = s.RING := by unfold modSig at h1; cases h1; rfl
  obtain ⟨t, ht, h⟩ := registerMagnetElem_split h
  rw [← e]
  exact (optional_ok h).of_same (fun a ha => (ht a ha).symm) (fun _ _ => rfl)

theorem loop_options {ords : List Nat} {kw : Kwargs K} : ∀ (l : List Nat) {s s' : SC K}, forEach l (registerMagnet1 ords kw) s = .ok () s' →
    ∀ i, (i ∈ l → Options kw.get? s.RING s'.RING i) ∧ (i ∉ l → ∀ a, s'.RING.attr i a = s.RING.attr i a)
  | [], s, s', h, i => by
    cases h
    exact ⟨fun h => absurd h (by simp), fun _ _ => rfl⟩
  | x :: l, s, s', h, i => by
    rw [forEach_cons] at h
    obtain ⟨⟨⟩, s1, h1, h⟩ := bind_eq_ok.1 h
    have ih := loop_options l h i
    by_cases hx : i = x
    · subst hx
      refine ⟨fun _ => ?_, fun c => absurd (List.mem_cons_self ..) c⟩
      by_cases hl : i ∈ l
      · have := (registerMagnet1_options h1).trans (ih.1 hl)
        simpa only [Option.or_self] using this
      · exact (registerMagnet1_options h1).of_same (fun _ _ => rfl) (fun a _ => ih.2 hl a)
    · have f : ∀ a, s1.RING.attr i a = s.RING.attr i a := fun a =>
        ((registerMagnet1_frame ords kw x).ok h1).attr i a (fun c => hx c.1)
      refine ⟨fun hm => ?_, fun hm a => ?_⟩
      · rcases List.mem_cons.1 hm with c | c
        · exact absurd c hx
        · exact (ih.1 c).of_same (fun a _ => (f a).symm) (fun _ _ => rfl)
      · rw [ih.2 (fun c => hm (List.mem_cons_of_mem _ c)) a, f a]

/-- **C130**, what holds: after a successful registration the options given are in force for every magnet of the list (also
if it is named more than once): the limits of the correctors are those given, the limit of a plane that was not given is the
one the magnet had before, or zero if it was not a corrector; other magnets are as before. -/
theorem C130_options_partial {ords : List Nat} {kw : Kwargs K} {s s' : SC K} (h : registerMagnets ords kw s = .ok () s') (i : Nat) :
    (i ∈ ords → Options kw.get? s.RING s'.RING i) ∧ (i ∉ ords → ∀ a, s'.RING.attr i a = s.RING.attr i a) := by
  unfold registerMagnets at h
  obtain ⟨u, _, h⟩ := bindLift_eq_ok.1 h
  obtain ⟨⟨⟩, s1, h1, h⟩ := bind_eq_ok.1 h
  have e : s1.RING = s.RING := by unfold modOrd at h1; cases h1; rfl
  rw [← e]
  exact loop_options ords h i

example : (registerMagnets [2, 1, 2] [("CF", .num 1), ("HCM", .num 3), ("SkewQuad", .num 5)] Example.raw).isOk = true ∧
    (registerMagnets [2, 1, 2] [("CF", .num 1), ("HCM", .num 3), ("SkewQuad", .num 5)] Example.raw).state.RING.attr 2 "CMlimit" =
      some (.lims [.fin 3, .fin 0]) := by decide +kernel

/-- **C130**, what holds: after any sequence of successful registrations every magnet has, of each option, the value it was
given last; limits never given are as in the lattice, or zero if only the other one was given. -/
theorem C130_last_given_partial : ∀ (calls : List (List Nat × Kwargs K)) {s s' : SC K},
    forEach calls (fun c => registerMagnets c.1 c.2) s = .ok () s' → ∀ i, Options (lastGiven calls i) s.RING s'.RING i
  | [], s, s', h, i => by
    cases h
    exact options_none (fun _ => rfl)
  | c :: later, s, s', h, i => by
    rw [forEach_cons] at h
    obtain ⟨⟨⟩, s1, h1, h2⟩ := bind_eq_ok.1 h
    have ih := C130_last_given_partial later h2 i
    have now : Options (fun key => if i ∈ c.1 then c.2.get? key else none) s.RING s1.RING i := by
      by_cases hi : i ∈ c.1
      · simpa only [if_pos hi] using (C130_options_partial h1 i).1 hi
      · simpa only [if_neg hi] using options_none ((C130_options_partial h1 i).2 hi)
    exact now.trans ih

/-- three registrations, the second of which changes the limit of one of the correctors -/
def Example.limitCalls : List (List Nat × Kwargs ℚ) :=
  [([1, 2], [("HCM", .num 3)]), ([2], [("HCM", .num 4), ("VCM", .lim .inf)]), ([1, 2, 3], [("CalErrorB", .vec [1])])]

example : (forEach Example.limitCalls (fun c => registerMagnets c.1 c.2) Example.raw).isOk = true ∧
    lastGiven Example.limitCalls 2 "HCM" = some (.num 4) ∧ lastGiven Example.limitCalls 1 "HCM" = some (.num 3) ∧
    lastGiven Example.limitCalls 3 "HCM" = none ∧
    limitIn (forEach Example.limitCalls (fun c => registerMagnets c.1 c.2) Example.raw).state.RING 2 1 = some .inf := by decide +kernel

/-- **C130 is violated**: a magnet registered with `CF=False` is a combined function magnet afterwards. -/
theorem C130_violated_false_flag : ∃ s s' : SC ℚ, registerMagnets [3] [("CF", .flag false)] s = .ok () s' ∧
    s.RING.attr 3 "CombinedFunction" = none ∧ s'.RING.attr 3 "CombinedFunction" = some (.flag true) := by
  refine ⟨Example.raw, _, ok_of_isOk (by decide +kernel), ?_, ?_⟩ <;> decide +kernel

end PySC
