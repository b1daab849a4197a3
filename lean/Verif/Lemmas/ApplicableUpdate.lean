import Verif.Lemmas.ApplicableSupports
/-
Errors can be applied to a machine in order: `update_supports`.
-/
namespace PySC
set_option linter.unusedSectionVars false
open Py Spec
variable {K : Type} [Field K] [LinearOrder K] [FloorRing K] [IsStrictOrderedRing K]

theorem assignWhere_length (off s : List K) (P : Nat → Bool) (g : K → K) (h : off.length = s.length) : (assignWhere off s P g).length = s.length := by
  simp [assignWhere, h]

theorem HasVec3.getVecAt {r : Ring K} {i : Nat} {a : String} (h : HasVec3 r i a) {k : Nat} (hk : k < 3) : ∃ x, r.getVecAt i a k = .ok x := by
  obtain ⟨v, h1, h2⟩ := hasVec3_iff.1 h
  exact ⟨v[k]'(by omega), Ring.getVecAt_eq_ok.2 ⟨v, h1, List.getElem?_eq_getElem (by omega)⟩⟩

theorem idx_total {α : Type} {v : List α} {i : Nat} (h : i < v.length) : ∃ x, idx v i = .ok x := ⟨v[i], idx_eq_ok.2 (List.getElem?_eq_getElem h)⟩

theorem sInterpolation1_total {r : Ring K} {p : Nat × Nat} (h : Span r p) {off : List K} (ho : off.length = (findspos r).length) (C f1 f2 : K) :
    ∃ off', sInterpolation1 (findspos r) C off p.1 p.2 f1 f2 = .ok off' ∧ off'.length = (findspos r).length := by
  unfold sInterpolation1
  rw [idx_eq_ok.2 (findspos_get.2 ⟨h.start.le, rfl⟩), Except.ok_bind', idx_eq_ok.2 (findspos_get.2 ⟨h.end_.le, rfl⟩), Except.ok_bind',
    if_neg h.ne]
  split
  · exact ⟨_, rfl, assignWhere_length _ _ _ _ ho⟩
  · exact ⟨_, rfl, assignWhere_length _ _ _ _ (assignWhere_length _ _ _ _ ho)⟩

/-- all supports of the ring can be evaluated -/
structure SupportsReady (r : Ring K) (o : Ords) : Prop where
  span : ∀ tp ∈ typedPairs o, Span r tp.2
  shape : ∀ tp ∈ typedPairs o, SupportShape r tp.1 tp.2

theorem mem_typedPairs {o : Ords} {t : String} {p : Nat × Nat} (ht : t ∈ supportTypes) (hp : p ∈ o.pairs t) : (t, p) ∈ typedPairs o := by
  unfold typedPairs
  exact List.mem_flatMap.2 ⟨t, ht, List.mem_map.2 ⟨p, hp, rfl⟩⟩

theorem applySupportType_total {r : Ring K} {o : Ords} (h : SupportsReady r o) {t : String} (ht : t ∈ supportTypes) {dim : Nat} (hd : dim < 3) (C : K)
    {off : List K} (ho : off.length = (findspos r).length) :
    ∃ off', applySupportType r o (findspos r) C dim t off = .ok off' ∧ off'.length = (findspos r).length := by
  have hlen := length_findspos r
  have hends : ∃ ends, (o.pairs t).mapM (fun p => do
      let oa ← idx off p.1
      let xa ← supportValue r p.1 (t ++ "Offset") dim
      let ob ← idx off p.2
      let xb ← supportValue r p.2 (t ++ "Offset") dim
      (.ok (p, oa + xa, ob + xb) : Except Err ((Nat × Nat) × K × K))) = .ok ends := by
    refine mapM_except_total (fun p hp => ?_)
    have hm := mem_typedPairs ht hp
    have hs := h.span _ hm
    have hs1 := hs.start
    have hs2 := hs.end_
    obtain ⟨g1, g2, -⟩ := h.shape _ hm
    obtain ⟨x1, e1⟩ := idx_total (v := off) (i := p.1) (by simp only at hs1; omega)
    obtain ⟨x2, e2⟩ := idx_total (v := off) (i := p.2) (by simp only at hs2; omega)
    obtain ⟨x3, e3⟩ := HasVec3.getVecAt g1 hd
    obtain ⟨x4, e4⟩ := HasVec3.getVecAt g2 hd
    exact ⟨_, by rw [e1, Except.ok_bind', supportValue, e3, Except.ok_bind', e2, Except.ok_bind', supportValue, e4, Except.ok_bind']⟩
  obtain ⟨ends, hends⟩ := hends
  unfold applySupportType
  rw [hends, Except.ok_bind']
  refine foldlM_except_total (P := fun off : List K => off.length = (findspos r).length) (fun e he a ha => ?_) ho
  obtain ⟨k, hk⟩ := List.mem_iff_getElem?.1 he
  obtain ⟨hl, hw⟩ := mapM_except_eq_ok hends
  have hk' : k < (o.pairs t).length := by rw [← hl]; exact (List.getElem?_eq_some_iff.1 hk).1
  obtain ⟨y, hy, hy'⟩ := hw k _ (List.getElem?_eq_getElem hk')
  rw [hk] at hy'
  cases hy'
  simp only [Except.bind_eq_ok', Except.ok.injEq] at hy
  obtain ⟨_, -, _, -, _, -, _, -, rfl⟩ := hy
  exact sInterpolation1_total (h.span _ (mem_typedPairs ht (List.getElem_mem hk'))) ha _ _ _

theorem offsetRow_total {r : Ring K} {o : Ords} (h : SupportsReady r o) {dim : Nat} (hd : dim < 3) :
    ∃ row, offsetRow r o dim = .ok row ∧ row.length = (findspos r).length :=
  foldlM_except_total (P := fun off : List K => off.length = (findspos r).length)
    (fun _ ht _ ha => applySupportType_total h ht hd _ ha) (by simp [zeros])

theorem supportLength_total {r : Ring K} {p : Nat × Nat} (h : Span r p) : ∃ l, supportLength (findspos r) ((findspos r).getLastD 0) p.1 p.2 = .ok l ∧ l ≠ 0 := by
  unfold supportLength
  rw [idx_eq_ok.2 (findspos_get.2 ⟨h.start.le, rfl⟩), Except.ok_bind', idx_eq_ok.2 (findspos_get.2 ⟨h.end_.le, rfl⟩), Except.ok_bind', findspos_last]
  refine ⟨_, rfl, ?_⟩
  split
  · have := neg_lt_of_abs_lt h.short
    exact ne_of_gt (by linarith)
  · exact sub_ne_zero.2 (Ne.symm h.ne)

theorem rollRows_total {r : Ring K} {o : Ords} (h : SupportsReady r o) {x y : List K} (hx : x.length = (findspos r).length)
    (hy : y.length = (findspos r).length) :
    ∃ a b c, rollRows r o x y = .ok [a, b, c] ∧ a.length = (findspos r).length ∧ b.length = (findspos r).length ∧ c.length = (findspos r).length := by
  have hlen := length_findspos r
  have z : (zeros (findspos r).length : List K).length = (findspos r).length := by simp [zeros]
  have tilt : ∀ off : List K, off.length = (findspos r).length → ∃ b, (typedPairs o).foldlM (fun row tp =>
      setTilt (findspos r) ((findspos r).getLastD 0) off row tp.2) (zeros (findspos r).length) = .ok b ∧ b.length = (findspos r).length := by
    intro off ho
    refine foldlM_except_total (P := fun row : List K => row.length = (findspos r).length) (fun tp htp a ha => ?_) z
    have hs := h.span tp htp
    have hs1 := hs.start
    have hs2 := hs.end_
    obtain ⟨x1, e1⟩ := idx_total (v := off) (i := tp.2.2) (by omega)
    obtain ⟨x2, e2⟩ := idx_total (v := off) (i := tp.2.1) (by omega)
    obtain ⟨l, e3, hl⟩ := supportLength_total hs
    unfold setTilt
    rw [e1, Except.ok_bind', e2, Except.ok_bind', e3, Except.ok_bind', divE_eq_ok.2 ⟨hl, rfl⟩, Except.ok_bind']
    exact ⟨_, rfl, by simp [ha]⟩
  obtain ⟨a, ha, la⟩ := foldlM_except_total (f := fun row tp => addRoll r tp.1 row tp.2) (l := typedPairs o)
    (P := fun row : List K => row.length = (findspos r).length) (fun tp htp a ha => by
      obtain ⟨x1, e1⟩ := HasVec3.getVecAt (h.shape tp htp).2.2 (k := 0) (by omega)
      unfold addRoll
      rw [e1, Except.ok_bind']
      exact ⟨_, rfl, by simp [ha]⟩) z
  obtain ⟨b, hb, lb⟩ := tilt y hy
  obtain ⟨c, hc, lc⟩ := tilt x hx
  refine ⟨a, b, c, ?_, la, lb, lc⟩
  unfold rollRows
  simp only [ha, hb, hc, Except.ok_bind']

theorem npInterp_total : ∀ (pts : List (K × K)) (x : K), pts ≠ [] → ∃ y, npInterp pts x = .ok y
  | [], _, h => absurd rfl h
  | [(_, f)], _, _ => ⟨f, rfl⟩
  | (x0, f0) :: (x1, f1) :: l, x, _ => by
    rw [npInterp]
    split
    · exact ⟨_, rfl⟩
    · split
      · exact ⟨_, rfl⟩
      · exact npInterp_total _ _ (by simp)

theorem interpRow_total {r : Ring K} {row : List K} (h : row.length = (findspos r).length) (locs : List K) :
    ∃ v, interpRow (findspos r) row locs = .ok v ∧ v.length = locs.length := by
  have hp : ∃ pts, (uniquePos (findspos r)).mapM (fun p => do
      let f ← idx row p.2
      (.ok (p.1, f) : Except Err (K × K))) = .ok pts := by
    refine mapM_except_total (fun p hp => ?_)
    have hf := ((uniquePos_spec (findspos r)).2 p.1 p.2).1 hp
    obtain ⟨x, hx⟩ := idx_total (v := row) (i := p.2) (by
      rw [h]
      exact (List.getElem?_eq_some_iff.1 hf.1).1)
    exact ⟨_, by rw [hx, Except.ok_bind']⟩
  obtain ⟨pts, hp⟩ := hp
  have hne : pts ≠ [] := by
    have hl := (mapM_except_eq_ok hp).1
    intro he
    rw [he] at hl
    have h0 : uniquePos (findspos r) = [] := List.length_eq_zero_iff.1 hl.symm
    have : FirstAt (findspos r) (sPos r 0) 0 := by
      refine ⟨findspos_get.2 ⟨Nat.zero_le _, rfl⟩, fun j hj => absurd hj (Nat.not_lt_zero _)⟩
    have := ((uniquePos_spec (findspos r)).2 _ _).2 this
    rw [h0] at this
    cases this
  obtain ⟨v, hv⟩ := mapM_except_total (f := npInterp pts) (l := locs) (fun x _ => npInterp_total pts x hne)
  refine ⟨v, ?_, mapM_except_length hv⟩
  unfold interpRow
  rw [hp, Except.ok_bind', hv]

/-- the supports can be evaluated at all elements of a list -/
theorem supportAt_total {r : Ring K} {o : Ords} (h : SupportsReady r o) {ords : List Nat} (hi : ∀ i ∈ ords, i < r.length) :
    ∃ x y z a b c : List K, supportAt r o ords = .ok ([x, y, z], [a, b, c]) ∧ ∀ row ∈ [x, y, z, a, b, c], row.length = ords.length := by
  obtain ⟨locs, hlocs⟩ := mapM_except_total (f := idx (findspos r)) (l := ords) (fun i h' => idx_total (by
    rw [length_findspos]; have := hi i h'; omega))
  have hll := mapM_except_length hlocs
  obtain ⟨x, hx, lx⟩ := offsetRow_total h (dim := 0) (by omega)
  obtain ⟨y, hy, ly⟩ := offsetRow_total h (dim := 1) (by omega)
  obtain ⟨z, hz, lz⟩ := offsetRow_total h (dim := 2) (by omega)
  obtain ⟨a, b, c, hr, la, lb, lc⟩ := rollRows_total h lx ly
  unfold supportAt positions
  rw [hlocs, Except.ok_bind']
  unfold supportOffsetAndRoll
  rw [hx, Except.ok_bind', hy, Except.ok_bind', hz, Except.ok_bind', hr, Except.ok_bind']
  by_cases he : locs = findspos r
  · rw [if_neg (not_not.2 he)]
    refine ⟨x, y, z, a, b, c, rfl, fun row hrow => ?_⟩
    rw [← hll, he]
    simp only [List.mem_cons, List.not_mem_nil, or_false] at hrow
    rcases hrow with rfl | rfl | rfl | rfl | rfl | rfl <;> assumption
  · rw [if_pos he]
    obtain ⟨x', hx', lx'⟩ := interpRow_total lx locs
    obtain ⟨y', hy', ly'⟩ := interpRow_total ly locs
    obtain ⟨z', hz', lz'⟩ := interpRow_total lz locs
    obtain ⟨a', ha', la'⟩ := interpRow_total la locs
    obtain ⟨b', hb', lb'⟩ := interpRow_total lb locs
    obtain ⟨c', hc', lc'⟩ := interpRow_total lc locs
    refine ⟨x', y', z', a', b', c', ?_, fun row hrow => ?_⟩
    · simp only [List.mapM_cons, List.mapM_nil, hx', hy', hz', ha', hb', hc', Except.ok_bind']
      rfl
    · rw [← hll]
      simp only [List.mem_cons, List.not_mem_nil, or_false] at hrow
      rcases hrow with rfl | rfl | rfl | rfl | rfl | rfl <;> assumption

/-! ### the loops -/

/-- `update_supports` writes only these attributes -/
structure SupportKept (s t : SC K) : Prop where
  len : t.RING.length = s.RING.length
  attr : ∀ i a, a ∉ supportWrites → t.RING.attr i a = s.RING.attr i a
  ord : t.ORD = s.ORD

theorem SupportKept.refl (s : SC K) : SupportKept s s := ⟨rfl, fun _ _ _ => rfl, rfl⟩

theorem SupportKept.trans {s t u : SC K} (h1 : SupportKept s t) (h2 : SupportKept t u) : SupportKept s u :=
  ⟨h2.1.trans h1.1, fun i a ha => (h2.2 i a ha).trans (h1.2 i a ha), h2.3.trans h1.3⟩

theorem SupportKept.setAttr {s : SC K} {i : Nat} {a : String} {v : Attr K} (ha : a ∈ supportWrites) :
    SupportKept s { s with RING := s.RING.setAttr i a v } :=
  ⟨Ring.length_setAttr .., fun _ _ hb => Ring.attr_setAttr_ne (fun he => hb (he ▸ ha)), rfl⟩

theorem Spec.Placeable.congr {r r' : Ring K} {i : Nat} (h : Placeable r i) (ha : ∀ a ∈ ["MagnetOffset", "MagnetRoll", "Length", "BendingAngle"],
    r'.attr i a = r.attr i a) : Placeable r' i := by
  have e1 := ha "MagnetOffset" (by simp)
  have e2 := ha "MagnetRoll" (by simp)
  have e3 := ha "Length" (by simp)
  have e4 := ha "BendingAngle" (by simp)
  obtain ⟨g1, g2, g3, g4⟩ := h
  unfold NumberOrNothing at *
  exact ⟨Spec.HasVec3.congr g1 e1, Spec.HasVec3.congr g2 e2, by unfold NumberOrNothing; rw [e3]; exact g3,
    by unfold NumberOrNothing; rw [e4]; exact g4⟩

theorem numOr0_total {r : Ring K} {i : Nat} {a : String} (hi : i < r.length) (h : NumberOrNothing r i a) : numOr0 r i a = .ok (numAt r i a) := by
  unfold numOr0
  rw [Ring.hasA_of_lt hi, Except.ok_bind']
  rcases h with h | ⟨x, h⟩
  · rw [h]; unfold numAt; rw [h]; rfl
  · rw [numAt_of_attr h, h]; exact Ring.getNum_eq_ok.2 h

theorem transformInput_total {r : Ring K} {i : Nat} (hi : i < r.length) (h : Placeable r i) (h1 : HasVec3 r i "SupportOffset")
    (h2 : HasVec3 r i "SupportRoll") :
    transformInput r i = .ok (numAt r i "Length", numAt r i "BendingAngle",
      [together r i "Offset" 0, together r i "Offset" 1, together r i "Offset" 2], [together r i "Roll" 1, together r i "Roll" 2, together r i "Roll" 0]) := by
  have e1 := numOr0_total hi h.length
  have e2 := numOr0_total hi h.angle
  obtain ⟨a0, a1, a2, g1⟩ := h1
  obtain ⟨b0, b1, b2, g2⟩ := h.offset
  obtain ⟨c0, c1, c2, g3⟩ := h.roll
  obtain ⟨d0, d1, d2, g4⟩ := h2
  have v1 : vecAt r i ("Support" ++ "Offset") = [a0, a1, a2] := vecAt_of_attr g1
  have v2 : vecAt r i ("Magnet" ++ "Offset") = [b0, b1, b2] := vecAt_of_attr g2
  have v3 : vecAt r i ("Magnet" ++ "Roll") = [c0, c1, c2] := vecAt_of_attr g3
  have v4 : vecAt r i ("Support" ++ "Roll") = [d0, d1, d2] := vecAt_of_attr g4
  unfold together
  rw [v1, v2, v3, v4]
  unfold transformInput
  rw [e1, Except.ok_bind', e2, Except.ok_bind', Ring.getVec_eq_ok.2 g1, Except.ok_bind', Ring.getVec_eq_ok.2 g2, Except.ok_bind']
  simp only [vadd, List.length_cons, List.length_nil, if_true, Except.ok_bind', Ring.getVec_eq_ok.2 g3, Ring.getVec_eq_ok.2 g4]
  show Except.ok (_, _, [a0 + b0, a1 + b1, a2 + b2], [c1 + d1, c2 + d2, c0 + d0]) = Except.ok (_, _, [b0 + a0, b1 + a1, b2 + a2], [c1 + d1, c2 + d2, c0 + d0])
  rw [add_comm a0, add_comm a1, add_comm a2]

theorem updateTransformation_settles {E : Env K} {s : SC K} {i : Nat} (hi : i < s.RING.length) (hmem : i ∈ s.ORD.Magnet) (h : Placeable s.RING i)
    (h1 : HasVec3 s.RING i "SupportOffset") (h2 : HasVec3 s.RING i "SupportRoll") :
    Settles (Refused E) (fun f => updateTransformation (E.passes f) i) s (fun _ t => SupportKept s t ∧
      ∀ a ∈ ["T1", "T2", "R1", "R2"], (t.RING.attr i a).isSome) := by
  have e1 := transformInput_total hi h h1 h2
  have hbad : ∀ e, E.transform (numAt s.RING i "Length") (numAt s.RING i "BendingAngle")
      [together s.RING i "Offset" 0, together s.RING i "Offset" 1, together s.RING i "Offset" 2]
      [together s.RING i "Roll" 1, together s.RING i "Roll" 2, together s.RING i "Roll" 0] = .error e → Refused E e s := fun e he => ⟨i, hmem, he⟩
  generalize numAt s.RING i "Length" = len at e1 hbad
  generalize numAt s.RING i "BendingAngle" = theta at e1 hbad
  generalize [together s.RING i "Offset" 0, together s.RING i "Offset" 1, together s.RING i "Offset" 2] = offsets at e1 hbad
  generalize [together s.RING i "Roll" 1, together s.RING i "Roll" 2, together s.RING i "Roll" 0] = rolls at e1 hbad
  refine (Settles.rd (P := fun a t => a = (len, theta, offsets, rolls) ∧ t = s) e1 ⟨rfl, rfl⟩).bind (fun a t ht => ?_)
  obtain ⟨hA, hB⟩ := ht
  subst a
  subst t
  have hl : Settles (Refused E) (fun f => Py.lift ((E.passes f).transform len theta offsets rolls)) s (fun _ t => t = s) := by
    cases he : E.transform len theta offsets rolls with
    | ok x => exact Settles.lift he rfl
    | error e =>
      refine Settles.of_bad (t := s) (e := e) (fun f => ?_) (hbad e he)
      show Py.lift (E.transform len theta offsets rolls) s = _
      rw [he]; rfl
  refine hl.bind (fun x t ht => ?_)
  subst ht
  have L : ∀ {r : Ring K} {a : String} {v : Attr K}, i < r.length → i < (r.setAttr i a v).length := fun h => by rwa [Ring.length_setAttr]
  refine (Settles.setAttr (P := fun _ w => w = _) hi rfl).bind (fun _ w hw => ?_)
  subst hw
  refine (Settles.setAttr (P := fun _ w => w = _) (L hi) rfl).bind (fun _ w hw => ?_)
  subst hw
  refine (Settles.setAttr (P := fun _ w => w = _) (L (L hi)) rfl).bind (fun _ w hw => ?_)
  subst hw
  refine Settles.setAttr (L (L (L hi))) ⟨?_, ?_⟩
  · exact (((SupportKept.setAttr (by decide)).trans (SupportKept.setAttr (by decide))).trans (SupportKept.setAttr (by decide))).trans
      (SupportKept.setAttr (by decide))
  · intro a ha
    simp only [List.mem_cons, List.not_mem_nil, or_false] at ha
    rcases ha with rfl | rfl | rfl | rfl <;>
      simp (disch := first | decide | exact hi | exact L hi | exact L (L hi) | exact L (L (L hi))) only
        [Ring.attr_setAttr_same, Ring.attr_setAttr_ne, Option.isSome_some]

theorem copyTransformation_settles {Bad : Err → SC K → Prop} {s : SC K} {i c : Nat} (hc : c < s.RING.length)
    (h : ∀ a ∈ ["T1", "T2", "R1", "R2"], (s.RING.attr i a).isSome) :
    Settles Bad (fun _ => copyTransformation i c) s (fun _ t => SupportKept s t ∧ ∀ a ∈ ["T1", "T2", "R1", "R2"], (t.RING.attr i a).isSome) := by
  refine Settles.forEach (I := fun t : SC K => SupportKept s t ∧ ∀ a ∈ ["T1", "T2", "R1", "R2"], (t.RING.attr i a).isSome) (fun a ha t ht => ?_)
    ⟨SupportKept.refl s, h⟩
  obtain ⟨v, hv⟩ := Option.isSome_iff_exists.1 (ht.2 a ha)
  refine (Settles.rd (P := fun x u => x = v ∧ u = t) (Ring.getA_eq_ok.2 hv) ⟨rfl, rfl⟩).bind (fun x u hu => ?_)
  obtain ⟨hA, hB⟩ := hu
  subst x
  subst u
  refine Settles.setAttr (by rw [ht.1.1]; exact hc) ⟨ht.1.trans (SupportKept.setAttr (by clear hv; revert a; decide)), fun b hb => ?_⟩
  show ((t.RING.setAttr c a v).attr i b).isSome
  rw [Ring.attr_setAttr]
  have hct : c < t.RING.length := by rw [ht.1.1]; exact hc
  split_ifs
  · rfl
  · exact ht.2 b hb

theorem masterChildren_total {r : Ring K} {i : Nat} (h : MagnetReady r i) : ∃ l, masterChildren r i = .ok l ∧ ∀ c ∈ l, c < r.length := by
  unfold masterChildren
  rw [Ring.hasA_of_lt h.self.inRing, Except.ok_bind']
  rcases h.children with h1 | ⟨l, h1, h2⟩
  · rw [h1]; exact ⟨[], rfl, by simp⟩
  · rw [h1]
    simp only [Option.isSome_some, if_true]
    rw [Ring.getA_eq_ok.2 h1, Except.ok_bind']
    exact ⟨l, rfl, fun c hc => (h2 c hc).inRing⟩

theorem masterChildren_congr {r r' : Ring K} {i : Nat} (hl : r'.length = r.length) (h : r'.attr i "MasterOf" = r.attr i "MasterOf") {l : List Nat}
    (hm : masterChildren r i = .ok l) : masterChildren r' i = .ok l := by
  unfold masterChildren at *
  rw [Except.bind_eq_ok'] at hm ⊢
  obtain ⟨b, h1, h2⟩ := hm
  refine ⟨b, ?_, ?_⟩
  · rw [Ring.hasA_eq_ok] at h1 ⊢
    rw [hl, h]; exact h1
  · cases b with
    | false => exact h2
    | true =>
      simp only [if_true] at h2 ⊢
      rw [Except.bind_eq_ok'] at h2 ⊢
      obtain ⟨m, h3, h4⟩ := h2
      exact ⟨m, by rw [Ring.getA_eq_ok] at h3 ⊢; rw [h]; exact h3, h4⟩

theorem column_total {rows : List (List K)} {k : Nat} (h : ∀ row ∈ rows, k < row.length) : ∃ c, column rows k = .ok c ∧ c.length = rows.length := by
  obtain ⟨c, hc⟩ := mapM_except_total (f := fun row : List K => idx row k) (l := rows) (fun row hr => idx_total (h row hr))
  exact ⟨c, hc, mapM_except_length hc⟩

theorem updateMagnetSupport_settles {E : Env K} {s t : SC K} (hk : SupportKept s t) {offs rolls : List (List K)} {p : Nat × Nat}
    (ho : offs.length = 3 ∧ ∀ row ∈ offs, p.2 < row.length) (hr : rolls.length = 3 ∧ ∀ row ∈ rolls, p.2 < row.length)
    (hmem : p.1 ∈ s.ORD.Magnet) (hm : MagnetReady s.RING p.1) (hp : Placeable s.RING p.1) :
    Settles (Refused E) (fun f => updateMagnetSupport (E.passes f) offs rolls p) t (fun _ u => SupportKept s u) := by
  have hi : p.1 < t.RING.length := by rw [hk.1]; exact hm.self.inRing
  obtain ⟨off, e1, l1⟩ := column_total ho.2
  obtain ⟨roll, e2, l2⟩ := column_total hr.2
  refine (Settles.lift (P := fun a u => a = off ∧ u = t) e1 ⟨rfl, rfl⟩).bind (fun a u hu => ?_)
  obtain ⟨hA, hB⟩ := hu
  subst a
  subst u
  refine (Settles.setAttr (P := fun _ w => w = _) hi rfl).bind (fun _ w hw => ?_)
  subst hw
  refine (Settles.lift (P := fun a u => a = roll ∧ u = _) e2 ⟨rfl, rfl⟩).bind (fun a u hu => ?_)
  obtain ⟨hA, hB⟩ := hu
  subst a
  subst u
  have hi' : p.1 < (t.RING.setAttr p.1 "SupportOffset" (.vec off)).length := by rw [Ring.length_setAttr]; exact hi
  refine (Settles.setAttr (P := fun _ w => w = _) hi' rfl).bind (fun _ w hw => ?_)
  have hkw : SupportKept s w := by
    rw [hw]
    exact hk.trans ((SupportKept.setAttr (by decide)).trans (SupportKept.setAttr (by decide)))
  have hiw : p.1 < w.RING.length := by rw [hkw.1]; exact hm.self.inRing
  refine (updateTransformation_settles hiw (by rw [hkw.ord]; exact hmem) (hp.congr (fun a ha => hkw.2 _ _ (by revert a; decide))) ?_ ?_).bind (fun _ u hu => ?_)
  · refine hasVec3_iff.2 ⟨off, ?_, l1.trans ho.1⟩
    rw [hw]
    simp (disch := first | decide | exact hi) only [Ring.attr_setAttr_same, Ring.attr_setAttr_ne]
  · refine hasVec3_iff.2 ⟨roll, ?_, l2.trans hr.1⟩
    rw [hw]
    exact Ring.attr_setAttr_same hi'
  · have hku := hkw.trans hu.1
    obtain ⟨l, hl, hlt⟩ := masterChildren_total hm
    have hl' := masterChildren_congr hku.1 (hku.2 _ _ (by decide)) hl
    refine (Settles.rd (P := fun a v => a = l ∧ v = u) hl' ⟨rfl, rfl⟩).bind (fun a v hv => ?_)
    obtain ⟨hA, hB⟩ := hv
    subst a
    subst v
    refine (Settles.forEach (I := fun v : SC K => SupportKept s v ∧ ∀ a ∈ ["T1", "T2", "R1", "R2"], (v.RING.attr p.1 a).isSome)
      (fun c hc v hv => ?_) ⟨hku, hu.2⟩).mono (fun _ _ h => h.1)
    exact (copyTransformation_settles (by rw [hv.1.1]; exact hlt c hc) hv.2).mono (fun _ _ h => ⟨hv.1.trans h.1, h.2⟩)

theorem updateBpmSupport_settles {Bad : Err → SC K → Prop} {s t : SC K} (hk : SupportKept s t) {offs rolls : List (List K)} {p : Nat × Nat}
    (ho : ∀ row ∈ offs, p.2 < row.length) (hr : rolls.length = 3 ∧ ∀ row ∈ rolls, p.2 < row.length) (hi : p.1 < s.RING.length) :
    Settles Bad (fun _ => updateBpmSupport offs rolls p) t (fun _ u => SupportKept s u) := by
  have hi' : p.1 < t.RING.length := by rw [hk.1]; exact hi
  obtain ⟨off, e1, -⟩ := column_total (rows := offs.take 2) (k := p.2) (fun row h => ho row (List.mem_of_mem_take h))
  obtain ⟨row, e2⟩ := idx_total (v := rolls) (i := 0) (by omega)
  obtain ⟨x, e3⟩ := idx_total (v := row) (i := p.2) (hr.2 row (List.mem_of_getElem? (idx_eq_ok.1 e2)))
  refine (Settles.lift (P := fun a u => u = t) e1 rfl).bind (fun a u hu => ?_)
  subst hu
  refine (Settles.setAttr (P := fun _ w => w = _) hi' rfl).bind (fun _ w hw => ?_)
  have hkw : SupportKept s w := by
    rw [hw]
    exact hk.trans (SupportKept.setAttr (by decide))
  refine (Settles.lift (P := fun a v => a = row ∧ v = w) e2 ⟨rfl, rfl⟩).bind (fun a v hv => ?_)
  obtain ⟨hA, hB⟩ := hv
  subst a
  subst v
  refine (Settles.lift (P := fun a u => u = w) e3 rfl).bind (fun a u hu => ?_)
  subst hu
  exact Settles.setAttr (by rw [hkw.1]; exact hi) (hkw.trans (SupportKept.setAttr (by decide)))

theorem supportsReady_kept {s t : SC K} (h : SupportKept s t) {o : Ords} (hs : SupportsReady s.RING o) : SupportsReady t.RING o := by
  have hpos : ∀ k, sPos t.RING k = sPos s.RING k := fun k => sPos_congr (fun i => h.2 i _ (by decide)) k
  refine ⟨fun tp htp => ?_, fun tp htp => (hs.shape tp htp).congr (fun i a ha => h.2 i a ?_)⟩
  · have := hs.span tp htp
    refine ⟨by rw [h.1]; exact this.start, by rw [h.1]; exact this.end_, by rw [hpos, hpos]; exact this.ne, ?_⟩
    rw [hpos, hpos, circumference, hpos, h.1]
    exact this.short
  · have := supportDrawn_name (o := o) (i := i) ⟨tp, htp, ha⟩
    revert this
    replace ha := ha.2
    intro this
    exact (by decide +kernel : ∀ a ∈ ["SectionOffset", "SectionRoll", "PlinthOffset", "PlinthRoll", "GirderOffset", "GirderRoll"],
      a ∉ supportWrites) a this

theorem updateSupports_settles {E : Env K} {s : SC K} (hs : SupportsReady s.RING s.ORD) (hm : ∀ i ∈ s.ORD.Magnet, MagnetReady s.RING i ∧ Placeable s.RING i)
    (hb : ∀ i ∈ s.ORD.BPM, i < s.RING.length) (b m : Bool) :
    Settles (Refused E) (fun f => updateSupports (E.passes f) b m) s (fun _ _ => True) := by
  refine (Settles.get (P := fun a u => a = s ∧ u = s) ⟨rfl, rfl⟩).bind (fun a u h => ?_)
  obtain ⟨hA, hB⟩ := h
  subst a
  subst u
  refine Settles.bind (P := fun _ u => SupportKept s u) (Settles.when (fun _ => ?_) (fun _ => SupportKept.refl s)) (fun _ u hu =>
    Settles.when (fun _ => ?_) (fun _ => trivial))
  · obtain ⟨x, y, z, a, b, c, he, hrow⟩ := supportAt_total hs (ords := s.ORD.Magnet) (fun i hi => (hm i hi).1.self.inRing)
    refine (Settles.rd (P := fun v u => v = ([x, y, z], [a, b, c]) ∧ u = s) he ⟨rfl, rfl⟩).bind (fun v u hu => ?_)
    obtain ⟨hA, hB⟩ := hu
    subst v
    subst u
    refine Settles.forEach (I := fun u : SC K => SupportKept s u) (fun p hp u hu => ?_) (SupportKept.refl s)
    have hz := List.mem_zipIdx_iff_getElem?.1 hp
    have hlt : p.2 < s.ORD.Magnet.length := (List.getElem?_eq_some_iff.1 hz).1
    have hmem : p.1 ∈ s.ORD.Magnet := List.mem_of_getElem? hz
    refine updateMagnetSupport_settles hu ⟨rfl, fun row hr => ?_⟩ ⟨rfl, fun row hr => ?_⟩ hmem (hm _ hmem).1 (hm _ hmem).2
    · rw [hrow row (by simp only [List.mem_cons, List.not_mem_nil, or_false] at hr ⊢; tauto)]; exact hlt
    · rw [hrow row (by simp only [List.mem_cons, List.not_mem_nil, or_false] at hr ⊢; tauto)]; exact hlt
  · obtain ⟨x, y, z, a, b, c, he, hrow⟩ := supportAt_total (supportsReady_kept hu hs) (ords := s.ORD.BPM) (fun i hi => by rw [hu.1]; exact hb i hi)
    refine (Settles.rd (P := fun v w => v = ([x, y, z], [a, b, c]) ∧ w = u) he ⟨rfl, rfl⟩).bind (fun v w hw => ?_)
    obtain ⟨hA, hB⟩ := hw
    subst v
    subst w
    refine (Settles.forEach (I := fun v : SC K => SupportKept s v) (fun p hp v hv => ?_) hu).mono (fun _ _ _ => trivial)
    have hz := List.mem_zipIdx_iff_getElem?.1 hp
    have hlt : p.2 < s.ORD.BPM.length := (List.getElem?_eq_some_iff.1 hz).1
    have hmem : p.1 ∈ s.ORD.BPM := List.mem_of_getElem? hz
    refine updateBpmSupport_settles hv (fun row hr => ?_) ⟨rfl, fun row hr => ?_⟩ (hb _ hmem)
    · rw [hrow row (by simp only [List.mem_cons, List.not_mem_nil, or_false] at hr ⊢; tauto)]; exact hlt
    · rw [hrow row (by simp only [List.mem_cons, List.not_mem_nil, or_false] at hr ⊢; tauto)]; exact hlt
end PySC
