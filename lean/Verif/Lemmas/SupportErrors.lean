import Verif.Lemmas.SupportUpdate
import Verif.Lemmas.Circumference
import Mathlib.Algebra.Order.Floor.Ring
import Mathlib.Data.List.Pairwise
/-
The errors of supports as drawn by `apply_errors`.
-/
namespace PySC
set_option linter.unusedSectionVars false
open Py Spec
variable {K : Type} [Field K] [LinearOrder K] [FloorRing K]

section ord
variable [IsStrictOrderedRing K]

/-- what the draws for a support leave at its two ends for one uncertainty `v` of the start -/
def EndsDrawn (n : K) (r : Ring K) (p : Nat × Nat) (a : String) (v : Attr K) (both : Bool) : Prop :=
  ∃ e0 e1, r.attr p.1 a = some e0 ∧ r.attr p.2 a = some e1 ∧ ErrorFor n v e0 ∧
    if both then ErrorFor n v e1 else e1 = e0

theorem drawSupport_ok {E : Env K} {n : K} {t : String} {p : Nat × Nat} (hp : p.1 ≠ p.2) {sig1 : Option (Kwargs K)}
    {kv : String × Attr K} (hc : strContains t kv.1 = true) {s s' : SC K}
    (h : drawSupport E n t p sig1 kv s = .ok () s') :
    ∃ e, sig1 = some e ∧ EndsDrawn n s'.RING p kv.1 kv.2 (e.has kv.1) := by
  unfold drawSupport at h
  rw [if_pos hc, bind_eq_ok] at h
  obtain ⟨⟨⟩, s1, h1, h2⟩ := h
  obtain ⟨e0, g1, g2⟩ := drawInto_ok h1
  cases sig1 with
  | none => cases h2
  | some e =>
    refine ⟨e, rfl, ?_⟩
    simp only at h2
    split at h2
    · rename_i hb
      obtain ⟨e1, g3, g4⟩ := drawInto_ok h2
      have hfr := (drawInto_rel (W := fun j a => j = p.2 ∧ a = kv.1) ⟨rfl, rfl⟩).ok h2
      refine ⟨e0, e1, ?_, g3, g2, ?_⟩
      · rw [hfr.attr _ _ (fun hh => hp hh.1)]; exact g1
      · rw [if_pos hb]; exact g4
    · rename_i hb
      simp only [bind_eq_ok, rd_eq_ok, Ring.getA_eq_ok, setAttr_eq_ok] at h2
      obtain ⟨v, s2, ⟨hv, hs2⟩, hlt, rfl⟩ := h2
      subst hs2
      rw [g1] at hv
      cases hv
      refine ⟨e0, e0, ?_, Ring.attr_setAttr_same hlt, g2, ?_⟩
      · simp only; rw [Ring.attr_setAttr_ne' hp]; exact g1
      · rw [if_neg hb]

theorem endsDrawn_congr {n : K} {r r' : Ring K} {p : Nat × Nat} {a : String} {v : Attr K} {b : Bool}
    (h0 : r'.attr p.1 a = r.attr p.1 a) (h1 : r'.attr p.2 a = r.attr p.2 a) (h : EndsDrawn n r p a v b) :
    EndsDrawn n r' p a v b := by
  unfold EndsDrawn at *; rw [h0, h1]; exact h

/-- the loop over the uncertainties of a support: every one of them is drawn, nothing else changes -/
theorem drawSupports_ok {E : Env K} {n : K} {t : String} (ht : t ∈ supportTypes) {p : Nat × Nat} (hp : p.1 ≠ p.2)
    {sig1 : Option (Kwargs K)} {sig0 : Kwargs K} (hnd : sig0.keys.Nodup)
    (hk : ∀ kv ∈ sig0, kv.1 ∈ supportNamesList) {s s' : SC K}
    (h : forEach sig0 (drawSupport E n t p sig1) s = .ok () s') :
    DrawFrame (supportDrawn t p) s s' ∧
    ∀ a, (a = t ++ "Offset" ∨ a = t ++ "Roll") →
      (∀ v, sig0.get? a = some v → ∃ e, sig1 = some e ∧ EndsDrawn n s'.RING p a v (e.has a)) ∧
      (sig0.get? a = none → ∀ i, s'.RING.attr i a = s.RING.attr i a) := by
  have hcon : ∀ kv ∈ sig0, strContains t kv.1 = true → kv.1 = t ++ "Offset" ∨ kv.1 = t ++ "Roll" :=
    fun kv hkv hc => (strContains_supports ht (hk kv hkv)).1 hc
  refine ⟨(Rels.forEach (fun kv hkv => drawSupport_rel (hcon kv hkv))).ok h, fun a ha => ⟨fun v hv => ?_, fun hno i => ?_⟩⟩
  · have hmem := Dict.mem_of_get? hv
    have hc : strContains t a = true := (strContains_supports ht (hk _ hmem)).2 ha
    refine forEach_post (I := fun _ => True) (P := fun kv (u : SC K) => kv.1 = a → ∃ e, sig1 = some e ∧ EndsDrawn n u.RING p kv.1 kv.2 (e.has kv.1))
      (fun _ _ _ _ _ => trivial) ?_ ?_ h trivial (a, v) hmem rfl
    · rintro kv hkv u u' - hu rfl
      exact drawSupport_ok hp hc hu
    · rintro kv hkv kv' hkv' u u' - hne hP hu heq
      obtain ⟨e, he, hd⟩ := hP heq
      refine ⟨e, he, ?_⟩
      have hkne : kv'.1 ≠ kv.1 := by
        intro hh
        refine hne (Prod.ext hh.symm ?_)
        have h1 := Dict.get?_of_mem hnd hkv
        have h2 := Dict.get?_of_mem hnd hkv'
        rw [hh, h1] at h2
        exact Option.some.inj h2
      have hfr : DrawFrame (fun _ b => b = kv.1) u u' := by
        have : Rel (DrawFrame (fun _ b => b = kv.1)) (drawSupport E n t p sig1 kv) := by
          unfold drawSupport
          split
          · refine Rels.bind (drawInto_rel rfl) (fun _ => ?_)
            split
            · exact Rels.throw _
            · exact Rels.ite (drawInto_rel rfl) (Rels.bind (Rels.rd _) (fun _ => Rels.setAttr (fun _ => DrawFrame.setAttr rfl)))
          · exact Rels.pure' _
        exact this.ok hu
      exact endsDrawn_congr (hfr.attr _ _ hkne) (hfr.attr _ _ hkne) hd
  · have : Rel (DrawFrame (fun _ b => b ≠ a)) (forEach sig0 (drawSupport E n t p sig1)) := by
      refine Rels.forEach (fun kv hkv => ?_)
      have hka : kv.1 ≠ a := by
        rintro rfl
        rw [Dict.get?_of_mem hnd hkv] at hno
        cases hno
      unfold drawSupport
      split
      · refine Rels.bind (drawInto_rel hka) (fun _ => ?_)
        split
        · exact Rels.throw _
        · exact Rels.ite (drawInto_rel hka) (Rels.bind (Rels.rd _) (fun _ => Rels.setAttr (fun _ => DrawFrame.setAttr hka)))
      · exact Rels.pure' _
    exact (this.ok h).attr _ _ (fun hh => hh rfl)

/-! ### tilts -/

theorem tiltAndOffsets_eq_ok {tilt o0 o1 len x o0' o1' : K} {both : Except Err Bool}
    (h : tiltAndOffsets tilt o0 o1 len both = .ok (x, o0', o1')) :
    (tilt ≠ 0 ∧ both = .ok false ∧ x = tilt ∧ o0' = o0 - tilt * len / 2 ∧ o1' = o1 + tilt * len / 2) ∨
    (tilt = 0 ∧ len ≠ 0 ∧ x = (o1 - o0) / len ∧ o0' = o0 ∧ o1' = o1) := by
  unfold tiltAndOffsets at h
  split at h
  · rename_i ht
    left
    simp only [Except.bind_eq_ok'] at h
    obtain ⟨b, hb, h⟩ := h
    cases b
    · simp at h; exact ⟨ht, hb, h.1.symm, h.2.1.symm, h.2.2.symm⟩
    · simp at h
  · rename_i ht
    right
    simp only [Except.bind_eq_ok', divE_eq_ok] at h
    obtain ⟨y, ⟨hl, rfl⟩, h⟩ := h
    simp at h
    exact ⟨by simpa using ht, hl, h.1.symm, h.2.1.symm, h.2.2.symm⟩

theorem tilt_consistent {tilt o0 o1 len x o0' o1' : K} {both : Except Err Bool}
    (h : tiltAndOffsets tilt o0 o1 len both = .ok (x, o0', o1')) (heq : both = .ok false → o1 = o0) :
    x * len = o1' - o0' := by
  rcases tiltAndOffsets_eq_ok h with ⟨-, hb, rfl, rfl, rfl⟩ | ⟨-, hl, rfl, rfl, rfl⟩
  · rw [heq hb]; ring
  · field_simp

theorem coef_set_set {v : List K} {a b : Nat} {x y : K} (ha : a < v.length) (hb : b < v.length) (k : Nat) :
    coef ((v.set a x).set b y) k = if k = b then y else if k = a then x else coef v k := by
  rw [coef_set _ _ _ _ (by simpa using hb)]
  split
  · rfl
  · rw [coef_set _ _ _ _ ha]

structure NewErrors (r : Ring K) (t : String) (p : Nat × Nat) (len : K) (sig1 : Option (Kwargs K)) (R O0 O1 rolls off0 off1 : List K) :
    Prop where
  rollsAt : r.attr p.1 (t ++ "Roll") = some (.vec rolls)
  off0At : r.attr p.1 (t ++ "Offset") = some (.vec off0)
  off1At : r.attr p.2 (t ++ "Offset") = some (.vec off1)
  pitch : ∃ x a b, tiltAndOffsets (coef rolls 1) (coef off0 1) (coef off1 1) len
    (match sig1 with | none => .error .keyError | some e => .ok (e.has (t ++ "Offset"))) = .ok (x, a, b) ∧
    coef R 1 = x ∧ coef O0 1 = a ∧ coef O1 1 = b
  yaw : ∃ x a b, tiltAndOffsets (coef rolls 2) (coef off0 0) (coef off1 0) len
    (match sig1 with | none => .error .keyError | some e => .ok (e.has (t ++ "Offset"))) = .ok (x, a, b) ∧
    coef R 2 = x ∧ coef O0 0 = a ∧ coef O1 0 = b
  roll : coef R 0 = coef rolls 0
  lenR : R.length = rolls.length
  len0 : O0.length = off0.length
  len1 : O1.length = off1.length
  restR : ∀ k, 2 < k → coef R k = coef rolls k
  rest0 : ∀ k, 1 < k → coef O0 k = coef off0 k
  rest1 : ∀ k, 1 < k → coef O1 k = coef off1 k

theorem newSupportErrors_eq_ok {r : Ring K} {sp : List K} {t : String} {p : Nat × Nat} {sig1 : Option (Kwargs K)}
    {R O0 O1 : List K} (h : newSupportErrors r sp t p sig1 = .ok (R, O0, O1)) :
    ∃ s0 s1 len, sp[p.1]? = some s0 ∧ sp[p.2]? = some s1 ∧ npRemainder (s1 - s0) (sp.getLastD 0) = .ok len ∧
      ∃ rolls off0 off1, NewErrors r t p len sig1 R O0 O1 rolls off0 off1 := by
  unfold newSupportErrors at h
  simp only [Except.bind_eq_ok', idx_eq_ok, Ring.getVec_eq_ok, Except.ok.injEq, Prod.mk.injEq] at h
  obtain ⟨s0, hs0, s1, hs1, len, hlen, rolls, hr, off0, h0, off1, h1, r1, hr1, a1, ha1, b1, hb1, x, hx, r2, hr2, a0, ha0, b0, hb0, y,
    hy, rfl, rfl, rfl⟩ := h
  have L : ∀ {v : List K} {k : Nat} {z : K}, v[k]? = some z → k < v.length ∧ coef v k = z := fun hv =>
    ⟨(List.getElem?_eq_some_iff.1 hv).1, by simp [coef, List.getD_eq_getElem?_getD, hv]⟩
  obtain ⟨l1, e1⟩ := L hr1
  obtain ⟨l2, e2⟩ := L hr2
  obtain ⟨l3, e3⟩ := L ha1
  obtain ⟨l4, e4⟩ := L hb1
  obtain ⟨l5, e5⟩ := L ha0
  obtain ⟨l6, e6⟩ := L hb0
  obtain ⟨x0, x1, x2⟩ := x
  obtain ⟨y0, y1, y2⟩ := y
  refine ⟨s0, s1, len, hs0, hs1, hlen, rolls, off0, off1, hr, h0, h1, ⟨x0, x1, x2, ?_, ?_, ?_, ?_⟩, ⟨y0, y1, y2, ?_, ?_, ?_, ?_⟩,
    ?_, by simp, by simp, by simp, fun k hk => ?_, fun k hk => ?_, fun k hk => ?_⟩
  · rw [e1, e3, e4]; exact hx
  · rw [coef_set_set l1 l2]; simp
  · rw [coef_set_set l3 l5]; simp
  · rw [coef_set_set l4 l6]; simp
  · rw [e2, e5, e6]; exact hy
  · rw [coef_set_set l1 l2]; simp
  · rw [coef_set_set l3 l5]; simp
  · rw [coef_set_set l4 l6]; simp
  · rw [coef_set_set l1 l2]; simp
  · rw [coef_set_set l1 l2, if_neg (by omega), if_neg (by omega)]
  · rw [coef_set_set l3 l5, if_neg (by omega), if_neg (by omega)]
  · rw [coef_set_set l4 l6, if_neg (by omega), if_neg (by omega)]

/-- one support with registered uncertainties -/
theorem applySupport_ok {E : Env K} {n : K} {sp : List K} {t : String} (ht : t ∈ supportTypes) {p : Nat × Nat} (hp : p.1 ≠ p.2)
    {s s' : SC K} (hw : WellRegistered s.SIG) {sig0 : Kwargs K} (hsig : s.SIG.Support.get? p.1 = some sig0)
    (h : applySupport E n sp t p s = .ok () s') :
    ∃ s1, (DrawFrame (supportDrawn t p) s s1 ∧
      ∀ a, (a = t ++ "Offset" ∨ a = t ++ "Roll") →
        (∀ v, sig0.get? a = some v → ∃ e, s.SIG.Support.get? p.2 = some e ∧ EndsDrawn n s1.RING p a v (e.has a)) ∧
        (sig0.get? a = none → ∀ i, s1.RING.attr i a = s.RING.attr i a)) ∧
      ∃ R O0 O1, newSupportErrors s1.RING sp t p (s.SIG.Support.get? p.2) = .ok (R, O0, O1) ∧
        s'.RING.attr p.1 (t ++ "Roll") = some (.vec R) ∧ s'.RING.attr p.1 (t ++ "Offset") = some (.vec O0) ∧
        s'.RING.attr p.2 (t ++ "Offset") = some (.vec O1) ∧ s'.RING.attr p.2 (t ++ "Roll") = s1.RING.attr p.2 (t ++ "Roll") := by
  unfold applySupport at h
  rw [bind_eq_ok] at h
  obtain ⟨s0, s0', h0, h⟩ := h
  cases h0
  rw [hsig] at h
  simp only [bind_eq_ok, rd_eq_ok, setAttr_eq_ok] at h
  obtain ⟨⟨⟩, s1, h1, ⟨R, O0, O1⟩, s2, ⟨h2, hs2⟩, ⟨⟩, s3, ⟨l3, rfl⟩, ⟨⟩, s4, ⟨l4, rfl⟩, l5, rfl⟩ := h
  subst hs2
  have hnd : sig0.keys.Nodup := hw.supportSingle.2 _ _ hsig
  have hk : ∀ kv ∈ sig0, kv.1 ∈ supportNamesList := by
    intro kv hkv
    refine hw.supportNames p.1 kv.1 kv.2 ((entries_mem hw.supportSingle).1 ?_)
    unfold entries; rw [hsig]; exact hkv
  have hor : t ++ "Roll" ≠ t ++ "Offset" := by
    have : ∀ t ∈ supportTypes, t ++ "Roll" ≠ t ++ "Offset" := by decide
    exact this t ht
  refine ⟨s2, drawSupports_ok ht hp hnd hk h1, R, O0, O1, h2, ?_, ?_, ?_, ?_⟩
  · simp only
    rw [Ring.attr_setAttr_ne hor, Ring.attr_setAttr_ne hor, Ring.attr_setAttr_same l3]
  · simp only
    rw [Ring.attr_setAttr_ne' hp, Ring.attr_setAttr_same l4]
  · exact Ring.attr_setAttr_same l5
  · simp only
    rw [Ring.attr_setAttr_ne hor, Ring.attr_setAttr_ne hor, Ring.attr_setAttr_ne' (Ne.symm hp)]

/-- what `apply_errors` does for the support `p` of type `t`, whose start has registered uncertainties; `r0` is the ring
before, `r'` the ring after -/
def SupportDone (n : K) (g : Sigs K) (sp : List K) (r0 r' : Ring K) (t : String) (p : Nat × Nat) : Prop :=
  ∃ r1 : Ring K, (∀ a, (a = t ++ "Offset" ∨ a = t ++ "Roll") →
      (∀ v, sigma g.Support p.1 a = some v → ∃ e, g.Support.get? p.2 = some e ∧ EndsDrawn n r1 p a v (e.has a)) ∧
      (sigma g.Support p.1 a = none → r1.attr p.1 a = r0.attr p.1 a ∧ r1.attr p.2 a = r0.attr p.2 a)) ∧
    ∃ R O0 O1, newSupportErrors r1 sp t p (g.Support.get? p.2) = .ok (R, O0, O1) ∧
      r'.attr p.1 (t ++ "Roll") = some (.vec R) ∧ r'.attr p.1 (t ++ "Offset") = some (.vec O0) ∧
      r'.attr p.2 (t ++ "Offset") = some (.vec O1)

theorem covers_start (p : Nat × Nat) : covers p p.1 := by unfold covers; split <;> omega
theorem covers_end (p : Nat × Nat) : covers p p.2 := by unfold covers; split <;> omega

/-- supports of one type on which no element stands twice have different ends -/
theorem apart_ends {r : Ring K} {l : List (Nat × Nat)} (hL : Layout r l) {p q : Nat × Nat} (hp : p ∈ l) (hq : q ∈ l) (hne : p ≠ q) :
    p.1 ≠ q.1 ∧ p.1 ≠ q.2 ∧ p.2 ≠ q.1 ∧ p.2 ≠ q.2 := by
  have key : ∀ k, ¬ (covers p k ∧ covers q k) := by
    have : Std.Symm (fun p q : Nat × Nat => ∀ k, ¬ (covers p k ∧ covers q k)) := ⟨fun a b h k hk => h k hk.symm⟩
    exact hL.apart.forall hp hq hne
  refine ⟨fun h => key p.1 ⟨covers_start p, h ▸ covers_start q⟩, fun h => key p.1 ⟨covers_start p, h ▸ covers_end q⟩,
    fun h => key p.2 ⟨covers_end p, h ▸ covers_start q⟩, fun h => key p.2 ⟨covers_end p, h ▸ covers_end q⟩⟩

theorem layouts_pairs {r : Ring K} {o : Ords} (h : Layouts r o) {t : String} (ht : t ∈ supportTypes) : Layout r (o.pairs t) := by
  simp only [supportTypes, List.mem_cons, List.not_mem_nil, or_false] at ht
  rcases ht with rfl | rfl | rfl
  · exact h.section_
  · exact h.plinth
  · exact h.girder

theorem layout_nodup {r : Ring K} {l : List (Nat × Nat)} (hL : Layout r l) : l.Nodup :=
  hL.apart.imp (fun {p q} h (he : p = q) => h p.1 ⟨covers_start p, he ▸ covers_start p⟩)

theorem typedPairs_nodup {r : Ring K} {o : Ords} (hL : Layouts r o) : (typedPairs o).Nodup := by
  have hinj : ∀ t : String, Function.Injective (fun p : Nat × Nat => (t, p)) := fun t p q h => (Prod.mk.inj h).2
  unfold typedPairs supportTypes
  simp only [List.flatMap_cons, List.flatMap_nil, List.append_nil]
  have h1 := (layout_nodup (l := o.pairs "Section") hL.section_).map (hinj "Section")
  have h2 := (layout_nodup (l := o.pairs "Plinth") hL.plinth).map (hinj "Plinth")
  have h3 := (layout_nodup (l := o.pairs "Girder") hL.girder).map (hinj "Girder")
  refine List.Nodup.append h1 (List.Nodup.append h2 h3 ?_) ?_
  · intro x hx hy
    simp only [List.mem_map] at hx hy
    obtain ⟨p, -, rfl⟩ := hx
    obtain ⟨q, -, hq⟩ := hy
    simp at hq
  · intro x hx hy
    simp only [List.mem_append, List.mem_map] at hx hy
    obtain ⟨p, -, rfl⟩ := hx
    rcases hy with ⟨q, -, hq⟩ | ⟨q, -, hq⟩ <;> simp at hq

/-- two different supports are drawn into different attributes -/
theorem supportDrawn_apart {r : Ring K} {o : Ords} (hL : Layouts r o) {tp tq : String × (Nat × Nat)} (hp : tp ∈ typedPairs o)
    (hq : tq ∈ typedPairs o) (hne : tp ≠ tq) {i : Nat} {a : String} (h1 : supportDrawn tp.1 tp.2 i a) :
    ¬ supportDrawn tq.1 tq.2 i a := by
  intro h2
  obtain ⟨t1, m1⟩ := typedPairs_type hp
  obtain ⟨t2, m2⟩ := typedPairs_type hq
  obtain ⟨hi1, ha1⟩ := h1
  obtain ⟨hi2, ha2⟩ := h2
  have hnames : ∀ t ∈ supportTypes, ∀ u ∈ supportTypes, ∀ x ∈ ["Offset", "Roll"], ∀ y ∈ ["Offset", "Roll"],
      t ++ x = u ++ y → t = u := by decide +kernel
  have ht : tp.1 = tq.1 := by
    rcases ha1 with rfl | rfl <;> rcases ha2 with h | h <;> exact hnames _ t1 _ t2 _ (by simp) _ (by simp) h
  have hpq : tp.2 ≠ tq.2 := fun h => hne (Prod.ext ht h)
  rw [← ht] at m2
  obtain ⟨e1, e2, e3, e4⟩ := apart_ends (layouts_pairs hL t1) m1 m2 hpq
  rcases hi1 with rfl | rfl <;> rcases hi2 with h | h
  · exact e1 h
  · exact e2 h
  · exact e3 h
  · exact e4 h

theorem applySupports_ok {E : Env K} {n : K} {s s' : SC K} {r : Ring K} (hw : WellRegistered s.SIG) (hL : Layouts r s.ORD)
    (h : applySupports E n s = .ok () s') :
    ∀ tp ∈ typedPairs s.ORD, tp.2.1 ≠ tp.2.2 → tp.2.1 ∈ s.SIG.Support.keys →
      SupportDone n s.SIG (findspos s.RING) s.RING s'.RING tp.1 tp.2 := by
  unfold applySupports at h
  rw [bind_eq_ok] at h
  obtain ⟨s0, s0', h0, h⟩ := h
  cases h0
  let I : SC K → Prop := fun u => u.SIG = s.SIG
  have hI : ∀ tp ∈ typedPairs s.ORD, ∀ u u' : SC K, I u → applySupport E n (findspos s.RING) tp.1 tp.2 u = .ok () u' →
      DrawFrame (supportDrawn tp.1 tp.2) u u' := by
    intro tp htp u u' hu hf
    have := applySupport_frame (E := E) (n := n) (sp := findspos s.RING) (p := tp.2) (typedPairs_type htp).1 (s := u) (hu ▸ hw)
    rw [hf] at this
    exact this
  refine forEach_post_fresh (I := I)
    (Q := fun tp u => ∀ i a, supportDrawn tp.1 tp.2 i a → u.RING.attr i a = s.RING.attr i a)
    (P := fun tp u => tp.2.1 ≠ tp.2.2 → tp.2.1 ∈ s.SIG.Support.keys → SupportDone n s.SIG (findspos s.RING) s.RING u.RING tp.1 tp.2)
    (typedPairs_nodup hL) (fun tp htp u u' hu hf => (hI tp htp u u' hu hf).sig.trans hu) ?_ ?_ ?_ h rfl (fun _ _ _ _ _ => rfl)
  · intro tp htp u u' hu hQ hf hne hmem
    obtain ⟨sig0, hsig⟩ : ∃ e, s.SIG.Support.get? tp.2.1 = some e := by
      cases hg : s.SIG.Support.get? tp.2.1 with
      | some e => exact ⟨e, rfl⟩
      | none => exact absurd hmem (Dict.get?_eq_none_iff.1 hg)
    have hu' : u.SIG = s.SIG := hu
    obtain ⟨u1, ⟨hfr, hdr⟩, R, O0, O1, g1, g2, g3, g4, -⟩ := applySupport_ok (typedPairs_type htp).1 hne (hu'.symm ▸ hw)
      (by rw [hu']; exact hsig) hf
    rw [hu'] at g1
    refine ⟨u1.RING, fun a ha => ⟨fun v hv => ?_, fun hno => ?_⟩, R, O0, O1, g1, g2, g3, g4⟩
    · rw [← hu']
      refine (hdr a ha).1 v ?_
      unfold sigma at hv; rw [hsig] at hv; exact hv
    · have : sig0.get? a = none := by unfold sigma at hno; rw [hsig] at hno; exact hno
      have e1 := (hdr a ha).2 this
      exact ⟨(e1 _).trans (hQ _ _ ⟨Or.inl rfl, ha⟩), (e1 _).trans (hQ _ _ ⟨Or.inr rfl, ha⟩)⟩
  · intro tq htq tp htp u u' hu hne hQ hf i a ha
    rw [(hI tq htq u u' hu hf).attr i a (supportDrawn_apart hL htp htq (Ne.symm hne) ha)]
    exact hQ i a ha
  · intro tq htq tp htp u u' hu hne hP hf h1 h2
    obtain ⟨r1, hd, R, O0, O1, g1, g2, g3, g4⟩ := hP h1 h2
    have keep : ∀ i a, supportDrawn tp.1 tp.2 i a → u'.RING.attr i a = u.RING.attr i a := fun i a ha =>
      (hI tq htq u u' hu hf).attr i a (supportDrawn_apart hL htp htq (Ne.symm hne) ha)
    refine ⟨r1, hd, R, O0, O1, g1, ?_, ?_, ?_⟩
    · rw [keep _ _ ⟨Or.inl rfl, Or.inr rfl⟩]; exact g2
    · rw [keep _ _ ⟨Or.inl rfl, Or.inl rfl⟩]; exact g3
    · rw [keep _ _ ⟨Or.inr rfl, Or.inl rfl⟩]; exact g4

/-- the same for the whole of `apply_errors` -/
theorem applyErrors_supports {E : Env K} {n : K} {s s' : SC K} {r : Ring K} (hw : WellRegistered s.SIG) (hL : Layouts r s.ORD)
    (h : applyErrors E n s = .ok () s') :
    ∀ tp ∈ typedPairs s.ORD, tp.2.1 ≠ tp.2.2 → tp.2.1 ∈ s.SIG.Support.keys →
      SupportDone n s.SIG (findspos s'.RING) s.RING s'.RING tp.1 tp.2 := by
  obtain ⟨s1, s2, s3, s4, s5, s6, s7, s8, h1, h2, h3, h4, h5, h6, h7, h8, h9⟩ := applyErrors_eq_ok h
  have f1 := applyRf_frame (E := E) (n := n) hw
  rw [h1] at f1
  have w1 : WellRegistered s1.SIG := f1.sig ▸ hw
  have f2 := applyBpm_frame (E := E) (n := n) w1
  rw [h2] at f2
  have w2 : WellRegistered s2.SIG := f2.sig ▸ w1
  have f3 := applyMagnet_frame (E := E) (n := n) w2
  rw [h3] at f3
  have w3 : WellRegistered s3.SIG := f3.sig ▸ w2
  simp only [Res.state] at f1 f2 f3
  have f4 := (applyInjection_frame E n).ok h4
  have f5 := (applyCircumference_frame E n).ok h5
  have f6 := applySupports_frame (E := E) (n := n) (s := s5) (by rw [f5.sig, f4.sig]; exact w3)
  rw [h6] at f6
  simp only [Res.state] at f6
  have f7 := (updateSupports_frame E true true).ok h7
  have f8 := (Rels.when (updateMagnets_modifies none)).ok h8
  have f9 := (Rels.when (updateCavities_frame none)).ok h9
  have e5 : s5.SIG = s.SIG := by rw [f5.sig, f4.sig, f3.sig, f2.sig, f1.sig]
  have o5 : s5.ORD = s.ORD := by rw [f5.ord, f4.ord, f3.ord, f2.ord, f1.ord]
  have before : ∀ i a, a ∈ supportNamesList → s5.RING.attr i a = s.RING.attr i a := by
    intro i a ha
    have k : ∀ a ∈ supportNamesList, a ≠ "Length" ∧ a ∉ magnetNamesList.map magnetAttrOf ∧ a ∉ bpmNamesList.map id ∧ a ∉ rfNamesList.map id := by
      decide +kernel
    obtain ⟨k1, k2, k3, k4⟩ := k a ha
    rw [f5.attr _ _ k1, f4.attr _ _ (fun h => h), f3.attr _ _ (fun h => k2 (drawn_name w2.magnetNames h)),
      f2.attr _ _ (fun h => k3 (drawn_name w1.bpmNames h)), f1.attr _ _ (fun h => k4 (drawn_name hw.rfNames h))]
  have after : ∀ i a, a ∈ "Length" :: supportNamesList → s'.RING.attr i a = s6.RING.attr i a := by
    intro i a ha
    have k : ∀ a ∈ "Length" :: supportNamesList, a ∉ supportWrites ∧ a ∉ magnetWrites ∧ a ∉ rfProperties := by decide +kernel
    obtain ⟨k1, k2, k3⟩ := k a ha
    rw [f9.attr _ _ k3, f8.attr _ _ k2, f7.attr _ _ k1]
  have hlen : s'.RING.length = s5.RING.length := by rw [f9.len, f8.len, f7.len, f6.len]
  have hsp : findspos s'.RING = findspos s5.RING := by
    rw [findspos_eq, findspos_eq, hlen]
    refine List.map_congr_left (fun k _ => sPos_congr (fun i => ?_) k)
    rw [after i _ (by simp), f6.attr i _ (fun hh => absurd (supportDrawn_name hh) (by decide))]
  intro tp htp hne hmem
  rw [← o5] at htp hL
  rw [← e5] at hmem
  obtain ⟨r1, hd, R, O0, O1, g1, g2, g3, g4⟩ := applySupports_ok (by rw [e5]; exact hw) hL h6 tp htp hne hmem
  have hn : ∀ a, (a = tp.1 ++ "Offset" ∨ a = tp.1 ++ "Roll") → a ∈ supportNamesList := fun a ha =>
    supportDrawn_name (o := s5.ORD) (i := tp.2.1) ⟨tp, htp, Or.inl rfl, ha⟩
  rw [e5] at hd g1
  rw [hsp]
  refine ⟨r1, fun a ha => ⟨(hd a ha).1, fun hno => ?_⟩, R, O0, O1, g1, ?_, ?_, ?_⟩
  · rw [← before _ _ (hn a ha), ← before _ _ (hn a ha)]; exact (hd a ha).2 hno
  · rw [after _ _ (List.mem_cons_of_mem _ (hn _ (Or.inr rfl)))]; exact g2
  · rw [after _ _ (List.mem_cons_of_mem _ (hn _ (Or.inl rfl)))]; exact g3
  · rw [after _ _ (List.mem_cons_of_mem _ (hn _ (Or.inl rfl)))]; exact g4

/-! ### consequences -/

theorem npRemainder_along {r : Ring K} (hf : Forward r) {l : List (Nat × Nat)} (hL : Layout r l) {p : Nat × Nat} (hp : p ∈ l)
    (hlen : p.1 ≤ r.length ∧ p.2 ≤ r.length) (hshort : sPos r p.2 - sPos r p.1 < circumference r) {len : K}
    (h : npRemainder (sPos r p.2 - sPos r p.1) (circumference r) = .ok len) : len = along r p p.2 - along r p p.1 := by
  unfold npRemainder at h
  split at h
  · cases h
  · rename_i hC
    cases h
    have hC0 : 0 < circumference r := lt_of_le_of_ne (sPos_nonneg hf _) (Ne.symm hC)
    unfold along
    rcases hL.open_ p hp with h1 | h1
    · have hn : ¬ p.2 < p.1 := by omega
      have hx : 0 ≤ sPos r p.2 - sPos r p.1 := sub_nonneg.2 (sPos_mono hf h1)
      have hfl : ⌊(sPos r p.2 - sPos r p.1) / circumference r⌋ = 0 := by
        rw [Int.floor_eq_zero_iff]
        exact ⟨div_nonneg hx hC0.le, (div_lt_one hC0).2 hshort⟩
      rw [hfl]
      simp [hn]
    · have hlt : p.2 < p.1 := by
        by_contra hh
        exact absurd (sPos_mono hf (not_lt.1 hh)) (not_le.2 h1)
      have hfl : ⌊(sPos r p.2 - sPos r p.1) / circumference r⌋ = -1 := by
        rw [Int.floor_eq_iff]
        push_cast
        have h0 := sPos_nonneg hf p.2
        have h2 : sPos r p.1 ≤ circumference r := sPos_mono hf hlen.1
        constructor
        · rw [le_div_iff₀ hC0]; linarith
        · have : (sPos r p.2 - sPos r p.1) / circumference r < 0 := div_neg_of_neg_of_pos (by linarith) hC0
          linarith
      rw [hfl]
      simp [hlt]
      ring

theorem vecAt_of {r : Ring K} {i : Nat} {a : String} {v : List K} (h : r.attr i a = some (.vec v)) : vecAt r i a = v := by
  unfold vecAt; rw [h]

/-- pitch and yaw of a support fit to the offsets of its ends -/
theorem supportDone_tilts {n : K} {g : Sigs K} {r0 r' : Ring K} {t : String} {p : Nat × Nat} {l : List (Nat × Nat)}
    (h : SupportDone n g (findspos r') r0 r' t p) (hf : Forward r') (hL : Layout r' l) (hp : p ∈ l)
    (hshort : sPos r' p.2 - sPos r' p.1 < circumference r')
    (hoff : (sigma g.Support p.1 (t ++ "Offset")).isSome ∨ vecAt r0 p.1 (t ++ "Offset") = vecAt r0 p.2 (t ++ "Offset")) :
    coef (vecAt r' p.1 (t ++ "Roll")) 1 * (along r' p p.2 - along r' p p.1) =
      coef (vecAt r' p.2 (t ++ "Offset")) 1 - coef (vecAt r' p.1 (t ++ "Offset")) 1 ∧
    coef (vecAt r' p.1 (t ++ "Roll")) 2 * (along r' p p.2 - along r' p p.1) =
      coef (vecAt r' p.2 (t ++ "Offset")) 0 - coef (vecAt r' p.1 (t ++ "Offset")) 0 := by
  obtain ⟨r1, hd, R, O0, O1, g1, g2, g3, g4⟩ := h
  obtain ⟨s0, s1, len, hs0, hs1, hlen, rolls, off0, off1, N⟩ := newSupportErrors_eq_ok g1
  obtain ⟨l0, rfl⟩ := findspos_get.1 hs0
  obtain ⟨l1, rfl⟩ := findspos_get.1 hs1
  rw [findspos_last] at hlen
  rw [← npRemainder_along hf hL hp ⟨l0, l1⟩ hshort hlen, vecAt_of g2, vecAt_of g3, vecAt_of g4]
  have heq : (match g.Support.get? p.2 with | none => (.error .keyError : Except Err Bool) | some e => .ok (e.has (t ++ "Offset"))) = .ok false →
      off1 = off0 := by
    intro hb
    obtain ⟨d1, d2⟩ := hd (t ++ "Offset") (Or.inl rfl)
    cases hsig : sigma g.Support p.1 (t ++ "Offset") with
    | some v =>
      obtain ⟨e, he, e0, e1, a0, a1, -, hif⟩ := d1 v hsig
      rw [he] at hb
      simp only [Except.ok.injEq] at hb
      rw [hb] at hif
      simp only [Bool.false_eq_true, if_false] at hif
      rw [N.off0At] at a0
      rw [N.off1At] at a1
      cases a0; cases a1
      cases hif; rfl
    | none =>
      obtain ⟨a0, a1⟩ := d2 hsig
      rw [hsig] at hoff
      have hoff := hoff.resolve_left (by simp)
      rw [N.off0At] at a0
      rw [N.off1At] at a1
      rw [vecAt_of a0.symm, vecAt_of a1.symm] at hoff
      exact hoff.symm
  obtain ⟨x, a, b, ht, rfl, rfl, rfl⟩ := N.pitch
  obtain ⟨y, c, d, ht', rfl, rfl, rfl⟩ := N.yaw
  exact ⟨tilt_consistent ht (fun hb => by rw [heq hb]), tilt_consistent ht' (fun hb => by rw [heq hb])⟩

theorem errorFor_congr {n : K} {v : Attr K} {x y : List K} (hl : y.length = x.length) (hc : ∀ k, coef y k = coef x k)
    (h : ErrorFor n v (.vec x)) : ErrorFor n v (.vec y) := by
  have T : ∀ c (w : Attr K), Truncated c w (.vec x) → Truncated c w (.vec y) := by
    intro c w hw
    unfold Truncated at *
    split at hw
    · simp_all
    · rename_i s e he
      cases he
      exact ⟨hl.trans hw.1, fun k => by rw [hc]; exact hw.2 k⟩
    · exact hw.elim
  unfold ErrorFor at *
  split at h
  · exact T _ _ h
  · exact T _ _ h

/-- the roll about the beam axis is truncated -/
theorem supportDone_roll {n : K} {g : Sigs K} {sp : List K} {r0 r' : Ring K} {t : String} {p : Nat × Nat}
    (h : SupportDone n g sp r0 r' t p) {v : Attr K} (hv : sigma g.Support p.1 (t ++ "Roll") = some v) :
    ∃ e, ErrorFor n v (.vec e) ∧ coef (vecAt r' p.1 (t ++ "Roll")) 0 = coef e 0 := by
  obtain ⟨r1, hd, R, O0, O1, g1, g2, g3, g4⟩ := h
  obtain ⟨s0, s1, len, hs0, hs1, hlen, rolls, off0, off1, N⟩ := newSupportErrors_eq_ok g1
  obtain ⟨e, he, e0, e1, a0, a1, h0, -⟩ := (hd _ (Or.inr rfl)).1 v hv
  rw [N.rollsAt] at a0
  cases a0
  exact ⟨rolls, h0, by rw [vecAt_of g2]; exact N.roll⟩

/-- the offsets of both ends are truncated with the uncertainty of the start, if the end has one as well -/
theorem supportDone_offsets {n : K} {g : Sigs K} {sp : List K} {r0 r' : Ring K} {t : String} {p : Nat × Nat}
    (h : SupportDone n g sp r0 r' t p) {v w : Attr K} (hv : sigma g.Support p.1 (t ++ "Offset") = some v)
    (hw : sigma g.Support p.2 (t ++ "Offset") = some w) :
    ∃ O0 O1, r'.attr p.1 (t ++ "Offset") = some (.vec O0) ∧ r'.attr p.2 (t ++ "Offset") = some (.vec O1) ∧
      ErrorFor n v (.vec O0) ∧ ErrorFor n v (.vec O1) := by
  obtain ⟨r1, hd, R, O0, O1, g1, g2, g3, g4⟩ := h
  obtain ⟨s0, s1, len, hs0, hs1, hlen, rolls, off0, off1, N⟩ := newSupportErrors_eq_ok g1
  obtain ⟨e, he, e0, e1, a0, a1, h0, hif⟩ := (hd _ (Or.inl rfl)).1 v hv
  have hhas : e.has (t ++ "Offset") = true := by
    unfold sigma at hw
    rw [he] at hw
    have hw : e.get? (t ++ "Offset") = some w := hw
    rw [Dict.has_iff, ← Dict.get?_isSome_iff, hw]; rfl
  rw [N.off0At] at a0
  rw [N.off1At] at a1
  cases a0; cases a1
  rw [if_pos hhas] at hif
  have keep : ∀ {tilt o0 o1 x a b : K}, tiltAndOffsets tilt o0 o1 len
      (match g.Support.get? p.2 with | none => (.error .keyError : Except Err Bool) | some e => .ok (e.has (t ++ "Offset"))) = .ok (x, a, b) →
      a = o0 ∧ b = o1 := by
    intro tilt o0 o1 x a b ht
    rcases tiltAndOffsets_eq_ok ht with ⟨-, hb, -⟩ | ⟨-, -, -, h1, h2⟩
    · rw [he] at hb
      simp only [Except.ok.injEq] at hb
      rw [hhas] at hb; cases hb
    · exact ⟨h1, h2⟩
  obtain ⟨x, a, b, ht, -, ha, hb⟩ := N.pitch
  obtain ⟨y, c, d, ht', -, hc, hdd⟩ := N.yaw
  obtain ⟨rfl, rfl⟩ := keep ht
  obtain ⟨rfl, rfl⟩ := keep ht'
  refine ⟨O0, O1, g3, g4, errorFor_congr N.len0 (fun k => ?_) h0, errorFor_congr N.len1 (fun k => ?_) hif⟩
  · rcases k with - | - | k
    · exact hc
    · exact ha
    · exact N.rest0 _ (by omega)
  · rcases k with - | - | k
    · exact hdd
    · exact hb
    · exact N.rest1 _ (by omega)

/-- after `apply_errors` magnets and BPMs are where their supports put them -/
theorem applyErrors_onSupports {E : Env K} {n : K} {s s' : SC K} (ht : Tidy s.ORD) (hw : WellRegistered s.SIG)
    (hf : Forward s'.RING) (hL : Layouts s'.RING s.ORD) (h : applyErrors E n s = .ok () s') : OnSupports E s'.RING s.ORD := by
  obtain ⟨s1, s2, s3, s4, s5, s6, s7, s8, h1, h2, h3, h4, h5, h6, h7, h8, h9⟩ := applyErrors_eq_ok h
  have f1 := applyRf_frame (E := E) (n := n) hw
  rw [h1] at f1
  have w1 : WellRegistered s1.SIG := f1.sig ▸ hw
  have f2 := applyBpm_frame (E := E) (n := n) w1
  rw [h2] at f2
  have w2 : WellRegistered s2.SIG := f2.sig ▸ w1
  have f3 := applyMagnet_frame (E := E) (n := n) w2
  rw [h3] at f3
  have w3 : WellRegistered s3.SIG := f3.sig ▸ w2
  have f4 := (applyInjection_frame E n).ok h4
  have f5 := (applyCircumference_frame E n).ok h5
  have f6 := applySupports_frame (E := E) (n := n) (s := s5) (by rw [f5.sig, f4.sig]; exact w3)
  rw [h6] at f6
  simp only [Res.state] at f1 f2 f3 f6
  have f7 := (updateSupports_frame E true true).ok h7
  have f8 := (Rels.when (updateMagnets_modifies none)).ok h8
  have f9 := (Rels.when (updateCavities_frame none)).ok h9
  have o6 : s6.ORD = s.ORD := by rw [f6.ord, f5.ord, f4.ord, f3.ord, f2.ord, f1.ord]
  have keep : ∀ i a, a ∉ magnetWrites → a ∉ rfProperties → s'.RING.attr i a = s7.RING.attr i a := by
    intro i a k1 k2
    rw [f9.attr _ _ k2, f8.attr _ _ k1]
  have ss7 : SameSupports s7.RING s'.RING := by
    refine ⟨by rw [f9.len, f8.len], fun i a ha => ?_⟩
    have k : ∀ a ∈ "Length" :: supportNamesList, a ∉ magnetWrites ∧ a ∉ rfProperties := by decide +kernel
    exact keep i a (k a ha).1 (k a ha).2
  have ss6 : SameSupports s6.RING s7.RING := sameSupports_of_frame f7 (fun i a ha => by
    have : ∀ a ∈ "Length" :: supportNamesList, a ∉ supportWrites := by decide
    exact this a ha)
  refine onSupports_congr ss7 (fun i a ha => ?_) ?_
  · have k : ∀ a ∈ ["SupportOffset", "SupportRoll", "MagnetOffset", "MagnetRoll", "Length", "BendingAngle", "T1", "T2", "R1", "R2",
      "MasterOf"], a ∉ magnetWrites ∧ a ∉ rfProperties := by decide +kernel
    exact keep i a (k a ha).1 (k a ha).2
  · rw [← o6] at ht hL ⊢
    exact updateSupports_onSupports ht (ss6.symm.forward (ss7.symm.forward hf)) (ss6.symm.layouts (ss7.symm.layouts hL)) h7

/-- after `apply_errors` the circumference has changed by the drawn relative error -/
theorem stages_circumference {E : Env K} {n : K} {s s1 s2 s3 s4 s5 s6 s7 s8 s' : SC K} (hw : WellRegistered s.SIG)
    (h1 : applyRf E n s = .ok () s1) (h2 : applyBpm E n s1 = .ok () s2) (h3 : applyMagnet E n s2 = .ok () s3)
    (h4 : applyInjection E n s3 = .ok () s4) (h5 : applyCircumference E n s4 = .ok () s5)
    (h6 : applySupports E n s5 = .ok () s6) (h7 : updateSupports E true true s6 = .ok () s7)
    (h8 : when (!s7.ORD.Magnet.isEmpty) (updateMagnets none) s7 = .ok () s8)
    (h9 : when (!s7.ORD.RF.isEmpty && !s7.SIG.RF.isEmpty) (updateCavities none) s8 = .ok () s') :
    ∃ q, ((s4.rng ≤ q ∧ q < s5.rng) ∧ randncFrom E n 1 s4.rng = .ok ([E.randn q], s5.rng)) ∧ |E.randn q| ≤ |n| ∧
      ((driftLength s.RING ≠ 0 ∧ circumference s'.RING = (1 + s.SIG.Circumference * E.randn q) * circumference s.RING) ∨
      ((∀ i < s.RING.length, ¬ DriftAt s.RING i) ∧ circumference s'.RING = circumference s.RING)) := by
  have f1 := applyRf_frame (E := E) (n := n) hw
  rw [h1] at f1
  have w1 : WellRegistered s1.SIG := f1.sig ▸ hw
  have f2 := applyBpm_frame (E := E) (n := n) w1
  rw [h2] at f2
  have w2 : WellRegistered s2.SIG := f2.sig ▸ w1
  have f3 := applyMagnet_frame (E := E) (n := n) w2
  rw [h3] at f3
  have w3 : WellRegistered s3.SIG := f3.sig ▸ w2
  simp only [Res.state] at f1 f2 f3
  have f4 := (applyInjection_frame E n).ok h4
  have f5 := (applyCircumference_frame E n).ok h5
  have f6 := applySupports_frame (E := E) (n := n) (s := s5) (by rw [f5.sig, f4.sig]; exact w3)
  rw [h6] at f6
  simp only [Res.state] at f6
  have f7 := (updateSupports_frame E true true).ok h7
  have f8 := (Rels.when (updateMagnets_modifies none)).ok h8
  have f9 := (Rels.when (updateCavities_frame none)).ok h9
  have e4 : s4.SIG = s.SIG := by rw [f4.sig, f3.sig, f2.sig, f1.sig]
  have before : ∀ i a, a ∈ ["Length", "PassMethod"] → s4.RING.attr i a = s.RING.attr i a := by
    intro i a ha
    have k : ∀ a ∈ ["Length", "PassMethod"], a ∉ magnetNamesList.map magnetAttrOf ∧ a ∉ bpmNamesList.map id ∧ a ∉ rfNamesList.map id := by
      decide +kernel
    obtain ⟨k2, k3, k4⟩ := k a ha
    rw [f4.attr _ _ (fun h => h), f3.attr _ _ (fun h => k2 (drawn_name w2.magnetNames h)),
      f2.attr _ _ (fun h => k3 (drawn_name w1.bpmNames h)), f1.attr _ _ (fun h => k4 (drawn_name hw.rfNames h))]
  have l4 : s4.RING.length = s.RING.length := by rw [f4.len, f3.len, f2.len, f1.len]
  have c4 : circumference s4.RING = circumference s.RING := by
    unfold circumference; rw [l4]; exact sPos_congr (fun i => before i _ (by simp)) _
  have d4 : ∀ i, DriftAt s4.RING i ↔ DriftAt s.RING i := fun i => by unfold DriftAt; rw [before i _ (by simp)]
  have dl4 : driftLength s4.RING = driftLength s.RING := by
    unfold driftLength; rw [l4]
    congr 1
    refine List.map_congr_left (fun i _ => ?_)
    rw [numAt_congr (before i "Length" (by simp))]
    exact if_congr (d4 i) rfl rfl
  have c5 : circumference s'.RING = circumference s5.RING := by
    unfold circumference
    rw [show s'.RING.length = s5.RING.length by rw [f9.len, f8.len, f7.len, f6.len]]
    refine sPos_congr (fun i => ?_) _
    rw [f9.attr _ _ (by decide), f8.attr _ _ (by decide), f7.attr _ _ (by decide),
      f6.attr i _ (fun hh => absurd (supportDrawn_name hh) (by decide))]
  obtain ⟨q, hq, hz, hsc⟩ := applyCircumference_ok h5
  rw [e4] at hsc
  refine ⟨q, hq, hz, ?_⟩
  rw [c5]
  rcases scaleCircumference_rel hsc with ⟨g1, g2⟩ | ⟨g1, g2⟩
  · left
    rw [c4] at g2
    exact ⟨dl4 ▸ g1, g2⟩
  · right
    rw [g2, c4]
    rw [l4] at g1
    exact ⟨fun i hi hd => g1 i hi ((d4 i).2 hd), rfl⟩

theorem applyErrors_circumference {E : Env K} {n : K} {s s' : SC K} (hw : WellRegistered s.SIG) (h : applyErrors E n s = .ok () s') :
    ∃ z, |z| ≤ |n| ∧ ((driftLength s.RING ≠ 0 ∧ circumference s'.RING = (1 + s.SIG.Circumference * z) * circumference s.RING) ∨
      ((∀ i < s.RING.length, ¬ DriftAt s.RING i) ∧ circumference s'.RING = circumference s.RING)) := by
  obtain ⟨s1, s2, s3, s4, s5, s6, s7, s8, h1, h2, h3, h4, h5, h6, h7, h8, h9⟩ := applyErrors_eq_ok h
  obtain ⟨q, -, hz, hc⟩ := stages_circumference hw h1 h2 h3 h4 h5 h6 h7 h8 h9
  exact ⟨_, hz, hc⟩

end ord
end PySC
