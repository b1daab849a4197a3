import Verif.Lemmas.Applicable
/-
Errors can be applied to a machine in order: supports.
-/
namespace PySC
set_option linter.unusedSectionVars false
open Py Spec
variable {K : Type} [Field K] [LinearOrder K] [FloorRing K] {Bad : Err → SC K → Prop}

theorem mapM_except_total {α β : Type} {f : α → Except Err β} {l : List α} (h : ∀ x ∈ l, ∃ y, f x = .ok y) : ∃ w, l.mapM f = .ok w := by
  induction l with
  | nil => exact ⟨[], rfl⟩
  | cons x l ih =>
    obtain ⟨y, hy⟩ := h x (by simp)
    obtain ⟨w, hw⟩ := ih (fun z hz => h z (by simp [hz]))
    exact ⟨y :: w, by rw [List.mapM_cons, hy, Except.ok_bind', hw]; rfl⟩

theorem foldlM_except_total {α β : Type} {f : β → α → Except Err β} {l : List α} {P : β → Prop}
    (h : ∀ x ∈ l, ∀ a, P a → ∃ b, f a x = .ok b ∧ P b) {a : β} (ha : P a) : ∃ b, l.foldlM f a = .ok b ∧ P b := by
  induction l generalizing a with
  | nil => exact ⟨a, rfl, ha⟩
  | cons x l ih =>
    obtain ⟨b, hb, hP⟩ := h x (by simp) a ha
    obtain ⟨c, hc, hP'⟩ := ih (fun z hz => h z (by simp [hz])) hP
    exact ⟨c, by rw [List.foldlM_cons, hb, Except.ok_bind', hc], hP'⟩

theorem hasVec3_iff {r : Ring K} {i : Nat} {a : String} : HasVec3 r i a ↔ ∃ v, r.attr i a = some (.vec v) ∧ v.length = 3 := by
  constructor
  · rintro ⟨x, y, z, h⟩; exact ⟨_, h, rfl⟩
  · rintro ⟨v, h, hl⟩
    match v, hl with
    | [x, y, z], _ => exact ⟨x, y, z, h⟩

theorem Spec.HasVec3.congr {r r' : Ring K} {i : Nat} {a : String} (h : HasVec3 r i a) (he : r'.attr i a = r.attr i a) : HasVec3 r' i a := by
  unfold HasVec3; rw [he]; exact h

/-- the drawn error of a vector of three uncertainties -/
theorem errorFor_vec3 [IsStrictOrderedRing K] {n : K} {sig err : Attr K} (h : ErrorFor n sig err) (hd : Drawable sig)
    (hl : (uncertainties sig).length = 3) :
    ∃ v, err = .vec v ∧ v.length = 3 ∧ ∀ k, coef (uncertainties sig) k = 0 → coef v k = 0 := by
  have key : ∀ (c : K) (w : List K), Truncated c (.vec w) err → w.length = 3 → ∃ v, err = .vec v ∧ v.length = 3 ∧ ∀ k, coef w k = 0 → coef v k = 0 := by
    intro c w ht hw
    cases err with
    | vec v =>
      refine ⟨v, rfl, ht.1.trans hw, fun k hk => ?_⟩
      have := ht.2 k
      rw [hk, abs_zero, mul_zero] at this
      exact abs_nonpos_iff.1 this
    | _ => exact ht.elim
  cases sig with
  | vec w => exact key n w h hl
  | pair v c =>
    cases v with
    | vec w => exact key c w h hl
    | _ => simp [uncertainties] at hl
  | _ => simp [uncertainties] at hl

section ord
variable [IsStrictOrderedRing K]

/-- a support in the ring which neither has length zero nor fills the whole ring -/
structure Span (r : Ring K) (p : Nat × Nat) : Prop where
  start : p.1 < r.length
  end_ : p.2 < r.length
  ne : sPos r p.1 ≠ sPos r p.2
  short : |sPos r p.2 - sPos r p.1| < circumference r

theorem Span.ends {r : Ring K} {p : Nat × Nat} (h : Span r p) : p.1 ≠ p.2 := fun he => h.ne (by rw [he])

theorem span_of {r : Ring K} (hf : Forward r) {p : Nat × Nat} (h1 : p.1 < r.length) (h2 : p.2 < r.length)
    (hin : ∃ k, min p.1 p.2 ≤ k ∧ k < max p.1 p.2 ∧ 0 < numAt r k "Length")
    (hout : ∃ k < r.length, (k < min p.1 p.2 ∨ max p.1 p.2 ≤ k) ∧ 0 < numAt r k "Length") : Span r p := by
  have step : ∀ {a b k : Nat}, a ≤ k → k < b → 0 < numAt r k "Length" → sPos r a < sPos r b := by
    intro a b k ha hb hk
    have e1 := sPos_mono hf ha
    have e2 := sPos_mono hf (show k + 1 ≤ b from hb)
    rw [sPos_succ] at e2
    linarith
  have lt : sPos r (min p.1 p.2) < sPos r (max p.1 p.2) := by
    obtain ⟨k, a, b, c⟩ := hin
    exact step a b c
  have sh : sPos r (max p.1 p.2) - sPos r (min p.1 p.2) < circumference r := by
    obtain ⟨k, hk, hh, hpos⟩ := hout
    have e0 := sPos_nonneg hf (min p.1 p.2)
    have e1 : sPos r (max p.1 p.2) ≤ circumference r := sPos_mono hf (by omega)
    rcases hh with hh | hh
    · have := step (Nat.zero_le k) hh hpos
      have z : sPos r 0 = 0 := by simp [sPos]
      linarith
    · have : sPos r (max p.1 p.2) < circumference r := step hh hk hpos
      linarith
  rcases le_total p.1 p.2 with hle | hle
  · rw [min_eq_left hle, max_eq_right hle] at lt sh
    exact ⟨h1, h2, lt.ne, by rw [abs_of_pos (by linarith)]; exact sh⟩
  · rw [min_eq_right hle, max_eq_left hle] at lt sh
    exact ⟨h1, h2, lt.ne', by rw [abs_of_neg (by linarith)]; linarith⟩

theorem Span.circ {r : Ring K} {p : Nat × Nat} (h : Span r p) : 0 < circumference r := lt_of_le_of_lt (abs_nonneg _) h.short

theorem npRemainder_total {x c : K} (h0 : x ≠ 0) (hc : |x| < c) : ∃ l, npRemainder x c = .ok l ∧ l ≠ 0 := by
  have hpos : 0 < c := lt_of_le_of_lt (abs_nonneg _) hc
  refine ⟨_, by unfold npRemainder; rw [if_neg hpos.ne'], fun he => ?_⟩
  have hx : x = c * (⌊x / c⌋ : K) := by linarith
  have habs : |x| = c * |(⌊x / c⌋ : K)| := by
    conv_lhs => rw [hx]
    rw [abs_mul, abs_of_pos hpos]
  rw [habs] at hc
  have h1 : |(⌊x / c⌋ : K)| < 1 := by
    by_contra hh
    push Not at hh
    have := mul_le_mul_of_nonneg_left hh hpos.le
    linarith
  have h2 : |⌊x / c⌋| < 1 := by exact_mod_cast h1
  have h3 : ⌊x / c⌋ = 0 := Int.abs_lt_one_iff.1 h2
  rw [h3] at hx
  exact h0 (by simpa using hx)

theorem tiltAndOffsets_total {tilt o0 o1 len : K} {both : Except Err Bool} (hl : len ≠ 0) (hb : both = .ok false ∨ (∃ b, both = .ok b) ∧ tilt = 0) :
    ∃ x, tiltAndOffsets tilt o0 o1 len both = .ok x := by
  unfold tiltAndOffsets
  split
  · rename_i ht
    rcases hb with rfl | ⟨-, h⟩
    · exact ⟨_, rfl⟩
    · exact absurd h ht
  · rw [divE_eq_ok.2 ⟨hl, rfl⟩]; exact ⟨_, rfl⟩

theorem newSupportErrors_total {r r0 : Ring K} {t : String} {p : Nat × Nat} {e : Kwargs K} (hs : Span r0 p)
    (h0 : HasVec3 r p.1 (t ++ "Offset")) (h1 : HasVec3 r p.2 (t ++ "Offset")) (h2 : HasVec3 r p.1 (t ++ "Roll"))
    (ht : e.has (t ++ "Offset") = true → ∀ k ∈ [1, 2], coef (vecAt r p.1 (t ++ "Roll")) k = 0) :
    ∃ R O0 O1, newSupportErrors r (findspos r0) t p (some e) = .ok (R, O0, O1) := by
  obtain ⟨a0, a1, a2, h0⟩ := h0
  obtain ⟨b0, b1, b2, h1⟩ := h1
  obtain ⟨c0, c1, c2, h2⟩ := h2
  obtain ⟨len, hl, hl0⟩ := npRemainder_total (sub_ne_zero.2 (Ne.symm hs.ne)) hs.short
  rw [vecAt_of_attr h2] at ht
  have hb : ∀ x, (e.has (t ++ "Offset") = true → x = 0) →
      ((.ok (e.has (t ++ "Offset")) : Except Err Bool) = .ok false ∨ (∃ b, (.ok (e.has (t ++ "Offset")) : Except Err Bool) = .ok b) ∧ x = (0 : K)) := by
    intro x hx
    cases hh : e.has (t ++ "Offset") with
    | false => exact Or.inl rfl
    | true => exact Or.inr ⟨⟨_, rfl⟩, hx hh⟩
  obtain ⟨x, hx⟩ := tiltAndOffsets_total (o0 := a1) (o1 := b1) hl0 (hb c1 (fun hh => by simpa [coef] using ht hh 1 (by simp)))
  obtain ⟨y, hy⟩ := tiltAndOffsets_total (o0 := a0) (o1 := b0) hl0 (hb c2 (fun hh => by simpa [coef] using ht hh 2 (by simp)))
  refine ⟨[c0, x.1, y.1], [y.2.1, x.2.1, a2], [y.2.2, x.2.2, b2], ?_⟩
  unfold newSupportErrors
  rw [idx_eq_ok.2 (findspos_get.2 ⟨hs.start.le, rfl⟩), Except.ok_bind', idx_eq_ok.2 (findspos_get.2 ⟨hs.end_.le, rfl⟩), Except.ok_bind',
    findspos_last, hl, Except.ok_bind', Ring.getVec_eq_ok.2 h2, Except.ok_bind', Ring.getVec_eq_ok.2 h0, Except.ok_bind',
    Ring.getVec_eq_ok.2 h1, Except.ok_bind']
  simp only [idx, List.getElem?_cons_succ, List.getElem?_cons_zero, Except.ok_bind', hx, hy]
  rfl

/-- like `SupportInOrder`, with its geometry `Span` -/
structure SupportFit (s : SC K) (t : String) (p : Nat × Nat) : Prop where
  startOffset : HasVec3 s.RING p.1 (t ++ "Offset")
  endOffset : HasVec3 s.RING p.2 (t ++ "Offset")
  roll : HasVec3 s.RING p.1 (t ++ "Roll")
  known : p.1 ∈ s.SIG.Support.keys → p.2 ∈ s.SIG.Support.keys
  uncertainty : ∀ a ∈ ["Offset", "Roll"], ∀ sig, sigma s.SIG.Support p.1 (t ++ a) = some sig →
    Drawable sig ∧ (uncertainties sig).length = 3
  tilt : (sigma s.SIG.Support p.2 (t ++ "Offset")).isSome → ∀ k ∈ [1, 2],
    match sigma s.SIG.Support p.1 (t ++ "Roll") with
    | some sig => coef (uncertainties sig) k = 0
    | none => coef (vecAt s.RING p.1 (t ++ "Roll")) k = 0

theorem SupportFit.congr {s u : SC K} {t : String} {p : Nat × Nat} (h : SupportFit s t p) (hg : u.SIG = s.SIG)
    (ha : ∀ i a, supportDrawn t p i a → u.RING.attr i a = s.RING.attr i a) : SupportFit u t p := by
  have e1 := ha p.1 (t ++ "Offset") ⟨Or.inl rfl, Or.inl rfl⟩
  have e2 := ha p.2 (t ++ "Offset") ⟨Or.inr rfl, Or.inl rfl⟩
  have e3 := ha p.1 (t ++ "Roll") ⟨Or.inl rfl, Or.inr rfl⟩
  refine ⟨h.startOffset.congr e1, h.endOffset.congr e2, h.roll.congr e3, ?_, ?_, ?_⟩
  · rw [hg]; exact h.known
  · rw [hg]; exact h.uncertainty
  · rw [hg]
    have e4 : vecAt u.RING p.1 (t ++ "Roll") = vecAt s.RING p.1 (t ++ "Roll") := by unfold vecAt; rw [e3]
    rw [e4]
    exact h.tilt

theorem Dict.exists_of_mem_keys {κ v : Type} [DecidableEq κ] {d : Dict κ v} {k : κ} (h : k ∈ d.keys) : ∃ e, d.get? k = some e := by
  cases hg : d.get? k with
  | some e => exact ⟨e, rfl⟩
  | none => exact absurd h (Dict.get?_eq_none_iff.1 hg)

theorem Dict.isSome_of_has {κ v : Type} [DecidableEq κ] {d : Dict κ v} {k : κ} (h : d.has k = true) : (d.get? k).isSome = true := by
  obtain ⟨e, he⟩ := Dict.exists_of_mem_keys (d := d) (k := k) (of_decide_eq_true h)
  rw [he]; rfl

theorem drawSupport_settles {E : Env K} (hE : KeepsDrawing E.randn) {n : K} (hn : n ≠ 0) {t : String} {p : Nat × Nat} {e : Kwargs K}
    {kv : String × Attr K} (hd : strContains t kv.1 = true → Drawable kv.2) {s : SC K} (h1 : p.1 < s.RING.length) (h2 : p.2 < s.RING.length) :
    Settles Bad (fun f => drawSupport (E.passes f) n t p (some e) kv) s (fun _ u => u.RING.length = s.RING.length) := by
  unfold drawSupport
  by_cases hc : strContains t kv.1 = true
  · simp only [if_pos hc]
    refine ((drawInto_settles hE hn (hd hc) h1 kv.1).post (Q := fun _ u => ∃ err, u.RING.attr p.1 kv.1 = some err) (fun f _ u hu => by
      obtain ⟨err, g1, -⟩ := drawInto_ok hu
      exact ⟨err, g1⟩)).bind (fun _ u hu => ?_)
    obtain ⟨hl, err, herr⟩ := hu
    by_cases hb : e.has kv.1 = true
    · simp only [if_pos hb]
      exact (drawInto_settles hE hn (hd hc) (hl ▸ h2) kv.1).mono (fun _ _ h => h.trans hl)
    · simp only [if_neg hb]
      refine (Settles.rd (P := fun _ v => v = u) (Ring.getA_eq_ok.2 herr) rfl).bind (fun a v hv => ?_)
      subst hv
      exact Settles.setAttr (hl ▸ h2) ((Ring.length_setAttr ..).trans hl)
  · simp only [if_neg hc]
    exact Settles.pure rfl

/-- the three angles and offsets of a support are arrays -/
def SupportShape (r : Ring K) (t : String) (p : Nat × Nat) : Prop :=
  HasVec3 r p.1 (t ++ "Offset") ∧ HasVec3 r p.2 (t ++ "Offset") ∧ HasVec3 r p.1 (t ++ "Roll")

theorem applySupport_settles {E : Env K} (hE : KeepsDrawing E.randn) {n : K} (hn : n ≠ 0) {t : String} (ht : t ∈ supportTypes) {p : Nat × Nat}
    {r0 : Ring K} (hsp : Span r0 p) {s : SC K} (hw : WellRegistered s.SIG) (hlen : s.RING.length = r0.length) (hfit : SupportFit s t p) :
    Settles Bad (fun f => applySupport (E.passes f) n (findspos r0) t p) s (fun _ u => SupportShape u.RING t p) := by
  have h1 : p.1 < s.RING.length := hlen ▸ hsp.start
  have h2 : p.2 < s.RING.length := hlen ▸ hsp.end_
  refine (Settles.get (P := fun a u => a = s ∧ u = s) ⟨rfl, rfl⟩).bind (fun _ _ h => ?_)
  obtain ⟨rfl, rfl⟩ := h
  rename_i s
  cases hg : s.SIG.Support.get? p.1 with
  | none => exact Settles.pure ⟨hfit.startOffset, hfit.endOffset, hfit.roll⟩
  | some sig0 =>
    have hmem : p.1 ∈ s.SIG.Support.keys := by
      by_contra hh
      rw [Dict.get?_eq_none_iff.2 hh] at hg
      cases hg
    obtain ⟨e, he⟩ := Dict.exists_of_mem_keys (hfit.known hmem)
    simp only [he]
    have hsg : ∀ a, sig0.get? a = sigma s.SIG.Support p.1 a := fun a => by unfold sigma; rw [hg]; rfl
    have hnd : sig0.keys.Nodup := hw.supportSingle.2 _ _ hg
    have hk : ∀ kv ∈ sig0, kv.1 ∈ supportNamesList := by
      intro kv hkv
      refine hw.supportNames p.1 kv.1 kv.2 ((entries_mem hw.supportSingle).1 ?_)
      unfold entries; rw [hg]; exact hkv
    have hdr : ∀ kv ∈ sig0, strContains t kv.1 = true → Drawable kv.2 := by
      intro kv hkv hc
      have hv : sigma s.SIG.Support p.1 kv.1 = some kv.2 := by rw [← hsg]; exact Dict.get?_of_mem hnd hkv
      rcases (strContains_supports ht (hk kv hkv)).1 hc with h | h <;> rw [h] at hv
      · exact (hfit.uncertainty "Offset" (by simp) _ hv).1
      · exact (hfit.uncertainty "Roll" (by simp) _ hv).1
    have hloop : Settles Bad (fun f => forEach sig0 (drawSupport (E.passes f) n t p (some e))) s
        (fun _ u => u.RING.length = s.RING.length) :=
      Settles.forEach (I := fun u : SC K => u.RING.length = s.RING.length) (fun kv hkv u hu =>
        (drawSupport_settles hE hn (hdr kv hkv) (hu ▸ h1) (hu ▸ h2)).mono (fun _ _ h => h.trans hu)) rfl
    have hpost := hloop.post (Q := fun _ u => SupportShape u.RING t p ∧ (e.has (t ++ "Offset") = true →
        ∀ k ∈ [1, 2], coef (vecAt u.RING p.1 (t ++ "Roll")) k = 0)) (fun f _ u hu => by
      obtain ⟨-, hall⟩ := drawSupports_ok ht hsp.ends hnd hk hu
      have three : ∀ a ∈ ["Offset", "Roll"], ∀ v, sig0.get? (t ++ a) = some v → ∃ w0 w1, u.RING.attr p.1 (t ++ a) = some (.vec w0) ∧ w0.length = 3 ∧
          u.RING.attr p.2 (t ++ a) = some (.vec w1) ∧ w1.length = 3 ∧ ∀ k, coef (uncertainties v) k = 0 → coef w0 k = 0 := by
        intro a ha v hv
        have haa : t ++ a = t ++ "Offset" ∨ t ++ a = t ++ "Roll" := by
          simp only [List.mem_cons, List.not_mem_nil, or_false] at ha
          rcases ha with rfl | rfl
          · exact Or.inl rfl
          · exact Or.inr rfl
        obtain ⟨e', he', e0, e1, g0, g1, f0, f1⟩ := (hall _ haa).1 v hv
        obtain ⟨d1, d2⟩ := hfit.uncertainty a ha v (by rw [← hsg]; exact hv)
        obtain ⟨w0, rfl, l0, z0⟩ := errorFor_vec3 f0 d1 d2
        split at f1
        · obtain ⟨w1, rfl, l1, -⟩ := errorFor_vec3 f1 d1 d2
          exact ⟨w0, w1, g0, l0, g1, l1, z0⟩
        · subst f1
          exact ⟨w0, w0, g0, l0, g1, l0, z0⟩
      have hO : HasVec3 u.RING p.1 (t ++ "Offset") ∧ HasVec3 u.RING p.2 (t ++ "Offset") := by
        cases hv : sig0.get? (t ++ "Offset") with
        | none =>
          have := (hall _ (Or.inl rfl)).2 hv
          exact ⟨hfit.startOffset.congr (this _), hfit.endOffset.congr (this _)⟩
        | some v =>
          obtain ⟨w0, w1, g0, l0, g1, l1, -⟩ := three "Offset" (by simp) v hv
          exact ⟨hasVec3_iff.2 ⟨w0, g0, l0⟩, hasVec3_iff.2 ⟨w1, g1, l1⟩⟩
      cases hv : sig0.get? (t ++ "Roll") with
      | none =>
        have hr := (hall _ (Or.inr rfl)).2 hv
        refine ⟨⟨hO.1, hO.2, hfit.roll.congr (hr _)⟩, fun hb k hk' => ?_⟩
        have := hfit.tilt (by unfold sigma; rw [he]; exact Dict.isSome_of_has hb) k hk'
        rw [← hsg, hv] at this
        rw [show vecAt u.RING p.1 (t ++ "Roll") = vecAt s.RING p.1 (t ++ "Roll") by unfold vecAt; rw [hr]]
        exact this
      | some v =>
        obtain ⟨w0, w1, g0, l0, g1, l1, z0⟩ := three "Roll" (by simp) v hv
        refine ⟨⟨hO.1, hO.2, hasVec3_iff.2 ⟨w0, g0, l0⟩⟩, fun hb k hk' => ?_⟩
        have := hfit.tilt (by unfold sigma; rw [he]; exact Dict.isSome_of_has hb) k hk'
        rw [← hsg, hv] at this
        rw [vecAt_of_attr g0]
        exact z0 k this)
    refine hpost.bind (fun _ u hu => ?_)
    obtain ⟨hl, ⟨g0, g1, g2⟩, htl⟩ := hu
    obtain ⟨R, O0, O1, hnew⟩ := newSupportErrors_total (e := e) hsp g0 g1 g2 htl
    have hshape : R.length = 3 ∧ O0.length = 3 ∧ O1.length = 3 := by
      obtain ⟨-, -, len, -, -, -, rolls, off0, off1, hN⟩ := newSupportErrors_eq_ok hnew
      obtain ⟨x, hx, lx⟩ := hasVec3_iff.1 g0
      obtain ⟨y, hy, ly⟩ := hasVec3_iff.1 g1
      obtain ⟨z, hz, lz⟩ := hasVec3_iff.1 g2
      have e1 := hN.off0At; rw [hx] at e1; cases e1
      have e2 := hN.off1At; rw [hy] at e2; cases e2
      have e3 := hN.rollsAt; rw [hz] at e3; cases e3
      exact ⟨hN.lenR.trans lz, hN.len0.trans lx, hN.len1.trans ly⟩
    have hor : t ++ "Roll" ≠ t ++ "Offset" := by
      have : ∀ t ∈ supportTypes, t ++ "Roll" ≠ t ++ "Offset" := by decide
      exact this t ht
    refine (Settles.rd (P := fun a v => a = (R, O0, O1) ∧ v = u) hnew ⟨rfl, rfl⟩).bind (fun a v hv => ?_)
    obtain ⟨rfl, rfl⟩ := hv
    have k1 : p.1 < v.RING.length := by rw [hl]; exact h1
    have k2 : p.2 < v.RING.length := by rw [hl]; exact h2
    refine (Settles.setAttr (P := fun _ w => w = _) k1 rfl).bind (fun _ w hw => ?_)
    subst hw
    refine (Settles.setAttr (P := fun _ w => w = _) (by simpa [Ring.length_setAttr] using k1) rfl).bind (fun _ w hw => ?_)
    subst hw
    refine Settles.setAttr (by simpa [Ring.length_setAttr] using k2) ⟨?_, ?_, ?_⟩
    · refine hasVec3_iff.2 ⟨O0, ?_, hshape.2.1⟩
      simp only
      rw [Ring.attr_setAttr_ne' hsp.ends, Ring.attr_setAttr_same (by simpa [Ring.length_setAttr] using k1)]
    · refine hasVec3_iff.2 ⟨O1, ?_, hshape.2.2⟩
      exact Ring.attr_setAttr_same (by simpa [Ring.length_setAttr] using k2)
    · refine hasVec3_iff.2 ⟨R, ?_, hshape.1⟩
      simp only
      rw [Ring.attr_setAttr_ne hor, Ring.attr_setAttr_ne hor, Ring.attr_setAttr_same k1]

/-- supports of one type have no common ends -/
def TypedApart (x y : String × (Nat × Nat)) : Prop := x.1 = y.1 → EndsApart x.2 y.2

theorem typedPairs_apart {o : Ords} (h : ∀ t ∈ supportTypes, (o.pairs t).Pairwise EndsApart) : (typedPairs o).Pairwise TypedApart := by
  unfold typedPairs
  rw [List.pairwise_flatMap]
  refine ⟨fun t ht => ?_, ?_⟩
  · rw [List.pairwise_map]
    exact List.Pairwise.imp (S := fun a b => TypedApart (t, a) (t, b)) (fun {p q} hpq _ => hpq) (h t ht)
  · have : supportTypes.Pairwise (· ≠ ·) := by decide
    refine this.imp (fun {t u} htu x hx y hy he => ?_)
    simp only [List.mem_map] at hx hy
    obtain ⟨p, -, rfl⟩ := hx
    obtain ⟨q, -, rfl⟩ := hy
    exact absurd he htu

theorem TypedApart.symm {x y : String × (Nat × Nat)} (h : TypedApart x y) : TypedApart y x := fun he => by
  obtain ⟨a, b, c, d⟩ := h he.symm
  exact ⟨Ne.symm a, Ne.symm c, Ne.symm b, Ne.symm d⟩

theorem TypedApart.drawn {x y : String × (Nat × Nat)} (h : TypedApart x y) (hx : x.1 ∈ supportTypes) (hy : y.1 ∈ supportTypes) {i : Nat} {a : String}
    (h1 : supportDrawn x.1 x.2 i a) : ¬ supportDrawn y.1 y.2 i a := by
  intro h2
  obtain ⟨hi1, ha1⟩ := h1
  obtain ⟨hi2, ha2⟩ := h2
  have hnames : ∀ t ∈ supportTypes, ∀ u ∈ supportTypes, ∀ x ∈ ["Offset", "Roll"], ∀ y ∈ ["Offset", "Roll"],
      t ++ x = u ++ y → t = u := by decide +kernel
  have ht : x.1 = y.1 := by
    rcases ha1 with rfl | rfl <;> rcases ha2 with h | h <;> exact hnames _ hx _ hy _ (by simp) _ (by simp) h
  obtain ⟨e1, e2, e3, e4⟩ := h ht
  rcases hi1 with rfl | rfl <;> rcases hi2 with h | h
  · exact e1 h
  · exact e2 h
  · exact e3 h
  · exact e4 h

theorem SupportShape.congr {r r' : Ring K} {t : String} {p : Nat × Nat} (h : SupportShape r t p)
    (ha : ∀ i a, supportDrawn t p i a → r'.attr i a = r.attr i a) : SupportShape r' t p :=
  ⟨Spec.HasVec3.congr h.1 (ha _ _ ⟨Or.inl rfl, Or.inl rfl⟩), Spec.HasVec3.congr h.2.1 (ha _ _ ⟨Or.inr rfl, Or.inl rfl⟩),
    Spec.HasVec3.congr h.2.2 (ha _ _ ⟨Or.inl rfl, Or.inr rfl⟩)⟩

theorem applySupports_settles {E : Env K} (hE : KeepsDrawing E.randn) {n : K} (hn : n ≠ 0) {s : SC K} (hw : WellRegistered s.SIG)
    (hsp : ∀ tp ∈ typedPairs s.ORD, Span s.RING tp.2) (hfit : ∀ tp ∈ typedPairs s.ORD, SupportFit s tp.1 tp.2)
    (hap : ∀ t ∈ supportTypes, (s.ORD.pairs t).Pairwise EndsApart) :
    Settles Bad (fun f => applySupports (E.passes f) n) s (fun _ u => ∀ tp ∈ typedPairs s.ORD, SupportShape u.RING tp.1 tp.2) := by
  refine (Settles.get (P := fun a u => a = s ∧ u = s) ⟨rfl, rfl⟩).bind (fun _ _ h => ?_)
  obtain ⟨rfl, rfl⟩ := h
  rename_i s
  have hpw := typedPairs_apart hap
  have apart : ∀ x ∈ typedPairs s.ORD, ∀ y ∈ typedPairs s.ORD, x ≠ y → TypedApart x y := by
    intro x hx y hy hne
    have : Std.Symm TypedApart := ⟨fun _ _ h => h.symm⟩
    exact hpw.forall hx hy hne
  have frame : ∀ x ∈ typedPairs s.ORD, ∀ f (u v : SC K), u.SIG = s.SIG → applySupport (E.passes f) n (findspos s.RING) x.1 x.2 u = .ok () v →
      DrawFrame (supportDrawn x.1 x.2) u v := by
    intro x hx f u v hu hf
    have := applySupport_frame (E := E.passes f) (n := n) (sp := findspos s.RING) (p := x.2) (typedPairs_type hx).1 (s := u) (hu ▸ hw)
    rw [hf] at this
    exact this
  refine Settles.mono (P := fun _ u => (u.SIG = s.SIG ∧ u.RING.length = s.RING.length) ∧ ∀ tp ∈ typedPairs s.ORD, SupportShape u.RING tp.1 tp.2) ?_
    (fun _ _ h => h.2)
  refine Settles.forEach_fresh hpw
    (I := fun u : SC K => (u.SIG = s.SIG ∧ u.RING.length = s.RING.length) ∧ ∀ tp ∈ typedPairs s.ORD, SupportShape u.RING tp.1 tp.2)
    (J := fun tp u => ∀ i a, supportDrawn tp.1 tp.2 i a → u.RING.attr i a = s.RING.attr i a) ?_ ?_
    ⟨⟨rfl, rfl⟩, fun tp htp => ⟨(hfit tp htp).startOffset, (hfit tp htp).endOffset, (hfit tp htp).roll⟩⟩ (fun _ _ _ _ _ => rfl)
  · intro x hx u hu hJ
    have := (applySupport_settles (Bad := Bad) hE hn (typedPairs_type hx).1 (hsp x hx) (s := u) (hu.1.1.symm ▸ hw) hu.1.2
      ((hfit x hx).congr hu.1.1 hJ)).post (Q := fun _ v => DrawFrame (supportDrawn x.1 x.2) u v) (fun f _ v hv => frame x hx f u v hu.1.1 hv)
    refine this.mono (fun _ v hv => ⟨⟨hv.2.sig.trans hu.1.1, hv.2.len.trans hu.1.2⟩, fun y hy => ?_⟩)
    by_cases he : y = x
    · rw [he]; exact hv.1
    · exact (hu.2 y hy).congr (fun i a ha => hv.2.attr i a ((apart y hy x hx he).drawn (typedPairs_type hy).1 (typedPairs_type hx).1 ha))
  · intro x hx y hy hxy f u v hu hJ hv i a ha
    rw [(frame x hx f u v hu.1.1 hv).attr i a (hxy.symm.drawn (typedPairs_type hy).1 (typedPairs_type hx).1 ha)]
    exact hJ i a ha
end ord
end PySC
