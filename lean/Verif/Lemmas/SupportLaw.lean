import Verif.Spec.SupportLaw
import Verif.Lemmas.ErrorLaw
import Verif.Lemmas.SupportErrors
import Verif.Lemmas.ApplicableSupports
/-
The calls of `randnc` made for supports (C107).
-/
namespace PySC
open Py Spec
set_option linter.unusedSectionVars false

/-- a loop whose steps make calls with labels -/
theorem forEach_labels {α L : Type} [DecidableEq L] {E : Env ℝ} {f : α → Py (SC ℝ) Unit} {lab : α → List L} {call : L → ℝ × ℕ}
    {I : SC ℝ → Prop} {Pre : α → SC ℝ → Prop} {Q : α → (L → List ℝ) → SC ℝ → Prop} {l : List α} (hl : l.Nodup)
    (hdis : ∀ x ∈ l, ∀ y ∈ l, x ≠ y → ∀ a ∈ lab x, a ∉ lab y)
    (hQ : ∀ x ∈ l, ∀ o o' s, (∀ a ∈ lab x, o a = o' a) → Q x o s → Q x o' s)
    (hI : ∀ x ∈ l, ∀ s s', I s → f x s = .ok () s' → I s')
    (hstep : ∀ x ∈ l, ∀ s s', I s → Pre x s → f x s = .ok () s' →
      ∃ o : L → List ℝ, ReturnsAll E E.randn ((lab x).map call) s.rng ((lab x).map o) s'.rng ∧ Q x o s')
    (hpre : ∀ x ∈ l, ∀ y ∈ l, x ≠ y → ∀ s s', I s → Pre y s → f x s = .ok () s' → Pre y s')
    (hkeep : ∀ x ∈ l, ∀ y ∈ l, x ≠ y → ∀ o s s', I s → Q y o s → f x s = .ok () s' → Q y o s')
    {s s' : SC ℝ} (h0 : I s) (h1 : ∀ x ∈ l, Pre x s) (h : forEach l f s = .ok () s') :
    ∃ o : L → List ℝ, ReturnsAll E E.randn ((l.flatMap lab).map call) s.rng ((l.flatMap lab).map o) s'.rng ∧ ∀ x ∈ l, Q x o s' := by
  induction l generalizing s with
  | nil => simp at h; subst h; exact ⟨fun _ => [], ⟨rfl, rfl⟩, by simp⟩
  | cons x l ih =>
    rw [forEach_cons, bind_eq_ok] at h
    obtain ⟨⟨⟩, s1, g1, g2⟩ := h
    have hx : x ∉ l := (List.nodup_cons.1 hl).1
    have hne : ∀ y ∈ l, x ≠ y := fun y hy e => hx (e ▸ hy)
    obtain ⟨o, hr, hq⟩ := hstep x (by simp) s s1 h0 (h1 x (by simp)) g1
    have hi1 := hI x (by simp) s s1 h0 g1
    obtain ⟨d, hd, hd'⟩ := ih (List.nodup_cons.1 hl).2 (fun y hy z hz => hdis y (by simp [hy]) z (by simp [hz]))
      (fun y hy => hQ y (by simp [hy])) (fun y hy => hI y (by simp [hy])) (fun y hy => hstep y (by simp [hy])) (fun y hy z hz => hpre y (by simp [hy]) z (by simp [hz]))
      (fun y hy z hz => hkeep y (by simp [hy]) z (by simp [hz])) hi1
      (fun y hy => hpre x (by simp) y (by simp [hy]) (hne y hy) s s1 h0 (h1 y (by simp [hy])) g1) g2
    have hq' : I s' ∧ Q x o s' := forEach_inv (I := fun t => I t ∧ Q x o t)
      (fun y hy t t' ht hf => ⟨hI y (by simp [hy]) t t' ht.1 hf, hkeep y (by simp [hy]) x (by simp) (fun e => hne y hy e.symm) o t t' ht.1 ht.2 hf⟩)
      g2 ⟨hi1, hq⟩
    have e1 : ∀ a ∈ lab x, o a = (fun a => if a ∈ lab x then o a else d a) a := fun a ha => (if_pos ha).symm
    have e2 : ∀ y ∈ l, ∀ a ∈ lab y, d a = (fun a => if a ∈ lab x then o a else d a) a := fun y hy a ha =>
      (if_neg (fun hax => hdis x (by simp) y (by simp [hy]) (hne y hy) a hax ha)).symm
    refine ⟨fun a => if a ∈ lab x then o a else d a, ?_, fun y hy => ?_⟩
    · rw [List.flatMap_cons, List.map_append, List.map_append]
      have m1 : (lab x).map (fun a => if a ∈ lab x then o a else d a) = (lab x).map o := List.map_congr_left (fun a ha => (e1 a ha).symm)
      have m2 : (l.flatMap lab).map (fun a => if a ∈ lab x then o a else d a) = (l.flatMap lab).map d :=
        List.map_congr_left (fun a ha => by
          obtain ⟨y, hy, hay⟩ := List.mem_flatMap.1 ha
          exact (e2 y hy a hay).symm)
      rw [m1, m2]
      exact returnsAll_append hr hd
    · rcases List.mem_cons.1 hy with rfl | hy
      · exact hQ _ (by simp) _ _ _ e1 hq'.2
      · exact hQ _ (by simp [hy]) _ _ _ (e2 y hy) (hd' y hy)

/-- the call made for a number of a support -/
noncomputable def callSupport (n : ℝ) (s : SC ℝ) (x : SupportDraw) : ℝ × ℕ :=
  match supportUncertainty s x with
  | some sig => callFor n sig
  | none => (n, 0)

/-- the labels of the calls for one support -/
def supportLabels (s : SC ℝ) (tp : String × (Nat × Nat)) : List SupportDraw :=
  (entries s.SIG.Support tp.2.1).flatMap (fun kv => [⟨tp.1, tp.2, kv.1, false⟩, ⟨tp.1, tp.2, kv.1, true⟩])

/-- what the draws leave at the two ends -/
def EndsMade (r : Ring ℝ) (t : String) (p : Nat × Nat) (kv : String × Attr ℝ) (both : Bool) (o : SupportDraw → List ℝ) : Prop :=
  ∃ e0 e1, r.attr p.1 kv.1 = some e0 ∧ r.attr p.2 kv.1 = some e1 ∧ MadeFrom kv.2 e0 (fun k => (o ⟨t, p, kv.1, false⟩).getD k 0) ∧
    MadeFrom kv.2 e1 (fun k => (o ⟨t, p, kv.1, both⟩).getD k 0)

theorem drawSupport_call {E : Env ℝ} {n : ℝ} {s0 : SC ℝ} (hw : WellRegistered s0.SIG) {t : String} (ht : t ∈ supportTypes) {p : Nat × Nat}
    (hp : p ∈ s0.ORD.pairs t) {kv : String × Attr ℝ} (hs : sigma s0.SIG.Support p.1 kv.1 = some kv.2) {s s' : SC ℝ}
    (h : drawSupport E n t p (s0.SIG.Support.get? p.2) kv s = .ok () s') :
    ∃ o : SupportDraw → List ℝ,
      ReturnsAll E E.randn (([⟨t, p, kv.1, false⟩, ⟨t, p, kv.1, true⟩] : List SupportDraw).map (callSupport n s0)) s.rng
        (([⟨t, p, kv.1, false⟩, ⟨t, p, kv.1, true⟩] : List SupportDraw).map o) s'.rng ∧
      (p.1 ≠ p.2 → (kv.1 = t ++ "Offset" ∨ kv.1 = t ++ "Roll") → EndsMade s'.RING t p kv (endHas s0 p kv.1) o) := by
  have hk := hw.supportNames p.1 kv.1 kv.2 hs
  have hcon := strContains_supports ht hk
  have ht' : t ∈ ["Section", "Plinth", "Girder"] := ht
  have hunc : ∀ b, supportUncertainty s0 ⟨t, p, kv.1, b⟩ =
      if (kv.1 = t ++ "Offset" ∨ kv.1 = t ++ "Roll") ∧ (b = true → endHas s0 p kv.1 = true) then some kv.2 else none := by
    intro b
    unfold supportUncertainty
    simp only [ht', hp, hs, true_and, List.mem_cons, List.not_mem_nil, or_false]
  unfold drawSupport at h
  by_cases hc : strContains t kv.1 = true
  · have hn := hcon.1 hc
    rw [if_pos hc, bind_eq_ok] at h
    obtain ⟨⟨⟩, s1, h1, h2⟩ := h
    obtain ⟨oa, ra, ea, ga, ma⟩ := drawInto_call h1
    have c0 : callSupport n s0 ⟨t, p, kv.1, false⟩ = callFor n kv.2 := by
      unfold callSupport; rw [hunc, if_pos ⟨hn, by simp⟩]
    cases hg : s0.SIG.Support.get? p.2 with
    | none => rw [hg] at h2; cases h2
    | some e =>
      have hend : endHas s0 p kv.1 = e.has kv.1 := by
        unfold endHas sigma; rw [hg, Option.bind_some, Bool.eq_iff_iff, Dict.get?_isSome_iff, Dict.has_iff]
      rw [hg] at h2
      simp only at h2
      split at h2
      · rename_i hb
        obtain ⟨ob, rb, eb, gb, mb⟩ := drawInto_call h2
        have c1 : callSupport n s0 ⟨t, p, kv.1, true⟩ = callFor n kv.2 := by
          unfold callSupport; rw [hunc, if_pos ⟨hn, fun _ => hend.trans hb⟩]
        refine ⟨fun x => if x.atEnd then ob else oa, ?_, fun hne _ => ?_⟩
        · simp only [List.map_cons, List.map_nil, c0, c1]
          exact ⟨oa, s1.rng, _, rfl, ra, ob, s'.rng, _, rfl, rb, rfl, rfl⟩
        · have hfr := (drawInto_rel (W := fun j a => j = p.2 ∧ a = kv.1) ⟨rfl, rfl⟩).ok h2
          refine ⟨ea, eb, ?_, gb, ma, ?_⟩
          · rw [hfr.attr _ _ (fun hh => hne hh.1)]; exact ga
          · rw [hend, hb]; exact mb
      · rename_i hb
        have hb' : endHas s0 p kv.1 = false := by rw [hend]; simpa using hb
        have c1 : callSupport n s0 ⟨t, p, kv.1, true⟩ = (n, 0) := by
          unfold callSupport; rw [hunc, if_neg (fun hh => by rw [hb'] at hh; simp at hh)]
        simp only [bind_eq_ok, rd_eq_ok, Ring.getA_eq_ok, setAttr_eq_ok] at h2
        obtain ⟨v, s2, ⟨hv, hs2⟩, hlt, rfl⟩ := h2
        subst hs2
        rw [ga] at hv
        cases hv
        refine ⟨fun x => if x.atEnd then [] else oa, ?_, fun hne _ => ⟨ea, ea, ?_, Ring.attr_setAttr_same hlt, ma, ?_⟩⟩
        · simp only [List.map_cons, List.map_nil, c0, c1]
          exact ⟨oa, s2.rng, _, rfl, ra, [], s2.rng, _, rfl, returns_none _ _ _ _, rfl, rfl⟩
        · simp only; rw [Ring.attr_setAttr_ne' hne]; exact ga
        · rw [hb']; exact ma
  · rw [if_neg hc] at h
    cases h
    have c : ∀ b, callSupport n s0 ⟨t, p, kv.1, b⟩ = (n, 0) := by
      intro b; unfold callSupport; rw [hunc, if_neg (fun hh => hc (hcon.2 hh.1))]
    refine ⟨fun _ => [], ?_, fun _ hn => absurd (hcon.2 hn) hc⟩
    simp only [List.map_cons, List.map_nil, c]
    exact ⟨[], _, _, rfl, returns_none _ _ _ _, [], _, _, rfl, returns_none _ _ _ _, rfl, rfl⟩

theorem drawSupport_name {E : Env ℝ} {n : ℝ} {t : String} {p : Nat × Nat} {sig1 : Option (Kwargs ℝ)} {kv : String × Attr ℝ} :
    Rel (DrawFrame (fun _ b => b = kv.1)) (drawSupport E n t p sig1 kv) := by
  unfold drawSupport
  split
  · refine Rels.bind (drawInto_rel rfl) (fun _ => ?_)
    split
    · exact Rels.throw _
    · exact Rels.ite (drawInto_rel rfl) (Rels.bind (Rels.rd _) (fun _ => Rels.setAttr (fun _ => DrawFrame.setAttr rfl)))
  · exact Rels.pure' _

theorem drawSupports_calls {E : Env ℝ} {n : ℝ} {s0 : SC ℝ} (hw : WellRegistered s0.SIG) {t : String} (ht : t ∈ supportTypes) {p : Nat × Nat}
    (hp : p ∈ s0.ORD.pairs t) {sig0 : Kwargs ℝ} (hsig : s0.SIG.Support.get? p.1 = some sig0) {s s' : SC ℝ}
    (h : forEach sig0 (drawSupport E n t p (s0.SIG.Support.get? p.2)) s = .ok () s') :
    ∃ o : SupportDraw → List ℝ, ReturnsAll E E.randn ((supportLabels s0 (t, p)).map (callSupport n s0)) s.rng
        ((supportLabels s0 (t, p)).map o) s'.rng ∧
      ∀ kv ∈ sig0, p.1 ≠ p.2 → (kv.1 = t ++ "Offset" ∨ kv.1 = t ++ "Roll") → EndsMade s'.RING t p kv (endHas s0 p kv.1) o := by
  have hnd : sig0.keys.Nodup := hw.supportSingle.2 _ _ hsig
  have hent : entries s0.SIG.Support p.1 = sig0 := by unfold entries; rw [hsig]; rfl
  have hmem : ∀ kv ∈ sig0, sigma s0.SIG.Support p.1 kv.1 = some kv.2 := fun kv hkv =>
    (entries_mem hw.supportSingle).1 (by rw [hent]; exact hkv)
  have hne : ∀ x ∈ sig0, ∀ y ∈ sig0, x ≠ y → x.1 ≠ y.1 := by
    intro x hx y hy hxy e
    have a := hmem x hx
    rw [e, hmem y hy] at a
    exact hxy (Prod.ext e (Option.some.inj a).symm)
  have hl : supportLabels s0 (t, p) = sig0.flatMap (fun kv => [⟨t, p, kv.1, false⟩, ⟨t, p, kv.1, true⟩]) := by
    unfold supportLabels; rw [hent]
  rw [hl]
  refine forEach_labels (I := fun _ => True) (Pre := fun _ _ => True)
    (Q := fun kv o u => p.1 ≠ p.2 → (kv.1 = t ++ "Offset" ∨ kv.1 = t ++ "Roll") → EndsMade u.RING t p kv (endHas s0 p kv.1) o)
    (List.Nodup.of_map _ hnd) ?_ ?_ (fun _ _ _ _ _ _ => trivial) ?_ (fun _ _ _ _ _ _ _ _ _ _ => trivial) ?_ trivial (fun _ _ => trivial) h
  · intro x hx y hy hxy a ha hb
    have := hne x hx y hy hxy
    simp only [List.mem_cons, List.not_mem_nil, or_false] at ha hb
    rcases ha with rfl | rfl <;> rcases hb with hb | hb <;> simp only [SupportDraw.mk.injEq] at hb <;> exact this hb.2.2.1
  · intro x _ o o' u ho hq h1 h2
    obtain ⟨e0, e1, g1, g2, g3, g4⟩ := hq h1 h2
    refine ⟨e0, e1, g1, g2, ?_, ?_⟩
    · rw [← ho _ (by simp)]; exact g3
    · rw [← ho _ (by cases endHas s0 p x.1 <;> simp)]; exact g4
  · intro x hx u u' _ _ hf
    exact drawSupport_call hw ht hp (hmem x hx) hf
  · intro x hx y hy hxy o u u' _ hq hf h1 h2
    obtain ⟨e0, e1, g1, g2, g3, g4⟩ := hq h1 h2
    have hfr := (drawSupport_name (E := E) (n := n)).ok hf
    have := (hne x hx y hy hxy).symm
    exact ⟨e0, e1, by rw [hfr.attr _ _ this]; exact g1, by rw [hfr.attr _ _ this]; exact g2, g3, g4⟩

/-- a support of a given length is made from the numbers `z` -/
structure MadeOf (s : SC ℝ) (r : Ring ℝ) (len : ℝ) (z : SupportDraw → Nat → ℝ) (t : String) (p : Nat × Nat) : Prop where
  roll : coef (vecAt r p.1 (t ++ "Roll")) 0 = drawnAt s z t p (t ++ "Roll") false 0
  vertical : Tilted (drawnAt s z t p (t ++ "Roll") false 1) (drawnAt s z t p (t ++ "Offset") false 1) (drawnAt s z t p (t ++ "Offset") true 1)
    len (coef (vecAt r p.1 (t ++ "Roll")) 1) (coef (vecAt r p.1 (t ++ "Offset")) 1) (coef (vecAt r p.2 (t ++ "Offset")) 1)
  horizontal : Tilted (drawnAt s z t p (t ++ "Roll") false 2) (drawnAt s z t p (t ++ "Offset") false 0) (drawnAt s z t p (t ++ "Offset") true 0)
    len (coef (vecAt r p.1 (t ++ "Roll")) 2) (coef (vecAt r p.1 (t ++ "Offset")) 0) (coef (vecAt r p.2 (t ++ "Offset")) 0)
  longitudinal : coef (vecAt r p.1 (t ++ "Offset")) 2 = drawnAt s z t p (t ++ "Offset") false 2 ∧
    coef (vecAt r p.2 (t ++ "Offset")) 2 = drawnAt s z t p (t ++ "Offset") true 2

theorem made_component {v : Attr ℝ} {w : List ℝ} {z : ℕ → ℝ} (h : MadeFrom v (.vec w) z) (k : ℕ) : coef w k = sigmaComponent v k * z k := by
  have key : ∀ x : List ℝ, (w.length = x.length ∧ ∀ k < x.length, coef w k = coef x k * z k) → coef w k = coef x k * z k := by
    intro x hx
    by_cases hk : k < x.length
    · exact hx.2 k hk
    · have a : coef w k = 0 := by simp [coef, List.getD_eq_getElem?_getD, List.getElem?_eq_none (show w.length ≤ k by omega)]
      have b : coef x k = 0 := by simp [coef, List.getD_eq_getElem?_getD, List.getElem?_eq_none (show x.length ≤ k by omega)]
      rw [a, b, zero_mul]
  cases v with
  | vec x => exact key x h
  | pair x c =>
    cases x with
    | vec x => exact key x h
    | _ => exact h.elim
  | _ => exact h.elim

theorem tilted_of {tilt o0 o1 len x a b : ℝ} {both : Except Err Bool} (h : tiltAndOffsets tilt o0 o1 len both = .ok (x, a, b)) :
    Tilted tilt o0 o1 len x a b := by
  unfold Tilted
  rcases tiltAndOffsets_eq_ok h with ⟨h1, -, h2, h3, h4⟩ | ⟨h1, -, h2, h3, h4⟩
  · rw [if_neg h1]; exact ⟨h2, h3, h4⟩
  · rw [if_pos h1]; exact ⟨h2, h3, h4⟩

theorem applySupport_calls {E : Env ℝ} {n : ℝ} {s0 : SC ℝ} (hw : WellRegistered s0.SIG) {t : String} (ht : t ∈ supportTypes) {p : Nat × Nat}
    (hp : p ∈ s0.ORD.pairs t) {s s' : SC ℝ} (hS : s.SIG = s0.SIG)
    (hpre : ∀ i a, supportDrawn t p i a → s.RING.attr i a = s0.RING.attr i a)
    (h : applySupport E n (findspos s0.RING) t p s = .ok () s') :
    ∃ o : SupportDraw → List ℝ, ReturnsAll E E.randn ((supportLabels s0 (t, p)).map (callSupport n s0)) s.rng
        ((supportLabels s0 (t, p)).map o) s'.rng ∧
      (p.1 ≠ p.2 → p.1 ∈ s0.SIG.Support.keys → MadeOf s0 s'.RING (span s0.RING p) (fun x k => (o x).getD k 0) t p) := by
  unfold applySupport at h
  rw [bind_eq_ok] at h
  obtain ⟨s1, s1', h0, h⟩ := h
  cases h0
  rw [hS] at h
  cases hsig : s0.SIG.Support.get? p.1 with
  | none =>
    rw [hsig] at h
    cases h
    refine ⟨fun _ => [], ?_, fun _ hk => absurd hk (Dict.get?_eq_none_iff.1 hsig)⟩
    have : supportLabels s0 (t, p) = [] := by unfold supportLabels entries; rw [hsig]; rfl
    rw [this]
    exact ⟨rfl, rfl⟩
  | some sig0 =>
    rw [hsig] at h
    simp only [bind_eq_ok, rd_eq_ok, setAttr_eq_ok] at h
    obtain ⟨⟨⟩, s1, h1, ⟨R, O0, O1⟩, s2, ⟨h2, hs2⟩, ⟨⟩, s3, ⟨l3, rfl⟩, ⟨⟩, s4, ⟨l4, rfl⟩, l5, rfl⟩ := h
    subst hs2
    obtain ⟨o, hr, hq⟩ := drawSupports_calls hw ht hp hsig h1
    refine ⟨o, hr, fun hne _ => ?_⟩
    have hnd : sig0.keys.Nodup := hw.supportSingle.2 _ _ hsig
    have hk : ∀ kv ∈ sig0, kv.1 ∈ supportNamesList := by
      intro kv hkv
      refine hw.supportNames p.1 kv.1 kv.2 ((entries_mem hw.supportSingle).1 ?_)
      unfold entries; rw [hsig]; exact hkv
    have hkeep := (drawSupports_ok ht hne hnd hk h1).2
    have hor : t ++ "Roll" ≠ t ++ "Offset" := by
      have : ∀ t ∈ supportTypes, t ++ "Roll" ≠ t ++ "Offset" := by decide
      exact this t ht
    have a1 : ∀ r : Ring ℝ, r = ((s2.RING.setAttr p.1 (t ++ "Roll") (.vec R)).setAttr p.1 (t ++ "Offset") (.vec O0)).setAttr p.2
        (t ++ "Offset") (.vec O1) → r.attr p.1 (t ++ "Roll") = some (.vec R) ∧ r.attr p.1 (t ++ "Offset") = some (.vec O0) ∧
        r.attr p.2 (t ++ "Offset") = some (.vec O1) := by
      rintro r rfl
      refine ⟨?_, ?_, Ring.attr_setAttr_same l5⟩
      · rw [Ring.attr_setAttr_ne hor, Ring.attr_setAttr_ne hor, Ring.attr_setAttr_same l3]
      · rw [Ring.attr_setAttr_ne' hne, Ring.attr_setAttr_same l4]
    obtain ⟨b1, b2, b3⟩ := a1 _ rfl
    have v1 : ∀ {r : Ring ℝ} {i : Nat} {a : String} {w : List ℝ}, r.attr i a = some (.vec w) → vecAt r i a = w := by
      intro r i a w hh; unfold vecAt; rw [hh]
    have drawn0 : ∀ a, (a = t ++ "Offset" ∨ a = t ++ "Roll") → ∀ w k, s2.RING.attr p.1 a = some (.vec w) →
        drawnAt s0 (fun x k => (o x).getD k 0) t p a false k = coef w k := by
      intro a ha w k hw'
      unfold drawnAt
      cases hs : sigma s0.SIG.Support p.1 a with
      | none =>
        have hno : sig0.get? a = none := by unfold sigma at hs; rw [hsig] at hs; exact hs
        simp only [Bool.false_eq_true, if_false]
        rw [v1 (w := w)]
        rw [← hpre _ _ ⟨Or.inl rfl, ha⟩, ← (hkeep a ha).2 hno]
        exact hw'
      | some v =>
        have hm : (a, v) ∈ sig0 := Dict.mem_of_get? (by unfold sigma at hs; rw [hsig] at hs; exact hs)
        obtain ⟨e0, e1, g1, g2, g3, g4⟩ := hq (a, v) hm hne ha
        simp only at g1 g3
        rw [hw'] at g1
        cases g1
        exact (made_component g3 k).symm
    have drawn1 : ∀ a, (a = t ++ "Offset" ∨ a = t ++ "Roll") → ∀ w k, s2.RING.attr p.2 a = some (.vec w) →
        drawnAt s0 (fun x k => (o x).getD k 0) t p a true k = coef w k := by
      intro a ha w k hw'
      unfold drawnAt
      cases hs : sigma s0.SIG.Support p.1 a with
      | none =>
        have hno : sig0.get? a = none := by unfold sigma at hs; rw [hsig] at hs; exact hs
        simp only [if_true]
        rw [v1 (w := w)]
        rw [← hpre _ _ ⟨Or.inr rfl, ha⟩, ← (hkeep a ha).2 hno]
        exact hw'
      | some v =>
        have hm : (a, v) ∈ sig0 := Dict.mem_of_get? (by unfold sigma at hs; rw [hsig] at hs; exact hs)
        obtain ⟨e0, e1, g1, g2, g3, g4⟩ := hq (a, v) hm hne ha
        simp only at g2 g4
        rw [hw'] at g2
        cases g2
        exact (made_component g4 k).symm
    obtain ⟨q0, q1, len, c0, c1, c2, rolls, off0, off1, N⟩ := newSupportErrors_eq_ok h2
    rw [findspos_get] at c0 c1
    rw [findspos_last, c0.2, c1.2] at c2
    have hlen : len = span s0.RING p := by
      unfold npRemainder at c2
      split at c2
      · cases c2
      · rename_i hC
        cases c2
        unfold span Int.fract
        field_simp
    subst hlen
    obtain ⟨x, a, b, y1, y2, y3, y4⟩ := N.pitch
    obtain ⟨x', a', b', y1', y2', y3', y4'⟩ := N.yaw
    have d1 := fun k => drawn0 _ (Or.inr rfl) _ k N.rollsAt
    have d2 := fun k => drawn0 _ (Or.inl rfl) _ k N.off0At
    have d3 := fun k => drawn1 _ (Or.inl rfl) _ k N.off1At
    refine ⟨?_, ?_, ?_, ?_⟩
    · rw [v1 b1, d1]; exact N.roll
    · rw [v1 b1, v1 b2, v1 b3, d1, d2, d3, y2, y3, y4]; exact tilted_of y1
    · rw [v1 b1, v1 b2, v1 b3, d1, d2, d3, y2', y3', y4']; exact tilted_of y1'
    · rw [v1 b2, v1 b3, d2, d3]
      exact ⟨N.rest0 2 (by omega), N.rest1 2 (by omega)⟩

theorem MadeOf.congr {s : SC ℝ} {r r' : Ring ℝ} {len : ℝ} {z w : SupportDraw → Nat → ℝ} {t : String} {p : Nat × Nat} (h : MadeOf s r len z t p)
    (h0 : ∀ i a, supportDrawn t p i a → r'.attr i a = r.attr i a)
    (hz : ∀ name ∈ [t ++ "Offset", t ++ "Roll"], ∀ b k, drawnAt s w t p name b k = drawnAt s z t p name b k) : MadeOf s r' len w t p := by
  have e : ∀ i a, supportDrawn t p i a → vecAt r' i a = vecAt r i a := fun i a hia => by unfold vecAt; rw [h0 i a hia]
  have e1 := e p.1 (t ++ "Roll") ⟨Or.inl rfl, Or.inr rfl⟩
  have e2 := e p.1 (t ++ "Offset") ⟨Or.inl rfl, Or.inl rfl⟩
  have e3 := e p.2 (t ++ "Offset") ⟨Or.inr rfl, Or.inl rfl⟩
  have z1 := hz (t ++ "Offset") (by simp)
  have z2 := hz (t ++ "Roll") (by simp)
  refine ⟨?_, ?_, ?_, ?_⟩
  · rw [e1, z2]; exact h.roll
  · rw [e1, e2, e3, z1, z1, z2]; exact h.vertical
  · rw [e1, e2, e3, z1, z1, z2]; exact h.horizontal
  · rw [e2, e3, z1, z1]; exact h.longitudinal

theorem drawnAt_congr {s : SC ℝ} (hw : WellRegistered s.SIG) {z w : SupportDraw → Nat → ℝ} {t : String} (ht : t ∈ supportTypes) {p : Nat × Nat}
    (hp : p ∈ s.ORD.pairs t) (hz : ∀ x sig, supportUncertainty s x = some sig → x.type = t → x.support = p → ∀ k < numbersFor sig, w x k = z x k) :
    ∀ name ∈ [t ++ "Offset", t ++ "Roll"], ∀ b k, drawnAt s w t p name b k = drawnAt s z t p name b k := by
  intro name hn b k
  unfold drawnAt
  cases hs : sigma s.SIG.Support p.1 name with
  | none => rfl
  | some sig =>
    simp only
    have hu : supportUncertainty s ⟨t, p, name, b && endHas s p name⟩ = some sig := by
      unfold supportUncertainty
      rw [if_pos]
      · exact hs
      · exact ⟨ht, hp, hn, by cases b <;> simp⟩
    have zero : ∀ v : List ℝ, ¬ k < v.length → coef v k = 0 := fun v hv => by
      simp [coef, List.getD_eq_getElem?_getD, List.getElem?_eq_none (show v.length ≤ k by omega)]
    by_cases hk : k < numbersFor sig
    · rw [hz _ sig hu rfl rfl k hk]
    · have : sigmaComponent sig k = 0 := by
        cases sig with
        | vec v => exact zero v hk
        | pair v c =>
          cases v with
          | vec v => exact zero v hk
          | _ => rfl
        | _ => rfl
      rw [this, zero_mul, zero_mul]

theorem supportLabels_of {s : SC ℝ} {tp : String × (Nat × Nat)} {a : SupportDraw} (h : a ∈ supportLabels s tp) : a.type = tp.1 ∧ a.support = tp.2 := by
  unfold supportLabels at h
  simp only [List.mem_flatMap, List.mem_cons, List.not_mem_nil, or_false] at h
  obtain ⟨kv, -, rfl | rfl⟩ := h <;> exact ⟨rfl, rfl⟩

theorem mem_ownLabels {s : SC ℝ} (hw : WellRegistered s.SIG) {x : SupportDraw} {sig : Attr ℝ} (h : supportUncertainty s x = some sig) :
    x ∈ supportLabels s (x.type, x.support) := by
  unfold supportUncertainty at h
  split at h
  · unfold supportLabels
    refine List.mem_flatMap.2 ⟨(x.name, sig), (entries_mem hw.supportSingle).2 h, ?_⟩
    obtain ⟨t, p, name, b⟩ := x
    cases b <;> simp
  · cases h

theorem mem_supportLabels {s : SC ℝ} (hw : WellRegistered s.SIG) {x : SupportDraw} {sig : Attr ℝ} (h : supportUncertainty s x = some sig) :
    x ∈ (typedPairs s.ORD).flatMap (supportLabels s) := by
  refine List.mem_flatMap.2 ⟨(x.type, x.support), ?_, mem_ownLabels hw h⟩
  unfold supportUncertainty at h
  split at h
  · rename_i hx
    unfold typedPairs
    exact List.mem_flatMap.2 ⟨x.type, hx.1, List.mem_map.2 ⟨x.support, hx.2.1, rfl⟩⟩
  · cases h

theorem typedApart_of {o : Ords} (h : ∀ t ∈ supportTypes, (o.pairs t).Pairwise EndsApart) {x y : String × (Nat × Nat)} (hx : x ∈ typedPairs o)
    (hy : y ∈ typedPairs o) (hne : x ≠ y) : TypedApart x y := by
  have : Std.Symm TypedApart := ⟨fun a b hab e => by
    obtain ⟨h1, h2, h3, h4⟩ := hab e.symm
    exact ⟨h1.symm, h3.symm, h2.symm, h4.symm⟩⟩
  exact (typedPairs_apart h).forall hx hy hne

theorem typedPairs_nodup_of {o : Ords} (h : ∀ t ∈ supportTypes, (o.pairs t).Pairwise EndsApart) : (typedPairs o).Nodup :=
  (typedPairs_apart h).imp (fun {x y} hxy (e : x = y) => (hxy (by rw [e])).1 (by rw [e]))

theorem supportDrawn_of_apart {o : Ords} (hL : ∀ t ∈ supportTypes, (o.pairs t).Pairwise EndsApart) {tp tq : String × (Nat × Nat)}
    (hp : tp ∈ typedPairs o) (hq : tq ∈ typedPairs o) (hne : tp ≠ tq) {i : Nat} {a : String} (h1 : supportDrawn tp.1 tp.2 i a) :
    ¬ supportDrawn tq.1 tq.2 i a := by
  intro h2
  obtain ⟨t1, -⟩ := typedPairs_type hp
  obtain ⟨t2, -⟩ := typedPairs_type hq
  obtain ⟨hi1, ha1⟩ := h1
  obtain ⟨hi2, ha2⟩ := h2
  have hnames : ∀ t ∈ supportTypes, ∀ u ∈ supportTypes, ∀ x ∈ ["Offset", "Roll"], ∀ y ∈ ["Offset", "Roll"],
      t ++ x = u ++ y → t = u := by decide +kernel
  have ht : tp.1 = tq.1 := by
    rcases ha1 with rfl | rfl <;> rcases ha2 with h | h <;> exact hnames _ t1 _ t2 _ (by simp) _ (by simp) h
  obtain ⟨e1, e2, e3, e4⟩ := typedApart_of hL hp hq hne ht
  rcases hi1 with rfl | rfl <;> rcases hi2 with h | h
  · exact e1 h
  · exact e2 h
  · exact e3 h
  · exact e4 h

theorem applySupports_calls {E : Env ℝ} {n : ℝ} {s s' : SC ℝ} (hw : WellRegistered s.SIG)
    (hL : ∀ t ∈ supportTypes, (s.ORD.pairs t).Pairwise EndsApart)
    (h : applySupports E n s = .ok () s') :
    ∃ o : SupportDraw → List ℝ, ReturnsAll E E.randn (((typedPairs s.ORD).flatMap (supportLabels s)).map (callSupport n s)) s.rng
        (((typedPairs s.ORD).flatMap (supportLabels s)).map o) s'.rng ∧
      ∀ tp ∈ typedPairs s.ORD, tp.2.1 ≠ tp.2.2 → tp.2.1 ∈ s.SIG.Support.keys →
        MadeOf s s'.RING (span s.RING tp.2) (fun x k => (o x).getD k 0) tp.1 tp.2 := by
  unfold applySupports at h
  rw [bind_eq_ok] at h
  obtain ⟨s0, s0', h0, h⟩ := h
  cases h0
  have hI : ∀ tp ∈ typedPairs s.ORD, ∀ u u' : SC ℝ, u.SIG = s.SIG → applySupport E n (findspos s.RING) tp.1 tp.2 u = .ok () u' →
      DrawFrame (supportDrawn tp.1 tp.2) u u' := by
    intro tp htp u u' hu hf
    have := applySupport_frame (E := E) (n := n) (sp := findspos s.RING) (p := tp.2) (typedPairs_type htp).1 (s := u) (hu ▸ hw)
    rw [hf] at this
    exact this
  refine forEach_labels (I := fun u => u.SIG = s.SIG) (Pre := fun tp u => ∀ i a, supportDrawn tp.1 tp.2 i a → u.RING.attr i a = s.RING.attr i a)
    (Q := fun tp o u => tp.2.1 ≠ tp.2.2 → tp.2.1 ∈ s.SIG.Support.keys →
        MadeOf s u.RING (span s.RING tp.2) (fun x k => (o x).getD k 0) tp.1 tp.2)
    (typedPairs_nodup_of hL) ?_ ?_ (fun tp htp u u' hu hf => (hI tp htp u u' hu hf).sig.trans hu) ?_ ?_ ?_ rfl (fun _ _ _ _ _ => rfl) h
  · intro x hx y hy hxy a ha hb
    obtain ⟨a1, a2⟩ := supportLabels_of ha
    obtain ⟨b1, b2⟩ := supportLabels_of hb
    exact hxy (Prod.ext (a1.symm.trans b1) (a2.symm.trans b2))
  · intro tp htp o o' u ho hq h1 h2
    obtain ⟨t1, t2⟩ := typedPairs_type htp
    refine (hq h1 h2).congr (fun _ _ _ => rfl) (drawnAt_congr hw t1 t2 (fun x sig hx e1 e2 k _ => ?_))
    have := mem_ownLabels hw hx
    rw [e1, e2] at this
    rw [ho x this]
  · intro tp htp u u' hu hpre hf
    obtain ⟨t1, t2⟩ := typedPairs_type htp
    exact applySupport_calls hw t1 t2 hu hpre hf
  · intro tq htq tp htp hne u u' hu hQ hf i a ha
    rw [(hI tq htq u u' hu hf).attr i a (supportDrawn_of_apart hL htp htq (Ne.symm hne) ha)]
    exact hQ i a ha
  · intro tq htq tp htp hne o u u' hu hP hf h1 h2
    exact (hP h1 h2).congr (fun i a ha => (hI tq htq u u' hu hf).attr i a (supportDrawn_of_apart hL htp htq (Ne.symm hne) ha)) (fun _ _ _ _ => rfl)

/-- all origins, in the order in which `apply_errors` draws their numbers -/
def origins (s : SC ℝ) : List Origin := (causes s).map Sum.inl ++ ((typedPairs s.ORD).flatMap (supportLabels s)).map Sum.inr

/-- the call made for an origin -/
noncomputable def callBehind (n : ℝ) (s : SC ℝ) : Origin → ℝ × ℕ
  | .inl x => callOf n s x
  | .inr x => callSupport n s x

theorem callBehind_cut (n : ℝ) (s : SC ℝ) (x : Origin) : (callBehind n s x).1 = cutoffBehind n s x := by
  cases x with
  | inl x => exact callOf_cut n s x
  | inr x =>
    change (callSupport n s x).1 = _
    unfold callSupport cutoffBehind
    simp only [uncertaintyBehind]
    cases supportUncertainty s x with
    | some sig => exact callFor_cut _ _
    | none => rfl

theorem callBehind_numbers (n : ℝ) (s : SC ℝ) {x : Origin} {sig : Attr ℝ} (h : uncertaintyBehind s x = some sig) :
    numbersFor sig ≤ (callBehind n s x).2 := by
  cases x with
  | inl x =>
    change uncertaintyOf s x = some sig at h
    change _ ≤ (callOf n s x).2
    unfold callOf
    rw [h]
    exact callFor_numbers n sig
  | inr x =>
    change supportUncertainty s x = some sig at h
    change _ ≤ (callSupport n s x).2
    unfold callSupport
    rw [h]
    exact callFor_numbers n sig

theorem mem_origins {s : SC ℝ} (hw : WellRegistered s.SIG) {x : Origin} {sig : Attr ℝ} (h : uncertaintyBehind s x = some sig) : x ∈ origins s := by
  unfold origins
  cases x with
  | inl x => exact List.mem_append_left _ (List.mem_map.2 ⟨x, mem_causes hw h, rfl⟩)
  | inr x => exact List.mem_append_right _ (List.mem_map.2 ⟨x, mem_supportLabels hw h, rfl⟩)

theorem applyErrors_allCalls {E : Env ℝ} {n : ℝ} {s s' : SC ℝ} (ht : Tidy s.ORD) (hw : WellRegistered s.SIG)
    (hL : ∀ t ∈ supportTypes, (s.ORD.pairs t).Pairwise EndsApart) (hz : s.SIG.staticInjectionZ.length = 6) (h : applyErrors E n s = .ok () s') :
    ∃ o : Origin → List ℝ, ReturnsAll E E.randn ((origins s).map (callBehind n s)) s.rng ((origins s).map o) s'.rng ∧
      ErrorsMadeFrom s s' (fun x k => (o (.inl x)).getD k 0) ∧ SupportsMadeFrom s s' (fun x k => (o (.inr x)).getD k 0) := by
  obtain ⟨s1, s2, s3, s4, s5, s6, s7, s8, h1, h2, h3, h4, h5, h6, h7, h8, h9⟩ := applyErrors_eq_ok h
  obtain ⟨o1, r1, m1⟩ := stages_calls ht hw hz h1 h2 h3 h4 h5 h6 h7 h8 h9
  have f1 := applyRf_frame (E := E) (n := n) hw
  rw [h1] at f1
  have w1 : WellRegistered s1.SIG := f1.sig ▸ hw
  have f2 := applyBpm_frame (E := E) (n := n) w1
  rw [h2] at f2
  have w2 : WellRegistered s2.SIG := f2.sig ▸ w1
  have f3 := applyMagnet_frame (E := E) (n := n) w2
  rw [h3] at f3
  have w3 : WellRegistered s3.SIG := f3.sig ▸ w2
  simp only [Res.state] at f1 f2 f3
  have f4 := (applyInjection_frame E n).ok h4
  have f5 := (applyCircumference_frame E n).ok h5
  have f6 := applySupports_frame (E := E) (n := n) (s := s5) (by rw [f5.sig, f4.sig]; exact w3)
  rw [h6] at f6
  simp only [Res.state] at f6
  have f7 := (updateSupports_frame E true true).ok h7
  have f8 := (Rels.when (updateMagnets_modifies none)).ok h8
  have f9 := (Rels.when (updateCavities_frame none)).ok h9
  have e5 : s5.SIG = s.SIG := by rw [f5.sig, f4.sig, f3.sig, f2.sig, f1.sig]
  have o5 : s5.ORD = s.ORD := by rw [f5.ord, f4.ord, f3.ord, f2.ord, f1.ord]
  have before : ∀ i a, a ∈ supportNamesList → s5.RING.attr i a = s.RING.attr i a := by
    intro i a ha
    have k : ∀ a ∈ supportNamesList, a ≠ "Length" ∧ a ∉ magnetNamesList.map magnetAttrOf ∧ a ∉ bpmNamesList.map id ∧ a ∉ rfNamesList.map id := by
      decide +kernel
    obtain ⟨k1, k2, k3, k4⟩ := k a ha
    rw [f5.attr _ _ k1, f4.attr _ _ (fun h => h), f3.attr _ _ (fun h => k2 (drawn_name w2.magnetNames h)),
      f2.attr _ _ (fun h => k3 (drawn_name w1.bpmNames h)), f1.attr _ _ (fun h => k4 (drawn_name hw.rfNames h))]
  have after : ∀ i a, a ∈ "Length" :: supportNamesList → s'.RING.attr i a = s6.RING.attr i a := by
    intro i a ha
    have k : ∀ a ∈ "Length" :: supportNamesList, a ∉ supportWrites ∧ a ∉ magnetWrites ∧ a ∉ rfProperties := by decide +kernel
    obtain ⟨k1, k2, k3⟩ := k a ha
    rw [f9.attr _ _ k3, f8.attr _ _ k2, f7.attr _ _ k1]
  have hlen : s'.RING.length = s5.RING.length := by rw [f9.len, f8.len, f7.len, f6.len]
  have hpos : ∀ k, sPos s'.RING k = sPos s5.RING k := fun k => sPos_congr (fun i => by
    rw [after i _ (by simp), f6.attr i _ (fun hh => absurd (supportDrawn_name hh) (by decide))]) k
  have hspan : ∀ p, span s5.RING p = span s'.RING p := by
    intro p
    unfold span circumference
    rw [hlen, hpos, hpos, hpos]
  obtain ⟨o2, r2, m2⟩ := applySupports_calls (s := s5) (by rw [e5]; exact hw) (by rw [o5]; exact hL) h6
  have hlab : supportLabels s5 = supportLabels s := by
    funext tp; unfold supportLabels; rw [e5]
  have hcall : callSupport n s5 = callSupport n s := by
    funext x; unfold callSupport supportUncertainty endHas; rw [e5, o5]
  rw [hlab, hcall, o5] at r2
  have hrng : s'.rng = s6.rng := by rw [f9.rng, f8.rng, f7.rng]
  refine ⟨fun x => match x with | .inl x => o1 x | .inr x => o2 x, ?_, m1, ?_⟩
  · rw [hrng]
    unfold origins
    simp only [List.map_append, List.map_map]
    exact returnsAll_append r1 r2
  · intro t htt p hp hne hk
    have htp : (t, p) ∈ typedPairs s5.ORD := by
      rw [o5]; unfold typedPairs
      exact List.mem_flatMap.2 ⟨t, htt, List.mem_map.2 ⟨p, hp, rfl⟩⟩
    have hn : ∀ i a, supportDrawn t p i a → a ∈ supportNamesList := fun i a ha =>
      supportDrawn_name (o := s5.ORD) (i := i) ⟨(t, p), htp, ha⟩
    have M := m2 (t, p) htp hne (by rw [e5]; exact hk)
    simp only at M
    rw [hspan] at M
    have hd : ∀ name ∈ [t ++ "Offset", t ++ "Roll"], ∀ b k, drawnAt s (fun x k => (o2 x).getD k 0) t p name b k =
        drawnAt s5 (fun x k => (o2 x).getD k 0) t p name b k := by
      intro name hname b k
      have hm : name ∈ supportNamesList := hn p.1 name ⟨Or.inl rfl, by simpa using hname⟩
      unfold drawnAt endHas vecAt
      rw [e5, before _ _ hm]
    have M' := M.congr (r' := s'.RING) (w := fun x k => (o2 x).getD k 0)
      (fun i a ha => after i a (List.mem_cons_of_mem _ (hn i a ha))) (fun _ _ _ _ => rfl)
    have z1 := hd (t ++ "Offset") (by simp)
    have z2 := hd (t ++ "Roll") (by simp)
    refine ⟨?_, ?_, ?_, ?_⟩
    · rw [z2]; exact M'.roll
    · rw [z1, z1, z2]; exact M'.vertical
    · rw [z1, z1, z2]; exact M'.horizontal
    · rw [z1, z1]; exact M'.longitudinal

theorem SupportsMadeFrom.congr {s s' : SC ℝ} (hw : WellRegistered s.SIG) {z w : SupportDraw → ℕ → ℝ} (h : SupportsMadeFrom s s' z)
    (hzw : ∀ x sig, supportUncertainty s x = some sig → ∀ k < numbersFor sig, z x k = w x k) : SupportsMadeFrom s s' w := by
  intro t ht p hp hne hk
  have M := h t ht p hp hne hk
  have hd := drawnAt_congr hw (t := t) ht hp (fun x sig hx _ _ k hk => (hzw x sig hx k hk).symm)
  have z1 := hd (t ++ "Offset") (by simp)
  have z2 := hd (t ++ "Roll") (by simp)
  refine ⟨?_, ?_, ?_, ?_⟩
  · rw [z2]; exact M.roll
  · rw [z1, z1, z2]; exact M.vertical
  · rw [z1, z1, z2]; exact M.horizontal
  · rw [z1, z1]; exact M.longitudinal

section law
open MeasureTheory ProbabilityTheory
variable {Ω : Type} [MeasurableSpace Ω] {P : Measure Ω} [IsProbabilityMeasure P]

theorem applyErrors_wholeLaw (E : Env ℝ) {X : ℕ → Ω → ℝ} (hX : StandardNormal P X) (n : ℝ) (s : SC ℝ) (ht : Tidy s.ORD)
    (hw : WellRegistered s.SIG) (hL : ∀ t ∈ supportTypes, (s.ORD.pairs t).Pairwise EndsApart) (h6 : s.SIG.staticInjectionZ.length = 6) (hn : n ≠ 0)
    (hc : ∀ x sig, uncertaintyBehind s x = some sig → cutoffFor n sig ≠ 0) :
    ∃ Z : Origin → ℕ → Ω → ℝ,
      IndependentWithLaws P (fun c : OriginComponent s => Z c.1.1 c.1.2) (fun c => truncatedNormal (cutoffBehind n s c.1.1)) ∧
      ∀ ω fuel s', applyErrors { E with randn := fun k => X k ω, fuel := fuel } n s = .ok () s' →
        ErrorsMadeFrom s s' (fun x k => Z (.inl x) k ω) ∧ SupportsMadeFrom s s' (fun x k => Z (.inr x) k ω) := by
  have hcut : ∀ x, cutoffBehind n s x ≠ 0 := by
    intro x
    unfold cutoffBehind
    split
    · rename_i sig hs; exact hc x sig hs
    · exact hn
  obtain ⟨Z, h1, h2⟩ := labelled_law (P := P) (origins s) (callBehind n s) (μ := gaussianReal 0 1)
    (fun x _ => by rw [callBehind_cut]; exact gaussian_within_pos (hcut x)) E hX s.rng
  refine ⟨Z, ?_, fun ω fuel s' h => ?_⟩
  · have := h1 (fun c : OriginComponent s => c.1) Subtype.val_injective (fun c => by
      obtain ⟨sig, hs, hk⟩ := c.2
      exact ⟨mem_origins hw hs, lt_of_lt_of_le hk (callBehind_numbers n s hs)⟩)
    simp only [callBehind_cut] at this
    exact this
  · obtain ⟨o, hr, hm, hm'⟩ := applyErrors_allCalls ht hw hL h6 h
    have key : ∀ x sig, uncertaintyBehind s x = some sig → ∀ k < numbersFor sig, (o x).getD k 0 = Z x k ω := fun x sig hs k hk =>
      h2 ω o _ (returnsAll_env hr) x (mem_origins hw hs) k (lt_of_lt_of_le hk (callBehind_numbers n s hs))
    exact ⟨ErrorsMadeFrom.congr h6 hm (fun x sig hs => key (.inl x) sig hs), SupportsMadeFrom.congr hw hm' (fun x sig hs => key (.inr x) sig hs)⟩

end law
end PySC
