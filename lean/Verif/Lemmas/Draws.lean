import Verif.Lemmas.SupportErrors
import Verif.Lemmas.LocoWrapper
import Verif.Spec.Draws
/-
Which random numbers are behind which error.
-/
namespace PySC
open Py Spec
set_option linter.unusedSectionVars false
variable {K : Type} [Field K] [LinearOrder K]

/-- positions of random numbers drawn between two states -/
def Between (s s' : SC K) (qs : List Nat) : Prop := qs.Nodup ∧ ∀ q ∈ qs, s.rng ≤ q ∧ q < s'.rng

theorem Between.nil (s s' : SC K) : Between s s' [] := ⟨List.nodup_nil, fun _ h => by cases h⟩

/-- a loop whose steps each draw their own random numbers -/
theorem forEach_draws {α : Type} {f : α → Py (SC K) Unit} {P : α → List Nat → SC K → Prop} {l : List α} (hl : l.Nodup)
    (hstep : ∀ x ∈ l, ∀ s s', f x s = .ok () s' → s.rng ≤ s'.rng ∧ ∃ qs, P x qs s' ∧ Between s s' qs)
    (hkeep : ∀ x ∈ l, ∀ y ∈ l, x ≠ y → ∀ qs s s', P y qs s → f x s = .ok () s' → P y qs s')
    {s s' : SC K} (h : forEach l f s = .ok () s') :
    s.rng ≤ s'.rng ∧ ∃ d : α → List Nat, (∀ x ∈ l, P x (d x) s' ∧ Between s s' (d x)) ∧
      ∀ x ∈ l, ∀ y ∈ l, x ≠ y → ∀ q ∈ d x, q ∉ d y := by
  classical
  induction l generalizing s with
  | nil => simp at h; subst h; exact ⟨le_refl _, fun _ => [], by simp, by simp⟩
  | cons x l ih =>
    rw [forEach_cons, bind_eq_ok] at h
    obtain ⟨⟨⟩, s1, h1, h2⟩ := h
    obtain ⟨m1, qs, hP, hq⟩ := hstep x (by simp) s s1 h1
    obtain ⟨m2, d, hd, hdis⟩ := ih (List.nodup_cons.1 hl).2 (fun y hy => hstep y (by simp [hy]))
      (fun y hy z hz => hkeep y (by simp [hy]) z (by simp [hz])) h2
    have hx : x ∉ l := (List.nodup_cons.1 hl).1
    have hP' : P x qs s' := forEach_inv (I := fun t => P x qs t)
      (fun y hy t t' ht hf => hkeep y (by simp [hy]) x (by simp) (fun e => hx (e ▸ hy)) qs t t' ht hf) h2 hP
    refine ⟨m1.trans m2, fun y => if y = x then qs else d y, fun y hy => ?_, fun y hy z hz hyz q hqy hqz => ?_⟩
    · by_cases e : y = x
      · subst e
        simp only [if_true]
        exact ⟨hP', hq.1, fun q h => ⟨(hq.2 q h).1, lt_of_lt_of_le (hq.2 q h).2 m2⟩⟩
      · have hy' : y ∈ l := (List.mem_cons.1 hy).resolve_left e
        simp only [if_neg e]
        exact ⟨(hd y hy').1, (hd y hy').2.1, fun q h => ⟨m1.trans ((hd y hy').2.2 q h).1, ((hd y hy').2.2 q h).2⟩⟩
    · by_cases e : y = x
      · have e' : z ≠ x := fun h => hyz (e.trans h.symm)
        have hz' : z ∈ l := (List.mem_cons.1 hz).resolve_left e'
        simp only [if_pos e] at hqy
        simp only [if_neg e'] at hqz
        exact absurd (hq.2 q hqy).2 (not_lt.2 ((hd z hz').2.2 q hqz).1)
      · have hy' : y ∈ l := (List.mem_cons.1 hy).resolve_left e
        simp only [if_neg e] at hqy
        by_cases e' : z = x
        · simp only [if_pos e'] at hqz
          exact absurd (hq.2 q hqz).2 (not_lt.2 ((hd y hy').2.2 q hqy).1)
        · simp only [if_neg e'] at hqz
          exact hdis y hy' z ((List.mem_cons.1 hz).resolve_left e') hyz q hqy hqz

theorem forEach_pairs {σ α β : Type _} (l : List α) (g : α → List β) (f : α → β → Py σ Unit) :
    forEach l (fun a => forEach (g a) (f a)) = forEach (l.flatMap (fun a => (g a).map (fun b => (a, b)))) (fun p => f p.1 p.2) := by
  induction l with
  | nil => rfl
  | cons a l ih => rw [List.flatMap_cons, forEach_append, forEach_cons, ih, forEach_map]

theorem scaledRandn_drawn {E : Env K} {cut : K} {sig err : Attr K} {s s' : SC K} (h : scaledRandn E cut sig s = .ok err s') :
    s.rng ≤ s'.rng ∧ s' = { s with rng := s'.rng } ∧ ∃ qs, ScaledDraw E.randn sig err qs ∧ Between s s' qs := by
  unfold scaledRandn at h
  split at h
  · rename_i x
    rw [bind_eq_ok] at h
    obtain ⟨z, s1, h1, h2⟩ := h
    obtain ⟨pos, h3, rfl⟩ := randnc_eq_ok.1 h1
    cases h2
    obtain ⟨hz, hlen, hp, qs, rfl, hn, hq⟩ := randncFrom_eq_ok h3
    rw [List.length_map] at hlen
    obtain ⟨q, rfl⟩ := List.length_eq_one_iff.1 hlen
    exact ⟨by simp only; omega, rfl, [q], ⟨q, rfl, rfl⟩, hn, hq⟩
  · rename_i v
    rw [bind_eq_ok] at h
    obtain ⟨z, s1, h1, h2⟩ := h
    obtain ⟨pos, h3, rfl⟩ := randnc_eq_ok.1 h1
    cases h2
    obtain ⟨hz, hlen, hp, qs, rfl, hn, hq⟩ := randncFrom_eq_ok h3
    rw [List.length_map] at hlen
    have hle : v.length ≤ qs.length := by rw [hlen]; split <;> omega
    refine ⟨by simp only; omega, rfl, qs.take v.length, ⟨by simp [hle], by simp [hle], fun k hk => ?_⟩, hn.sublist (List.take_sublist _ _),
      fun q h => hq q (List.mem_of_mem_take h)⟩
    simp only [List.length_take, lt_min_iff] at hk
    unfold coef
    rw [List.getD_eq_getElem?_getD, List.getElem?_zipWith, List.getD_eq_getElem?_getD, List.getElem?_eq_getElem hk.1,
      List.getElem?_map, List.getElem?_eq_getElem hk.2]
    simp
  · cases h

theorem drawInto_drawn {E : Env K} {c : K} {i : Nat} {n : String} {sig : Attr K} {s s' : SC K} (h : drawInto E c i n sig s = .ok () s') :
    s.rng ≤ s'.rng ∧ ∃ qs, (∃ err, s'.RING.attr i n = some err ∧ DrawnAs E.randn sig err qs) ∧ Between s s' qs := by
  unfold drawInto at h
  rw [bind_eq_ok] at h
  obtain ⟨v, s1, h1, h2⟩ := h
  obtain ⟨hlt, rfl⟩ := setAttr_eq_ok.1 h2
  have key : s.rng ≤ s1.rng ∧ s1 = { s with rng := s1.rng } ∧ ∃ qs, DrawnAs E.randn sig v qs ∧ Between s s1 qs := by
    unfold randnCutoff at h1
    unfold DrawnAs
    cases sig <;> exact scaledRandn_drawn h1
  obtain ⟨m, -, qs, hd, hb⟩ := key
  exact ⟨m, qs, ⟨v, Ring.attr_setAttr_same hlt, hd⟩, hb⟩

/-- the loops over the registered uncertainties of one kind -/
theorem drawLoop_drawn {ords : List Nat} (ho : ords.Nodup) {d : Dict Nat (Kwargs K)} (hd : SingleEntries d) {attrOf : String → String}
    {names : List String} (hn : OnlyNames d names) (hinj : ∀ m ∈ names, ∀ n ∈ names, attrOf m = attrOf n → m = n)
    {f : Nat → String × Attr K → Py (SC K) Unit} {Q : String → Attr K → Attr K → List Nat → Prop}
    (hf : ∀ i kv, Rel (DrawFrame (fun j a => j = i ∧ a = attrOf kv.1)) (f i kv))
    (hQ : ∀ i kv s s', f i kv s = .ok () s' → s.rng ≤ s'.rng ∧ ∃ qs,
      (∃ err, s'.RING.attr i (attrOf kv.1) = some err ∧ Q kv.1 kv.2 err qs) ∧ Between s s' qs)
    {s s' : SC K} (h : forEach (intersect ords d.keys) (fun i => forEach (entries d i) (f i)) s = .ok () s') :
    s.rng ≤ s'.rng ∧ ∃ D : Nat → String → List Nat,
      (∀ i ∈ ords, ∀ name sig, sigma d i name = some sig → ∃ err, s'.RING.attr i (attrOf name) = some err ∧ Q name sig err (D i name)) ∧
      (∀ i name, Between s s' (D i name)) ∧ (∀ i name, D i name ≠ [] → name ∈ names) ∧
      ∀ i m j n, (i, m) ≠ (j, n) → ∀ q ∈ D i m, q ∉ D j n := by
  classical
  rw [forEach_pairs] at h
  have hmem : ∀ x : Nat × (String × Attr K), x ∈ (intersect ords d.keys).flatMap (fun a => (entries d a).map (fun b => (a, b))) ↔
      x.1 ∈ ords ∧ sigma d x.1 x.2.1 = some x.2.2 := by
    rintro ⟨i, kv⟩
    simp only [List.mem_flatMap, List.mem_map, Prod.mk.injEq]
    constructor
    · rintro ⟨a, ha, b, hb, rfl, rfl⟩
      exact ⟨(mem_intersect.1 ha).1, (entries_mem hd).1 hb⟩
    · rintro ⟨h1, h2⟩
      exact ⟨i, mem_intersect.2 ⟨h1, sigma_keys h2⟩, kv, (entries_mem hd).2 h2, rfl, rfl⟩
  have hnd : ((intersect ords d.keys).flatMap (fun a => (entries d a).map (fun b => (a, b)))).Nodup := by
    rw [List.nodup_flatMap]
    refine ⟨fun a ha => List.Nodup.map (fun x y h => by simpa using h) ?_, ?_⟩
    · have : ((entries d a).map Prod.fst).Nodup := by
        unfold entries
        cases hg : d.get? a with
        | none => simp
        | some e => exact hd.2 a e hg
      exact List.Nodup.of_map _ this
    · refine List.Pairwise.imp ?_ (show (intersect ords d.keys).Pairwise (· ≠ ·) from ho.filter _)
      intro a b hab x hx hx'
      simp only [List.mem_map] at hx hx'
      obtain ⟨u, -, rfl⟩ := hx
      obtain ⟨w, -, hw⟩ := hx'
      exact hab (congrArg Prod.fst hw).symm
  obtain ⟨m, D, h1, h2⟩ := forEach_draws (P := fun x qs t => ∃ err, t.RING.attr x.1 (attrOf x.2.1) = some err ∧ Q x.2.1 x.2.2 err qs) hnd
    (fun x _ t t' ht => hQ x.1 x.2 t t' ht) (fun x hx y hy hxy qs t t' hP ht => by
      obtain ⟨err, he, hq⟩ := hP
      refine ⟨err, ?_, hq⟩
      have hfr := (hf x.1 x.2).ok ht
      rw [hfr.attr _ _ (fun hw => hxy ?_)]
      · exact he
      · have hx' := ((hmem x).1 hx).2
        have hy' := ((hmem y).1 hy).2
        obtain ⟨xi, xn, xv⟩ := x
        obtain ⟨yi, yn, yv⟩ := y
        simp only at hw hx' hy'
        obtain ⟨rfl, hw⟩ := hw
        have := hinj _ (hn _ _ _ hy') _ (hn _ _ _ hx') hw
        subst this
        rw [hx'] at hy'
        cases hy'
        rfl) h
  refine ⟨m, fun i name => if i ∈ ords then (match sigma d i name with | some v => D (i, (name, v)) | none => []) else [],
    fun i hi name sig hs => ?_, fun i name => ?_, fun i name hne => ?_, fun i a j b hne q hq hq' => ?_⟩
  · simp only [if_pos hi, hs]
    exact (h1 (i, (name, sig)) ((hmem _).2 ⟨hi, hs⟩)).1
  · by_cases hi : i ∈ ords
    · simp only [if_pos hi]
      cases hs : sigma d i name with
      | none => exact Between.nil _ _
      | some v => exact (h1 (i, (name, v)) ((hmem _).2 ⟨hi, hs⟩)).2
    · simp only [if_neg hi]
      exact Between.nil _ _
  · by_cases hi : i ∈ ords
    · simp only [if_pos hi] at hne
      cases hs : sigma d i name with
      | none => rw [hs] at hne; exact absurd rfl hne
      | some v => exact hn _ _ _ hs
    · simp only [if_neg hi] at hne
      exact absurd rfl hne
  · by_cases hi : i ∈ ords
    · by_cases hj : j ∈ ords
      · simp only [if_pos hi] at hq
        simp only [if_pos hj] at hq'
        cases hs : sigma d i a with
        | none => rw [hs] at hq; cases hq
        | some v =>
          cases hs' : sigma d j b with
          | none => rw [hs'] at hq'; cases hq'
          | some w =>
            rw [hs] at hq
            rw [hs'] at hq'
            refine h2 (i, (a, v)) ((hmem _).2 ⟨hi, hs⟩) (j, (b, w)) ((hmem _).2 ⟨hj, hs'⟩) (fun e => hne ?_) q hq hq'
            simp only [Prod.mk.injEq] at e
            rw [e.1, e.2.1]
      · simp only [if_neg hj] at hq'; cases hq'
    · simp only [if_neg hi] at hq; cases hq

theorem Between.disjoint {s1 s2 s3 s4 : SC K} {a b : List Nat} (ha : Between s1 s2 a) (hb : Between s3 s4 b) (h : s2.rng ≤ s3.rng)
    (q : Nat) (h1 : q ∈ a) (h2 : q ∈ b) : False := by
  have := (ha.2 q h1).2
  have := (hb.2 q h2).1
  omega

/-- the random numbers used for the errors of one kind of elements, by element and attribute -/
structure StageDraws (s s' : SC K) (names : List String) (D : Nat → String → List Nat) : Prop where
  between : ∀ i a, Between s s' (D i a)
  only : ∀ i a, a ∉ names → D i a = []
  disjoint : ∀ i a j b, (i, a) ≠ (j, b) → ∀ q ∈ D i a, q ∉ D j b

/-- the same loops, random numbers by attribute -/
theorem drawLoop_stage {ords : List Nat} (ho : ords.Nodup) {d : Dict Nat (Kwargs K)} (hd : SingleEntries d) {attrOf : String → String}
    {names : List String} (hn : OnlyNames d names) (hinj : ∀ m ∈ names, ∀ n ∈ names, attrOf m = attrOf n → m = n)
    {f : Nat → String × Attr K → Py (SC K) Unit} {Q : String → Attr K → Attr K → List Nat → Prop}
    (hf : ∀ i kv, Rel (DrawFrame (fun j a => j = i ∧ a = attrOf kv.1)) (f i kv))
    (hQ : ∀ i kv s s', f i kv s = .ok () s' → s.rng ≤ s'.rng ∧ ∃ qs,
      (∃ err, s'.RING.attr i (attrOf kv.1) = some err ∧ Q kv.1 kv.2 err qs) ∧ Between s s' qs)
    {s s' : SC K} (h : forEach (intersect ords d.keys) (fun i => forEach (entries d i) (f i)) s = .ok () s') :
    s.rng ≤ s'.rng ∧ ∃ D : Nat → String → List Nat, StageDraws s s' (names.map attrOf) D ∧
      ∀ i ∈ ords, ∀ name sig, sigma d i name = some sig →
        ∃ err, s'.RING.attr i (attrOf name) = some err ∧ Q name sig err (D i (attrOf name)) := by
  classical
  obtain ⟨m, D, h1, h2, -, h4⟩ := drawLoop_drawn ho hd hn hinj hf hQ h
  refine ⟨m, fun i a => if hc : ∃ x ∈ names, attrOf x = a then D i hc.choose else [],
    ⟨fun i a => ?_, fun i a ha => ?_, fun i a j b hne q hq hq' => ?_⟩, fun i hi name sig hs => ?_⟩
  · split
    · exact h2 _ _
    · exact Between.nil _ _
  · exact dif_neg (fun ⟨x, hx, e⟩ => ha (List.mem_map.2 ⟨x, hx, e⟩))
  · split at hq
    · rename_i ca
      split at hq'
      · rename_i cb
        refine h4 _ _ _ _ (fun e => hne ?_) q hq hq'
        simp only [Prod.mk.injEq] at e ⊢
        exact ⟨e.1, by rw [← ca.choose_spec.2, ← cb.choose_spec.2, e.2]⟩
      · cases hq'
    · cases hq
  · have hc : ∃ x ∈ names, attrOf x = attrOf name := ⟨name, hn _ _ _ hs, rfl⟩
    dsimp only
    rw [dif_pos hc, hinj _ hc.choose_spec.1 _ (hn _ _ _ hs) hc.choose_spec.2]
    exact h1 i hi name sig hs

section stages
variable [FloorRing K]

theorem applyRf_drawn {E : Env K} {n : K} {s s' : SC K} (ho : s.ORD.RF.Nodup) (hw : WellRegistered s.SIG) (h : applyRf E n s = .ok () s') :
    s.rng ≤ s'.rng ∧ ∃ D, StageDraws s s' (rfNamesList.map id) D ∧ ∀ i ∈ s.ORD.RF, ∀ name sig, sigma s.SIG.RF i name = some sig →
      ∃ err, s'.RING.attr i (id name) = some err ∧ DrawnAs E.randn sig err (D i (id name)) :=
  drawLoop_stage (attrOf := id) (Q := fun _ sig err qs => DrawnAs E.randn sig err qs) ho hw.rfSingle hw.rfNames
    (fun _ _ _ _ h => h) (fun i kv => drawInto_rel (E := E) (c := n) ⟨rfl, rfl⟩) (fun i kv s s' h => drawInto_drawn h) h

theorem applyBpm_drawn {E : Env K} {n : K} {s s' : SC K} (ho : s.ORD.BPM.Nodup) (hw : WellRegistered s.SIG) (h : applyBpm E n s = .ok () s') :
    s.rng ≤ s'.rng ∧ ∃ D, StageDraws s s' (bpmNamesList.map id) D ∧ ∀ i ∈ s.ORD.BPM, ∀ name sig, sigma s.SIG.BPM i name = some sig →
      ∃ err, s'.RING.attr i (id name) = some err ∧ (strContains "Noise" name = false → DrawnAs E.randn sig err (D i (id name))) :=
  drawLoop_stage (attrOf := id) (Q := fun m sig err qs => strContains "Noise" m = false → DrawnAs E.randn sig err qs) ho hw.bpmSingle
    hw.bpmNames (fun _ _ _ _ h => h) (bpmBody_rel (E := E) (n := n)) (fun i kv s s' h => by
      split at h
      · rename_i hc
        obtain ⟨hlt, rfl⟩ := setAttr_eq_ok.1 h
        exact ⟨le_refl _, [], ⟨kv.2, Ring.attr_setAttr_same hlt, fun hh => by rw [hc] at hh; cases hh⟩, Between.nil _ _⟩
      · obtain ⟨m, qs, ⟨err, h1, h2⟩, h3⟩ := drawInto_drawn h
        exact ⟨m, qs, ⟨err, h1, fun _ => h2⟩, h3⟩) h

theorem applyMagnet_drawn {E : Env K} {n : K} {s s' : SC K} (ho : s.ORD.Magnet.Nodup) (hw : WellRegistered s.SIG)
    (h : applyMagnet E n s = .ok () s') :
    s.rng ≤ s'.rng ∧ ∃ D, StageDraws s s' (magnetNamesList.map magnetAttrOf) D ∧ ∀ i ∈ s.ORD.Magnet, ∀ name sig,
      sigma s.SIG.Magnet i name = some sig →
        ∃ err, s'.RING.attr i (magnetAttrOf name) = some err ∧ DrawnAs E.randn sig err (D i (magnetAttrOf name)) :=
  drawLoop_stage (attrOf := magnetAttrOf) (Q := fun _ sig err qs => DrawnAs E.randn sig err qs) ho hw.magnetSingle hw.magnetNames
    (by decide +kernel) (fun i kv => drawInto_rel (E := E) (c := n) ⟨rfl, rfl⟩) (fun i kv s s' h => drawInto_drawn h) h

theorem applyInjection_drawn {E : Env K} {n : K} {s s' : SC K} (h6 : s.SIG.staticInjectionZ.length = 6)
    (h : applyInjection E n s = .ok () s') :
    s.rng ≤ s'.rng ∧ ∃ qs, Between s s' qs ∧ InjectionDrawn E.randn s.INJ.Z0ideal s.SIG.staticInjectionZ s'.INJ.Z0 qs := by
  unfold applyInjection at h
  simp only [bind_eq_ok, randnc_eq_ok, lift_eq_ok] at h
  obtain ⟨z, s1, ⟨pos, h3, rfl⟩, s2, s3, h4, d, s4, ⟨hd, rfl⟩, z0, s5, ⟨hz0, rfl⟩, h⟩ := h
  cases h4
  cases h
  obtain ⟨-, hlen, hp, qs, rfl, hn, hq⟩ := randncFrom_eq_ok h3
  unfold bmul at hd
  simp only at hd hz0
  rw [if_pos (by rw [h6, hlen])] at hd
  cases hd
  unfold vadd at hz0
  split at hz0
  · rename_i hl
    cases hz0
    rw [List.length_map] at hlen
    simp only [List.length_zipWith, h6, List.length_map, hlen] at hl
    refine ⟨by simp only; omega, qs, ⟨hn, hq⟩, hlen, fun k hk => ?_⟩
    unfold coef
    simp only [List.getD_eq_getElem?_getD, List.getElem?_zipWith, List.getElem?_map, List.getElem?_eq_getElem hk,
      List.getElem?_eq_getElem (show k < s.INJ.Z0ideal.length by omega),
      List.getElem?_eq_getElem (show k < s.SIG.staticInjectionZ.length by omega), Option.map_some, Option.getD_some]
  · cases hz0

/-- random numbers are only ever drawn further on -/
def RngMono (s s' : SC K) : Prop := s.rng ≤ s'.rng

instance : PreRel (RngMono (K := K)) := ⟨fun _ => le_refl _, fun _ _ _ h1 h2 => le_trans h1 h2⟩

theorem randnc_mono (E : Env K) (cut : K) (n : Nat) : Rel RngMono (randnc (K := K) E cut n) := by
  intro s
  unfold randnc
  cases h : randncFrom E cut n s.rng with
  | error e => exact PreRel.refl (R := RngMono) s
  | ok p =>
    obtain ⟨l, pos⟩ := p
    have := (randncFrom_eq_ok h).2.2.1
    change s.rng ≤ pos
    omega

theorem drawInto_mono (E : Env K) (c : K) (i : Nat) (n : String) (v : Attr K) : Rel RngMono (drawInto E c i n v) := by
  have h0 : ∀ cut w, Rel RngMono (scaledRandn (K := K) E cut w) := by
    intro cut w
    unfold scaledRandn
    split
    · exact Rels.bind (randnc_mono _ _ _) (fun _ => Rels.pure' _)
    · exact Rels.bind (randnc_mono _ _ _) (fun _ => Rels.pure' _)
    · exact Rels.throw _
  refine Rels.bind ?_ (fun _ => Rels.setAttr (fun _ => le_refl _))
  unfold randnCutoff
  split <;> exact h0 _ _

theorem applySupports_mono (E : Env K) (n : K) : Rel RngMono (applySupports E n) := by
  refine Rels.bind Rels.get (fun s => Rels.forEach (fun tp _ => ?_))
  unfold applySupport
  refine Rels.bind Rels.get (fun t => ?_)
  split
  · exact Rels.pure' _
  · refine Rels.bind (Rels.forEach (fun kv _ => ?_)) (fun _ => Rels.bind (Rels.rd _) (fun _ =>
      Rels.bind (Rels.setAttr (fun _ => le_refl _)) (fun _ => Rels.bind (Rels.setAttr (fun _ => le_refl _)) (fun _ =>
        Rels.setAttr (fun _ => le_refl _)))))
    unfold drawSupport
    split
    · refine Rels.bind (drawInto_mono _ _ _ _ _) (fun _ => ?_)
      split
      · exact Rels.throw _
      · exact Rels.ite (drawInto_mono _ _ _ _ _) (Rels.bind (Rels.rd _) (fun _ => Rels.setAttr (fun _ => le_refl _)))
    · exact Rels.pure' _

section ord
variable [IsStrictOrderedRing K]

theorem applyErrors_drawn {E : Env K} {n : K} {s s' : SC K} (ht : Tidy s.ORD) (hw : WellRegistered s.SIG)
    (h6 : s.SIG.staticInjectionZ.length = 6) (h : applyErrors E n s = .ok () s') :
    ∃ draw : Source → List Nat, OwnNumbers draw s.rng s'.rng ∧
      ErrorsDrawn E.randn s'.RING s.ORD.RF s.SIG.RF [] id draw ∧
      ErrorsDrawn E.randn s'.RING s.ORD.BPM s.SIG.BPM ["Noise", "NoiseCO"] id draw ∧
      ErrorsDrawn E.randn s'.RING s.ORD.Magnet s.SIG.Magnet [] magnetAttrOf draw ∧
      InjectionDrawn E.randn s.INJ.Z0ideal s.SIG.staticInjectionZ s'.INJ.Z0 (draw .injection) ∧
      ((∃ i < s.RING.length, DriftAt s.RING i) → ∃ q, draw .circumference = [q] ∧
        circumference s'.RING = (1 + s.SIG.Circumference * E.randn q) * circumference s.RING) := by
  obtain ⟨s1, s2, s3, s4, s5, s6, s7, s8, h1, h2, h3, h4, h5, hs6, h7, h8, h9⟩ := applyErrors_eq_ok h
  obtain ⟨q, ⟨hq, -⟩, -, hcirc⟩ := stages_circumference hw h1 h2 h3 h4 h5 hs6 h7 h8 h9
  have f1 := applyRf_frame (E := E) (n := n) hw
  rw [h1] at f1
  have w1 : WellRegistered s1.SIG := f1.sig ▸ hw
  have f2 := applyBpm_frame (E := E) (n := n) w1
  rw [h2] at f2
  have w2 : WellRegistered s2.SIG := f2.sig ▸ w1
  have f3 := applyMagnet_frame (E := E) (n := n) w2
  rw [h3] at f3
  have w3 : WellRegistered s3.SIG := f3.sig ▸ w2
  simp only [Res.state] at f1 f2 f3
  have e1 : s1.SIG = s.SIG := f1.sig
  have e2 : s2.SIG = s.SIG := f2.sig.trans e1
  have e3 : s3.SIG = s.SIG := f3.sig.trans e2
  have o1 : s1.ORD = s.ORD := f1.ord
  have o2 : s2.ORD = s.ORD := f2.ord.trans o1
  have i3 : s3.INJ = s.INJ := f3.inj.trans (f2.inj.trans f1.inj)
  have tail := fun (a : String) ha i => applyErrors_tail w3 h4 h5 hs6 h7 h8 h9 (a := a) ha i
  obtain ⟨m1, D1, d1, p1⟩ := applyRf_drawn (List.Pairwise.imp (fun h => ne_of_lt h) ht.RF) hw h1
  obtain ⟨m2, D2, d2, p2⟩ := applyBpm_drawn (by rw [o1]; exact List.Pairwise.imp (fun h => ne_of_lt h) ht.BPM) w1 h2
  obtain ⟨m3, D3, d3, p3⟩ := applyMagnet_drawn (by rw [o2]; exact List.Pairwise.imp (fun h => ne_of_lt h) ht.Magnet) w2 h3
  obtain ⟨m4, Q4, d4, p4⟩ := applyInjection_drawn (by rw [e3]; exact h6) h4
  rw [e1, o1] at p2
  rw [e2, o2] at p3
  rw [e3, i3] at p4
  have f5 := (applyCircumference_frame E n).ok h5
  have f4 := (applyInjection_frame E n).ok h4
  have m6 : s5.rng ≤ s6.rng := (applySupports_mono E n).ok hs6
  have f6 := applySupports_frame (E := E) (n := n) (s := s5) (by rw [f5.sig, f4.sig]; exact w3)
  rw [hs6] at f6
  simp only [Res.state] at f6
  have f7 := (updateSupports_frame E true true).ok h7
  have f8 := (Rels.when (updateMagnets_modifies none)).ok h8
  have f9 := (Rels.when (updateCavities_frame none)).ok h9
  have r' : s'.rng = s6.rng := by rw [f9.rng, f8.rng, f7.rng]
  have z' : s'.INJ.Z0 = s4.INJ.Z0 := by rw [f9.inj, f8.inj, f7.inj, f6.inj, f5.inj]
  have hdis : ∀ a, (a ∈ rfNamesList.map id → a ∉ bpmNamesList.map id ∧ a ∉ magnetNamesList.map magnetAttrOf) ∧
      (a ∈ bpmNamesList.map id → a ∉ rfNamesList.map id ∧ a ∉ magnetNamesList.map magnetAttrOf) ∧
      (a ∈ magnetNamesList.map magnetAttrOf → a ∉ rfNamesList.map id ∧ a ∉ bpmNamesList.map id) := by
    have k1 : ∀ m ∈ rfNamesList.map id, m ∉ bpmNamesList.map id ∧ m ∉ magnetNamesList.map magnetAttrOf := by decide +kernel
    have k2 : ∀ m ∈ bpmNamesList.map id, m ∉ rfNamesList.map id ∧ m ∉ magnetNamesList.map magnetAttrOf := by decide +kernel
    have k3 : ∀ m ∈ magnetNamesList.map magnetAttrOf, m ∉ rfNamesList.map id ∧ m ∉ bpmNamesList.map id := by decide +kernel
    exact fun a => ⟨k1 a, k2 a, k3 a⟩
  have b5 : Between s4 s5 [q] := ⟨by simp, fun x hx => by simp at hx; subst hx; exact hq⟩
  let draw : Source → List Nat := fun x => match x with
    | .error i a => D1 i a ++ (D2 i a ++ D3 i a)
    | .injection => Q4
    | .circumference => [q]
  refine ⟨draw, ⟨fun x => ?_, fun x y hxy p hp hp' => ?_, fun x p hp => ?_⟩, fun i hi name sig hs _ => ?_, fun i hi name sig hs hn => ?_,
    fun i hi name sig hs _ => ?_, ?_, fun hdr => ⟨q, rfl, ?_⟩⟩
  · cases x with
    | error i a =>
      refine List.nodup_append'.2 ⟨(d1.between i a).1, List.nodup_append'.2 ⟨(d2.between i a).1, (d3.between i a).1, fun p hp hp' =>
        (d2.between i a).disjoint (d3.between i a) (le_refl _) p hp hp'⟩, fun p hp hp' => ?_⟩
      rcases List.mem_append.1 hp' with hp' | hp'
      · exact (d1.between i a).disjoint (d2.between i a) (le_refl _) p hp hp'
      · exact (d1.between i a).disjoint (d3.between i a) m2 p hp hp'
    | injection => exact d4.1
    | circumference => exact b5.1
  · have hr : ∀ i a p, p ∈ D1 i a ++ (D2 i a ++ D3 i a) → p < s3.rng := by
      intro i a p hp
      simp only [List.mem_append] at hp
      rcases hp with hp | hp | hp
      · have := ((d1.between i a).2 p hp).2; omega
      · have := ((d2.between i a).2 p hp).2; omega
      · exact ((d3.between i a).2 p hp).2
    cases x with
    | error i a =>
      cases y with
      | error j b =>
        have hne : (i, a) ≠ (j, b) := fun e => hxy (by simp only [Prod.mk.injEq] at e; rw [e.1, e.2])
        change p ∈ D1 i a ++ (D2 i a ++ D3 i a) at hp
        change p ∈ D1 j b ++ (D2 j b ++ D3 j b) at hp'
        simp only [List.mem_append] at hp hp'
        rcases hp with hp | hp | hp <;> rcases hp' with hp' | hp' | hp'
        · exact d1.disjoint _ _ _ _ hne p hp hp'
        · exact (d1.between i a).disjoint (d2.between j b) (le_refl _) p hp hp'
        · exact (d1.between i a).disjoint (d3.between j b) m2 p hp hp'
        · exact (d1.between j b).disjoint (d2.between i a) (le_refl _) p hp' hp
        · exact d2.disjoint _ _ _ _ hne p hp hp'
        · exact (d2.between i a).disjoint (d3.between j b) (le_refl _) p hp hp'
        · exact (d1.between j b).disjoint (d3.between i a) m2 p hp' hp
        · exact (d2.between j b).disjoint (d3.between i a) (le_refl _) p hp' hp
        · exact d3.disjoint _ _ _ _ hne p hp hp'
      | injection => exact absurd (hr i a p hp) (not_lt.2 (d4.2 p hp').1)
      | circumference => exact absurd (hr i a p hp) (not_lt.2 (m4.trans (b5.2 p hp').1))
    | injection =>
      cases y with
      | error j b => exact absurd (hr j b p hp') (not_lt.2 (d4.2 p hp).1)
      | injection => exact hxy rfl
      | circumference => exact d4.disjoint b5 (le_refl _) p hp hp'
    | circumference =>
      cases y with
      | error j b => exact absurd (hr j b p hp') (not_lt.2 (m4.trans (b5.2 p hp).1))
      | injection => exact d4.disjoint b5 (le_refl _) p hp' hp
      | circumference => exact hxy rfl
  · rw [r']
    cases x with
    | error i a =>
      change p ∈ D1 i a ++ (D2 i a ++ D3 i a) at hp
      simp only [List.mem_append] at hp
      rcases hp with hp | hp | hp
      · have := (d1.between i a).2 p hp; omega
      · have := (d2.between i a).2 p hp; omega
      · have := (d3.between i a).2 p hp; omega
    | injection => have := d4.2 p hp; omega
    | circumference => have := b5.2 p hp; omega
  · have hn := hw.rfNames _ _ _ hs
    have k1 : ∀ m ∈ rfNamesList, m ∉ "Length" :: (supportNamesList ++ supportWrites ++ magnetWrites ++ rfProperties) := by decide +kernel
    have hm : name ∈ rfNamesList.map id := by rw [List.map_id]; exact hn
    obtain ⟨k2, k3⟩ := (hdis _).1 hm
    obtain ⟨err, g1, g2⟩ := p1 i hi name sig hs
    refine ⟨err, ?_, ?_⟩
    · rw [id, tail _ (k1 _ hn), f3.attr _ _ (fun hd => k3 (drawn_name w2.magnetNames hd)), f2.attr _ _ (fun hd => k2 (drawn_name w1.bpmNames hd))]
      exact g1
    · change DrawnAs E.randn sig err (D1 i name ++ (D2 i name ++ D3 i name))
      rw [d2.only _ _ k2, d3.only _ _ k3, List.append_nil, List.append_nil]
      exact g2
  · have hb := hw.bpmNames _ _ _ hs
    have k1 : ∀ m ∈ bpmNamesList, m ∉ "Length" :: (supportNamesList ++ supportWrites ++ magnetWrites ++ rfProperties) := by decide +kernel
    have hm : name ∈ bpmNamesList.map id := by rw [List.map_id]; exact hb
    obtain ⟨k2, k3⟩ := (hdis _).2.1 hm
    obtain ⟨err, g1, g2⟩ := p2 i hi name sig hs
    refine ⟨err, ?_, ?_⟩
    · rw [id, tail _ (k1 _ hb), f3.attr _ _ (fun hd => k3 (drawn_name w2.magnetNames hd))]
      exact g1
    · change DrawnAs E.randn sig err (D1 i name ++ (D2 i name ++ D3 i name))
      rw [d1.only _ _ k2, d3.only _ _ k3, List.append_nil, List.nil_append]
      refine g2 (Bool.eq_false_iff.2 (fun hc => hn ((noise_names hb).1 hc)))
  · have hb := hw.magnetNames _ _ _ hs
    have k1 : ∀ m ∈ magnetNamesList, magnetAttrOf m ∉
        "Length" :: (supportNamesList ++ supportWrites ++ magnetWrites ++ rfProperties) := by decide +kernel
    have hm : magnetAttrOf name ∈ magnetNamesList.map magnetAttrOf := List.mem_map_of_mem hb
    obtain ⟨k2, k3⟩ := (hdis _).2.2 hm
    obtain ⟨err, g1, g2⟩ := p3 i hi name sig hs
    refine ⟨err, ?_, ?_⟩
    · rw [tail _ (k1 _ hb)]
      exact g1
    · change DrawnAs E.randn sig err (D1 i (magnetAttrOf name) ++ (D2 i (magnetAttrOf name) ++ D3 i (magnetAttrOf name)))
      rw [d1.only _ _ k2, d2.only _ _ k3, List.nil_append, List.nil_append]
      exact g2
  · rw [z']
    exact p4
  · rcases hcirc with ⟨-, hc⟩ | ⟨hc, -⟩
    · exact hc
    · obtain ⟨i, hi, hd⟩ := hdr
      exact absurd hd (hc i hi)

end ord
end stages
end PySC
