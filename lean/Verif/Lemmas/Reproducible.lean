import Verif.Spec.Reproducible
import Verif.Lemmas.Scaling
import Verif.Lemmas.Superposition
import Verif.Lemmas.SessionLimits
/-
Errors of machines which were prepared in the same way but used differently.
-/
namespace PySC
set_option linter.unusedSectionVars false
variable {K : Type} [Field K] [LinearOrder K] [IsStrictOrderedRing K] [FloorRing K]
open Py Spec

/-- two machines which may differ in the attributes `D` only -/
structure Twin (D : Nat → String → Prop) (P : Inj K → Inj K → Prop) (s t : SC K) : Prop where
  ord : t.ORD = s.ORD
  sig : t.SIG = s.SIG
  rng : t.rng = s.rng
  inj : P s.INJ t.INJ
  length : t.RING.length = s.RING.length
  drifts : ∀ i, t.RING.attr i "PassMethod" = some (.str "DriftPass") ↔ s.RING.attr i "PassMethod" = some (.str "DriftPass")
  attr : ∀ i a, ¬ D i a → t.RING.attr i a = s.RING.attr i a

section
variable {D : Nat → String → Prop} {P : Inj K → Inj K → Prop}

theorem Twin.mono {D' : Nat → String → Prop} {s t : SC K} (h : Twin D P s t) (hd : ∀ i a, D i a → D' i a) : Twin D' P s t :=
  { h with attr := fun i a ha => h.attr i a (fun hh => ha (hd i a hh)) }

theorem Twin.setAttr {s t : SC K} (h : Twin D P s t) (i : Nat) {a : String} (ha : a ≠ "PassMethod") (v : Attr K) :
    Twin (fun j b => D j b ∧ ¬ (j = i ∧ b = a)) P { s with RING := s.RING.setAttr i a v } { t with RING := t.RING.setAttr i a v } where
  ord := h.ord
  sig := h.sig
  rng := h.rng
  inj := h.inj
  length := by simp [h.length]
  drifts := fun j => by
    rw [Ring.attr_setAttr_ne ha.symm, Ring.attr_setAttr_ne ha.symm]
    exact h.drifts j
  attr := fun j b hb => by
    show (t.RING.setAttr i a v).attr j b = (s.RING.setAttr i a v).attr j b
    rw [Ring.attr_setAttr, Ring.attr_setAttr, h.length]
    split
    · rfl
    · rename_i hh
      exact h.attr j b (fun hd => hb ⟨hd, hh⟩)

theorem setAttr_twin (i : Nat) {a : String} (ha : a ≠ "PassMethod") (v : Attr K) :
    Both (Twin D P) (Twin (fun j b => D j b ∧ ¬ (j = i ∧ b = a)) P) Eq (setAttr i a v) (setAttr i a v) := by
  intro s t x y s' t' h h1 h2
  rw [setAttr_eq_ok] at h1 h2
  obtain ⟨-, rfl⟩ := h1
  obtain ⟨-, rfl⟩ := h2
  exact ⟨rfl, h.setAttr i ha v⟩

theorem randnc_twin (E : Env K) (cut : K) (n : Nat) : Both (Twin D P) (Twin D P) Eq (randnc E cut n) (randnc E cut n) := by
  intro s t x y s' t' h h1 h2
  rw [randnc_eq_ok] at h1 h2
  obtain ⟨p, h1, rfl⟩ := h1
  obtain ⟨q, h2, rfl⟩ := h2
  rw [h.rng, h1] at h2
  cases h2
  exact ⟨rfl, { h with rng := rfl }⟩

theorem randnCutoff_twin (E : Env K) (a : Attr K) (n : K) : Both (Twin D P) (Twin D P) Eq (randnCutoff E a n) (randnCutoff E a n) := by
  have hs : ∀ (cut : K) (a : Attr K), Both (Twin D P) (Twin D P) Eq (scaledRandn E cut a) (scaledRandn E cut a) := by
    intro cut a
    cases a with
    | num x => exact Both.bind (randnc_twin E cut 1) (fun z z' hz => Both.pure (by rw [hz]))
    | vec v => exact Both.bind (randnc_twin E cut _) (fun z z' hz => Both.pure (by rw [hz]))
    | _ => intro s t x y s' t' h h1; cases h1
  cases a with
  | pair v k => exact hs k v
  | num x => exact hs n (.num x)
  | vec v => exact hs n (.vec v)
  | _ => intro s t x y s' t' h h1; cases h1

theorem drawInto_twin (E : Env K) (n : K) (i : Nat) {a : String} (ha : a ≠ "PassMethod") (v : Attr K) :
    Both (Twin D P) (Twin (fun j b => D j b ∧ ¬ (j = i ∧ b = a)) P) Eq (drawInto E n i a v) (drawInto E n i a v) :=
  Both.bind (randnCutoff_twin E v n) (fun _ _ hw => hw ▸ setAttr_twin i ha _)

/-- loops in which each pass makes some attributes equal -/
theorem forEach_twin {α : Type} {l : List α} {f : α → Py (SC K) Unit} {g : α → Nat → String → Prop}
    (h : ∀ x ∈ l, ∀ D, Both (Twin D P) (Twin (fun j b => D j b ∧ ¬ g x j b) P) Eq (f x) (f x)) (D : Nat → String → Prop) :
    Both (Twin D P) (Twin (fun j b => D j b ∧ ∀ x ∈ l, ¬ g x j b) P) Eq (Py.forEach l f) (Py.forEach l f) := by
  induction l generalizing D with
  | nil =>
    intro s t a b s' t' hr h1 h2
    cases h1; cases h2
    exact ⟨rfl, hr.mono (fun i a ha => ⟨ha, by simp⟩)⟩
  | cons x l ih =>
    intro s t a b s' t' hr h1 h2
    rw [forEach_cons] at h1 h2
    obtain ⟨he, k⟩ := Both.bind (h x (by simp) D) (fun _ _ _ => ih (fun y hy => h y (by simp [hy])) _) s t a b s' t' hr h1 h2
    refine ⟨he, k.mono (fun i a ha => ?_)⟩
    refine ⟨ha.1.1, fun y hy => ?_⟩
    rcases List.mem_cons.1 hy with rfl | hy
    · exact ha.1.2
    · exact ha.2 y hy

/-- the errors of one kind -/
theorem drawTable_twin {o : List Nat} {d : Dict Nat (Kwargs K)} (hd : SingleEntries d) {names : List String} (hn : OnlyNames d names)
    {attrOf : String → String} {f : Nat → String × Attr K → Py (SC K) Unit}
    (hf : ∀ i, ∀ kv : String × Attr K, kv.1 ∈ names → ∀ D, Both (Twin D P) (Twin (fun j b => D j b ∧ ¬ (j = i ∧ b = attrOf kv.1)) P) Eq (f i kv) (f i kv)) :
    Both (Twin D P) (Twin (fun j b => D j b ∧ ¬ drawn o d attrOf j b) P) Eq
      (forEach (intersect o d.keys) (fun i => forEach (entries d i) (f i))) (forEach (intersect o d.keys) (fun i => forEach (entries d i) (f i))) := by
  have h := forEach_twin (P := P) (l := intersect o d.keys) (f := fun i => forEach (entries d i) (f i))
    (g := fun i j b => ∃ kv ∈ entries d i, j = i ∧ b = attrOf kv.1) (fun i _ D => by
      have h1 := forEach_twin (P := P) (l := entries d i) (f := f i) (g := fun kv j b => j = i ∧ b = attrOf kv.1)
        (fun kv hkv D => hf i kv (hn i kv.1 kv.2 ((entries_mem hd).1 hkv)) D) D
      intro s t a b s' t' hr e1 e2
      obtain ⟨he, k⟩ := h1 s t a b s' t' hr e1 e2
      exact ⟨he, k.mono (fun j b hb => ⟨hb.1, fun ⟨kv, hkv, hh⟩ => hb.2 kv hkv hh⟩)⟩) D
  intro s t a b s' t' hr e1 e2
  obtain ⟨he, k⟩ := h s t a b s' t' hr e1 e2
  refine ⟨he, k.mono (fun j b hb => ⟨hb.1, ?_⟩)⟩
  rintro ⟨hj, n, v, hv, rfl⟩
  have hkv : (n, v) ∈ entries d j := (entries_mem hd).2 hv
  have hk : j ∈ d.keys := by
    by_contra hk
    have : d.get? j = none := Dict.get?_eq_none_iff.2 hk
    unfold entries at hkv
    rw [this] at hkv
    cases hkv
  exact hb.2 j (mem_intersect.2 ⟨hj, hk⟩) ⟨(n, v), hkv, rfl, rfl⟩

theorem applyRf_twin (E : Env K) (n : K) {s t s' t' : SC K} (hw : WellRegistered s.SIG) (h : Twin D P s t) (h1 : applyRf E n s = .ok () s')
    (h2 : applyRf E n t = .ok () t') : Twin (fun j b => D j b ∧ ¬ drawn s.ORD.RF s.SIG.RF id j b) P s' t' := by
  unfold applyRf at h1 h2
  rw [bindGet_eq_ok] at h1 h2
  rw [h.ord, h.sig] at h2
  exact (drawTable_twin (attrOf := id) hw.rfSingle hw.rfNames (fun i kv hkv D => drawInto_twin E n i (by
    revert hkv; generalize kv.1 = x; revert x; decide) kv.2) s t () () s' t' h h1 h2).2

theorem applyBpm_twin (E : Env K) (n : K) {s t s' t' : SC K} (hw : WellRegistered s.SIG) (h : Twin D P s t) (h1 : applyBpm E n s = .ok () s')
    (h2 : applyBpm E n t = .ok () t') : Twin (fun j b => D j b ∧ ¬ drawn s.ORD.BPM s.SIG.BPM id j b) P s' t' := by
  unfold applyBpm at h1 h2
  rw [bindGet_eq_ok] at h1 h2
  rw [h.ord, h.sig] at h2
  refine (drawTable_twin (attrOf := id) hw.bpmSingle hw.bpmNames
    (f := fun i kv => if strContains "Noise" kv.1 then setAttr i kv.1 kv.2 else drawInto E n i kv.1 kv.2)
    (fun i kv hkv D => ?_) s t () () s' t' h h1 h2).2
  have hp : kv.1 ≠ "PassMethod" := by revert hkv; generalize kv.1 = x; revert x; decide
  split
  · exact setAttr_twin i hp kv.2
  · exact drawInto_twin E n i hp kv.2

theorem applyMagnet_twin (E : Env K) (n : K) {s t s' t' : SC K} (hw : WellRegistered s.SIG) (h : Twin D P s t) (h1 : applyMagnet E n s = .ok () s')
    (h2 : applyMagnet E n t = .ok () t') : Twin (fun j b => D j b ∧ ¬ drawn s.ORD.Magnet s.SIG.Magnet magnetErrorName j b) P s' t' := by
  unfold applyMagnet at h1 h2
  rw [bindGet_eq_ok] at h1 h2
  rw [h.ord, h.sig] at h2
  exact (drawTable_twin (attrOf := magnetErrorName) hw.magnetSingle hw.magnetNames (fun i kv hkv D => drawInto_twin E n i (by
    revert hkv; generalize kv.1 = x; revert x; decide) kv.2) s t () () s' t' h h1 h2).2

/-- the injected beam of two machines is the same -/
def InjSame (j j' : Inj K) : Prop := j'.Z0ideal = j.Z0ideal ∧ j'.Z0 = j.Z0 ∧ j'.randomInjectionZ = j.randomInjectionZ

theorem applyInjection_twin (E : Env K) (n : K) {s t s' t' : SC K} (h : Twin D (fun j j' => j'.Z0ideal = j.Z0ideal) s t)
    (h1 : applyInjection E n s = .ok () s') (h2 : applyInjection E n t = .ok () t') : Twin D InjSame s' t' := by
  unfold applyInjection at h1 h2
  rw [bind_eq_ok] at h1 h2
  obtain ⟨z, s1, h1, h1'⟩ := h1
  obtain ⟨z', t1, h2, h2'⟩ := h2
  obtain ⟨rfl, hs⟩ := randnc_twin E n 6 s t z z' s1 t1 h h1 h2
  rw [bindGet_eq_ok, bindLift_eq_ok] at h1' h2'
  obtain ⟨d, hd, h1'⟩ := h1'
  obtain ⟨d', hd', h2'⟩ := h2'
  rw [bindLift_eq_ok] at h1' h2'
  obtain ⟨x, hx, h1'⟩ := h1'
  obtain ⟨y, hy, h2'⟩ := h2'
  cases h1'; cases h2'
  rw [hs.sig, hd] at hd'
  cases hd'
  rw [hs.inj, hx] at hy
  cases hy
  exact { ord := hs.ord, sig := hs.sig, rng := hs.rng, inj := ⟨hs.inj, rfl, by dsimp only; rw [hs.sig]⟩, length := hs.length,
          drifts := hs.drifts, attr := hs.attr }

theorem Twin.findspos {s t : SC K} (h : Twin D P s t) (hL : ∀ i, ¬ D i "Length") : findspos t.RING = findspos s.RING := by
  unfold PySC.findspos
  congr 1
  refine List.ext_getElem (by simp [lengths, h.length]) (fun i h1 h2 => ?_)
  have := h.attr i "Length" (hL i)
  simp only [lengths, List.length_map] at h1 h2
  simp only [Ring.attr, List.getElem?_eq_getElem h1, List.getElem?_eq_getElem h2, Option.bind_some] at this
  simp only [lengths, List.getElem_map, this]

/-- what enters the circumference -/
theorem Twin.drift_lengths {s t : SC K} (h : Twin D P s t) (hL : ∀ i, ¬ D i "Length") {α : Type} (f : Bool → Option (Attr K) → α) :
    t.RING.map (fun e => f (isDrift e) (e "Length")) = s.RING.map (fun e => f (isDrift e) (e "Length")) := by
  apply List.ext_getElem (by simp [h.length])
  intro i h1 h2
  simp only [List.length_map] at h1 h2
  simp only [List.getElem_map]
  have e1 := h.attr i "Length" (hL i)
  have e2 := h.drifts i
  unfold Ring.attr at e1 e2
  rw [List.getElem?_eq_getElem h1, List.getElem?_eq_getElem h2] at e1 e2
  simp only [Option.bind_some] at e1 e2
  rw [e1]
  congr 1
  unfold isDrift
  exact decide_eq_decide.2 e2

theorem Twin.circumference {s t : SC K} (h : Twin D P s t) (hL : ∀ i, ¬ D i "Length") {f : K} {mode : String} {r r' : Ring K}
    (h1 : scaleCircumference s.RING f mode = .ok r) (h2 : scaleCircumference t.RING f mode = .ok r') :
    Twin D P { s with RING := r } { t with RING := r' } := by
  have hfil : ∀ q : Ring K, (q.filter isDrift).map elemLength =
      ((q.map (fun e => (isDrift e, elemLength e))).filter Prod.fst).map Prod.snd := by
    intro q
    rw [List.filter_map, List.map_map]
    rfl
  have hd : t.RING.map (fun e => (isDrift e, elemLength e)) = s.RING.map (fun e => (isDrift e, elemLength e)) :=
    h.drift_lengths hL (fun b l => (b, match l with | some (.num x) => x | _ => 0))
  have hl : (t.RING.filter isDrift).map elemLength = (s.RING.filter isDrift).map elemLength := by rw [hfil, hfil, hd]
  have he : (t.RING.filter isDrift).isEmpty = (s.RING.filter isDrift).isEmpty := by
    have := congrArg List.isEmpty hl
    simpa using this
  have hp : PySC.findspos t.RING = PySC.findspos s.RING := h.findspos hL
  unfold scaleCircumference at h1 h2
  rw [hl, he, hp] at h2
  split at h1
  · cases h1
  rename_i hm
  rw [if_neg hm] at h2
  dsimp only at h1 h2
  split at h1
  · rename_i hh
    rw [if_pos hh] at h2
    cases h1; cases h2
    exact h
  rename_i hh
  rw [if_neg hh] at h2
  obtain ⟨q, hq, h1⟩ := Except.bind_eq_ok'.1 h1
  obtain ⟨q', hq', h2⟩ := Except.bind_eq_ok'.1 h2
  rw [hq] at hq'
  cases hq'
  cases h1; cases h2
  have other : ∀ (x : Ring K) i a, a ≠ "Length" → (Ring.attr (x.map (fun e => if isDrift e then e.set "Length" (.num (elemLength e * (1 - q))) else e)) i a) =
      x.attr i a := by
    intro x i a ha
    refine Ring.attr_map (fun e => ?_)
    split
    · rw [Elem.set_apply, if_neg ha]
    · rfl
  refine { h with length := by simp [h.length], drifts := fun i => ?_, attr := fun i a ha => ?_ }
  · show Ring.attr (List.map _ t.RING) i "PassMethod" = _ ↔ Ring.attr (List.map _ s.RING) i "PassMethod" = _
    rw [other _ _ _ (by decide), other _ _ _ (by decide)]
    exact h.drifts i
  · show Ring.attr (List.map _ t.RING) i a = Ring.attr (List.map _ s.RING) i a
    by_cases hal : a = "Length"
    · subst hal
      have hm := h.drift_lengths hL (fun b l => if b then some (.num ((match l with | some (.num x) => x | _ => 0) * (1 - q))) else l)
      have hg := congrArg (fun l => l[i]?) hm
      simp only [List.getElem?_map] at hg
      unfold Ring.attr
      rw [List.getElem?_map, List.getElem?_map]
      have hE : ∀ e : Elem K, (if isDrift e then e.set "Length" (.num (elemLength e * (1 - q))) else e) "Length" =
          (if isDrift e then some (.num ((match e "Length" with | some (.num x) => x | _ => 0) * (1 - q))) else e "Length") := by
        intro e
        split
        · rw [Elem.set_apply, if_pos rfl]; rfl
        · rfl
      cases h1 : t.RING[i]? <;> cases h2 : s.RING[i]? <;> simp_all
    · rw [other _ _ _ hal, other _ _ _ hal]
      exact h.attr i a ha

theorem applyCircumference_twin (E : Env K) (n : K) (hL : ∀ i, ¬ D i "Length") {s t s' t' : SC K} (h : Twin D P s t)
    (h1 : applyCircumference E n s = .ok () s') (h2 : applyCircumference E n t = .ok () t') : Twin D P s' t' := by
  unfold applyCircumference at h1 h2
  rw [bind_eq_ok] at h1 h2
  obtain ⟨z, s1, h1, h1'⟩ := h1
  obtain ⟨z', t1, h2, h2'⟩ := h2
  obtain ⟨rfl, hs⟩ := randnc_twin E n 1 s t z z' s1 t1 h h1 h2
  rw [bindGet_eq_ok, bindLift_eq_ok] at h1' h2'
  obtain ⟨d, hd, h1'⟩ := h1'
  obtain ⟨d', hd', h2'⟩ := h2'
  cases h1'; cases h2'
  rw [hs.sig] at hd'
  exact hs.circumference hL hd hd'

/-! ### supports -/

theorem supportName_mem {t : String} (ht : t ∈ supportTypes) : t ++ "Offset" ∈ supportNamesList ∧ t ++ "Roll" ∈ supportNamesList := by
  revert t; decide +kernel

section supports
variable (hS : ∀ i, ∀ a ∈ "Length" :: supportNamesList, ¬ D i a)
include hS

theorem setSupport_twin (i : Nat) {a : String} (ha : a ∈ supportNamesList) (v : Attr K) :
    Both (Twin D P) (Twin D P) Eq (setAttr i a v) (setAttr i a v) := by
  have hp : a ≠ "PassMethod" := by revert a; decide +kernel
  intro s t x y s' t' h h1 h2
  obtain ⟨e, k⟩ := setAttr_twin i hp v s t x y s' t' h h1 h2
  exact ⟨e, k.mono (fun j b hb => hb.1)⟩

theorem drawSupport_twin (E : Env K) (n : K) (t : String) (p : Nat × Nat) (sig1 : Option (Kwargs K)) (kv : String × Attr K)
    (hkv : kv.1 ∈ supportNamesList) : Both (Twin D P) (Twin D P) Eq (drawSupport E n t p sig1 kv) (drawSupport E n t p sig1 kv) := by
  have hd : ∀ i, Both (Twin D P) (Twin D P) Eq (drawInto E n i kv.1 kv.2) (drawInto E n i kv.1 kv.2) := fun i =>
    Both.bind (randnCutoff_twin E kv.2 n) (fun _ _ hw => hw ▸ setSupport_twin hS i hkv _)
  unfold drawSupport
  split
  · refine Both.bind (hd p.1) (fun _ _ _ => ?_)
    cases sig1 with
    | none => intro s t a b s' t' _ h1; cases h1
    | some e =>
      dsimp only
      split
      · exact hd p.2
      · refine Both.bind (V := Eq) (Both.rd (fun s t h => ?_)) (fun v w hv => hv ▸ setSupport_twin hS p.2 hkv _)
        exact BothE.of_eq (Ring.getA_congr h.length.symm (h.attr p.1 kv.1 (hS _ _ (by simp [hkv]))).symm)
  · exact Both.pure rfl

theorem newSupportErrors_twin {s u : SC K} (h : Twin D P s u) (sPos : List K) {t : String} (ht : t ∈ supportTypes) (p : Nat × Nat)
    (e : Option (Kwargs K)) : newSupportErrors u.RING sPos t p e = newSupportErrors s.RING sPos t p e := by
  have g : ∀ i, ∀ a ∈ supportNamesList, u.RING.getVec i a = s.RING.getVec i a := fun i a ha => by
    unfold Ring.getVec
    rw [Ring.getA_congr h.length (h.attr i a (hS _ _ (by simp [ha])))]
  unfold newSupportErrors
  rw [g _ _ (supportName_mem ht).1, g _ _ (supportName_mem ht).1, g _ _ (supportName_mem ht).2]

theorem applySupport_twin (E : Env K) (n : K) (sPos : List K) {t : String} (ht : t ∈ supportTypes) (p : Nat × Nat) {s u s' u' : SC K}
    (hw : WellRegistered s.SIG) (h : Twin D P s u) (h1 : applySupport E n sPos t p s = .ok () s') (h2 : applySupport E n sPos t p u = .ok () u') :
    Twin D P s' u' := by
  unfold applySupport at h1 h2
  rw [bindGet_eq_ok] at h1 h2
  rw [h.sig] at h2
  cases hg : s.SIG.Support.get? p.1 with
  | none => rw [hg] at h1 h2; cases h1; cases h2; exact h
  | some sig0 =>
    rw [hg] at h1 h2
    dsimp only at h1 h2
    have hn : ∀ kv ∈ sig0, kv.1 ∈ supportNamesList := by
      intro kv hkv
      refine hw.supportNames p.1 kv.1 kv.2 ((entries_mem hw.supportSingle).1 ?_)
      unfold entries
      rw [hg]; exact hkv
    refine (Both.bind (W := Eq) (Both.forEach (R := Twin D P) (fun kv hkv => drawSupport_twin hS E n t p _ kv (hn kv hkv))) (fun _ _ _ => ?_)
      s u () () s' u' h h1 h2).2
    refine Both.bind (V := Eq) (Both.rd (fun a b hab => BothE.of_eq (newSupportErrors_twin hS hab sPos ht p _).symm)) (fun x y hxy => ?_)
    subst hxy
    exact Both.bind (setSupport_twin hS _ (supportName_mem ht).2 _) (fun _ _ _ =>
      Both.bind (setSupport_twin hS _ (supportName_mem ht).1 _) (fun _ _ _ => setSupport_twin hS _ (supportName_mem ht).1 _))

theorem applySupports_twin (E : Env K) (n : K) {s u s' u' : SC K} (hw : WellRegistered s.SIG) (h : Twin D P s u)
    (h1 : applySupports E n s = .ok () s') (h2 : applySupports E n u = .ok () u') : Twin D P s' u' := by
  unfold applySupports at h1 h2
  rw [bindGet_eq_ok] at h1 h2
  rw [h.ord, h.findspos (fun i => hS i _ (by simp))] at h2
  have := Both.forEach (R := fun a b => Twin D P a b ∧ a.SIG = s.SIG) (l := typedPairs s.ORD)
    (f := fun tp => applySupport E n (findspos s.RING) tp.1 tp.2) (g := fun tp => applySupport E n (findspos s.RING) tp.1 tp.2)
    (fun tp htp a b x y a' b' hab ha hb => ⟨rfl, applySupport_twin hS E n _ (typedPairs_type htp).1 tp.2 (hab.2 ▸ hw) hab.1 ha hb, ?_⟩)
    s u () () s' u' ⟨h, rfl⟩ h1 h2
  · exact this.2.1
  · have f := (applySupport_frame (E := E) (n := n) (sp := findspos s.RING) (p := tp.2) (typedPairs_type htp).1 (s := a) (hab.2 ▸ hw)).sig
    rw [ha] at f
    exact f.trans hab.2
end supports

/-! ### what the errors amount to -/

theorem allSupportWrites_optics {E : Env K} {o : Ords} {b : Bool} {r : Ring K} {W : Writes K} (h : allSupportWrites E o b true r = .ok W) {i : Nat}
    (hi : i ∈ o.Magnet) {a : String} (ha : a ∈ ["T1", "T2", "R1", "R2"]) : ∃ v, lastWrite W i a = some v := by
  simp only [allSupportWrites, Except.bind_eq_ok', Except.ok.injEq] at h
  obtain ⟨W1, h1, W2, h2, rfl⟩ := h
  have hne : o.Magnet.isEmpty = false := by cases hh : o.Magnet <;> simp [hh] at hi ⊢
  rw [magnetsSupportWrites, if_pos (by simp [hne]), Except.bind_eq_ok'] at h1
  obtain ⟨or, -, h1⟩ := h1
  obtain ⟨k, hk⟩ := mem_zipIdx_of_mem hi
  obtain ⟨W', h', hs⟩ := loopWrites_sub h1 hk
  simp only [magnetSupportWrites, Except.bind_eq_ok', Except.ok.injEq] at h'
  obtain ⟨v, -, u, hv, w, -, t, -, c, -, W3, -, rfl⟩ := h'
  simp only [List.mem_cons, List.not_mem_nil, or_false] at ha
  rcases ha with rfl | rfl | rfl | rfl
  · exact lastWrite_some_of_mem (v := .vec t.1) (List.mem_append_left _ (hs _ (by simp)))
  · exact lastWrite_some_of_mem (v := .vec t.2.1) (List.mem_append_left _ (hs _ (by simp)))
  · exact lastWrite_some_of_mem (v := .mat t.2.2.1) (List.mem_append_left _ (hs _ (by simp)))
  · exact lastWrite_some_of_mem (v := .mat t.2.2.2) (List.mem_append_left _ (hs _ (by simp)))

/-- attributes which certainly are assigned when the supports are updated -/
def supportDone (o : Ords) (i : Nat) (a : String) : Prop :=
  ((i ∈ o.Magnet ∨ i ∈ o.BPM) ∧ a ∈ ["SupportOffset", "SupportRoll"]) ∨ (i ∈ o.Magnet ∧ a ∈ ["T1", "T2", "R1", "R2"])

theorem updateSupports_twin (E : Env K) {s t s' t' : SC K} (hR : ∀ i, ∀ a ∈ supportReads, ¬ D i a) (h : Twin D P s t)
    (h1 : updateSupports E true true s = .ok () s') (h2 : updateSupports E true true t = .ok () t') :
    Twin (fun i a => D i a ∧ ¬ supportDone s.ORD i a) P s' t' := by
  obtain ⟨W, hW, rfl⟩ := (updateSupports_writes ..).1 h1
  obtain ⟨W', hW', rfl⟩ := (updateSupports_writes ..).1 h2
  rw [h.ord, allSupportWrites_blind h.length (fun i a ha => h.attr i a (hR i a ha)), hW] at hW'
  cases hW'
  have hin := (updateSupports_writer E s.ORD true true).within _ _ hW
  have hd : ∀ (r : Ring K) i, (r.write W).attr i "PassMethod" = r.attr i "PassMethod" := fun r i =>
    Ring.attr_write_of_not_mem (fun v hv => (by decide +kernel : "PassMethod" ∉ supportWrites) (hin _ hv))
  refine { ord := h.ord, sig := h.sig, rng := h.rng, inj := h.inj, length := by simp [SC.write, h.length], drifts := fun i => ?_, attr := fun i a ha => ?_ }
  · simp only [SC.write, hd]
    exact h.drifts i
  · simp only [SC.write, Ring.attr_write, h.length]
    cases hw : lastWrite W i a with
    | some v => rfl
    | none =>
      refine h.attr i a (fun hh => ha ⟨hh, ?_⟩)
      rintro (⟨h1, h2⟩ | ⟨h1, h2⟩)
      · obtain ⟨-, v, hv⟩ := allSupportWrites_has hW (i := i) (by simpa using h1) h2
        rw [hw] at hv; cases hv
      · obtain ⟨v, hv⟩ := allSupportWrites_optics hW h1 h2
        rw [hw] at hv; cases hv

/-- calls which change the attributes `A` only -/
theorem Twin.frames {s t s' t' : SC K} (h : Twin D P s t) {A : List String} (hA : "PassMethod" ∉ A) (h1 : Frame (fun _ a => a ∈ A) s s')
    (h2 : Frame (fun _ a => a ∈ A) t t') : Twin (fun i a => D i a ∨ a ∈ A) P s' t' where
  ord := by rw [h1.ord, h2.ord, h.ord]
  sig := by rw [h1.sig, h2.sig, h.sig]
  rng := by rw [h1.rng, h2.rng, h.rng]
  inj := by rw [h1.inj, h2.inj]; exact h.inj
  length := by rw [h1.len, h2.len, h.length]
  drifts := fun i => by rw [h1.attr i _ hA, h2.attr i _ hA]; exact h.drifts i
  attr := fun i a ha => by
    rw [h1.attr i a (fun h => ha (.inr h)), h2.attr i a (fun h => ha (.inr h))]
    exact h.attr i a (fun h => ha (.inl h))

end

/-- errors of machines which were prepared in the same way -/
theorem applyErrors_twin {E : Env K} {n : K} {s t s' t' : SC K} (hw : WellRegistered s.SIG) (hp : SamePreparation s t) (hr : t.rng = s.rng)
    (h1 : applyErrors E n s = .ok () s') (h2 : applyErrors E n t = .ok () t') : SameErrors s' t' := by
  obtain ⟨s1, s2, s3, s4, s5, s6, s7, s8, a1, a2, a3, a4, a5, a6, a7, a8, a9⟩ := applyErrors_eq_ok h1
  obtain ⟨t1, t2, t3, t4, t5, t6, t7, t8, b1, b2, b3, b4, b5, b6, b7, b8, b9⟩ := applyErrors_eq_ok h2
  let fixed : List String := ["Length", "BendingAngle", "MasterOf"]
  let D0 : Nat → String → Prop := fun i a => a ∉ fixed ∧ (a ∈ errorNames → Renewed s i a)
  have k0 : Twin D0 (fun j j' => j'.Z0ideal = j.Z0ideal) s t :=
    { ord := hp.ord, sig := hp.sig, rng := hr, inj := hp.ideal, length := hp.length, drifts := hp.drifts, attr := fun i a ha => by
        by_cases hf : a ∈ fixed
        · exact hp.geometry i a hf
        · have : ¬ (a ∈ errorNames → Renewed s i a) := fun h => ha ⟨hf, h⟩
          obtain ⟨h1, h2⟩ := Classical.not_imp.1 this
          exact hp.errors i a h1 h2 }
  have k1 := applyRf_twin E n hw k0 a1 b1
  have f1 : DrawFrame (drawn s.ORD.RF s.SIG.RF id) s s1 := by
    have := applyRf_frame (E := E) (n := n) hw; rwa [a1] at this
  have w1 : WellRegistered s1.SIG := f1.sig.symm ▸ hw
  have k2 := applyBpm_twin E n w1 k1 a2 b2
  have f2 : DrawFrame (drawn s1.ORD.BPM s1.SIG.BPM id) s1 s2 := by
    have := applyBpm_frame (E := E) (n := n) w1; rwa [a2] at this
  have w2 : WellRegistered s2.SIG := f2.sig.symm ▸ w1
  have k3 := applyMagnet_twin E n w2 k2 a3 b3
  have f3 : DrawFrame (drawn s2.ORD.Magnet s2.SIG.Magnet magnetAttrOf) s2 s3 := by
    have := applyMagnet_frame (E := E) (n := n) w2; rwa [a3] at this
  have w3 : WellRegistered s3.SIG := f3.sig.symm ▸ w2
  -- what may be different now
  let D3 : Nat → String → Prop := fun i a => a ∉ fixed ∧
    (a ∈ errorNames → (i ∈ s.ORD.Magnet ∨ i ∈ s.ORD.BPM) ∧ a ∈ ["SupportOffset", "SupportRoll"])
  replace k3 : Twin D3 (fun j j' => j'.Z0ideal = j.Z0ideal) s3 t3 := by
    refine k3.mono (fun i a ⟨⟨⟨h0, h1⟩, h2⟩, h3⟩ => ⟨h0.1, fun ha => ?_⟩)
    rw [f1.ord, f1.sig] at h2
    rw [f2.ord, f2.sig, f1.ord, f1.sig] at h3
    rcases h0.2 ha with ⟨hi, hs⟩ | ⟨hi, hs⟩ | ⟨hi, nm, hs, rfl⟩ | h
    · obtain ⟨v, hv⟩ := Option.isSome_iff_exists.1 hs
      exact absurd ⟨hi, a, v, hv, rfl⟩ h1
    · obtain ⟨v, hv⟩ := Option.isSome_iff_exists.1 hs
      exact absurd ⟨hi, a, v, hv, rfl⟩ h2
    · obtain ⟨v, hv⟩ := Option.isSome_iff_exists.1 hs
      exact absurd ⟨hi, nm, v, hv, rfl⟩ h3
    · exact h
  have hfix : ∀ i, ∀ a ∈ fixed ++ supportNamesList ++ supportReads, ¬ D3 i a := by
    intro i a ha ⟨h1, h2⟩
    have : ∀ a ∈ ["Length", "BendingAngle", "MasterOf"] ++ supportNamesList ++ supportReads, a ∉ ["Length", "BendingAngle", "MasterOf"] →
        a ∈ errorNames ∧ a ∉ ["SupportOffset", "SupportRoll"] := by decide +kernel
    obtain ⟨h3, h4⟩ := this a ha h1
    exact h4 (h2 h3).2
  have k4 := applyInjection_twin E n k3 a4 b4
  have f4 := (applyInjection_frame E n).ok a4
  have k5 := applyCircumference_twin E n (fun i => hfix i _ (by simp [fixed])) k4 a5 b5
  have f5 := (applyCircumference_frame E n).ok a5
  have w5 : WellRegistered s5.SIG := by rw [f5.sig, f4.sig]; exact w3
  have k6 := applySupports_twin (fun i a ha => hfix i a (by
    rcases List.mem_cons.1 ha with rfl | ha
    · simp [fixed]
    · exact List.mem_append_left _ (List.mem_append_right _ ha))) E n w5 k5 a6 b6
  have f6 := applySupports_frame (E := E) (n := n) w5
  rw [a6] at f6
  have k7 := updateSupports_twin E (fun i a ha => hfix i a (List.mem_append_right _ ha)) k6 a7 b7
  have f7 := (updateSupports_frame E true true).ok a7
  have o6 : s6.ORD = s.ORD := by rw [show s6.ORD = s5.ORD from f6.ord, f5.ord, f4.ord, f3.ord, f2.ord, f1.ord]
  have o7 : s7.ORD = s.ORD := f7.ord.trans o6
  rw [o6] at k7
  have k8 := k7.frames (by decide +kernel) ((Rels.when (updateMagnets_modifies none)).ok a8) ((Rels.when (updateMagnets_modifies none)).ok b8)
  have f8 := (Rels.when (updateMagnets_modifies none)).ok a8
  have k9 := k8.frames (by decide +kernel) ((Rels.when (updateCavities_frame none)).ok a9) ((Rels.when (updateCavities_frame none)).ok b9)
  have f9 := (Rels.when (updateCavities_frame none)).ok a9
  have o9 : s'.ORD = s.ORD := by rw [f9.ord, f8.ord, o7]
  refine ⟨fun i a ha => k9.attr i a ?_, fun i => k9.attr i _ ?_, fun i hi a ha => k9.attr i a ?_, k9.inj.2.1, k9.inj.2.2, k9.rng⟩
  · rintro ((⟨⟨-, h1⟩, h2⟩ | h) | h)
    · exact h2 (.inl (h1 ha))
    · revert h; revert a; decide +kernel
    · revert h; revert a; decide +kernel
  · rintro ((⟨⟨h1, -⟩, -⟩ | h) | h)
    · exact h1 (by simp [fixed])
    · revert h; decide +kernel
    · revert h; decide +kernel
  · rw [o9] at hi
    rintro ((⟨-, h2⟩ | h) | h)
    · exact h2 (.inr ⟨hi, ha⟩)
    · revert h; revert a; decide +kernel
    · revert h; revert a; decide +kernel

/-! ### using a machine -/

/-- names no use of a machine changes -/
def usedNames : List String := ["Length", "BendingAngle", "MasterOf"] ++ errorNames.filter (fun a => a ∉ ["SupportOffset", "SupportRoll"])

/-- what using a machine does to it -/
structure UseFrame (s s' : SC K) : Prop where
  ord : s'.ORD = s.ORD
  sig : s'.SIG = s.SIG
  ideal : s'.INJ.Z0ideal = s.INJ.Z0ideal
  length : s'.RING.length = s.RING.length
  attr : ∀ i, ∀ a ∈ usedNames, s'.RING.attr i a = s.RING.attr i a
  support : ∀ i, i ∉ s.ORD.Magnet → i ∉ s.ORD.BPM → ∀ a ∈ ["SupportOffset", "SupportRoll"], s'.RING.attr i a = s.RING.attr i a
  freq : ∀ i, i ∉ s.ORD.RF → s.RING.attr i "FrequencyOffset" = none → s'.RING.attr i "Frequency" = s.RING.attr i "Frequency"
  newDrift : ∀ i, s'.RING.attr i "PassMethod" = some (.str "DriftPass") → s.RING.attr i "PassMethod" = some (.str "DriftPass")
  oldDrift : ∀ i, s.RING.attr i "Frequency" = none → s.RING.attr i "PassMethod" = some (.str "DriftPass") →
    s'.RING.attr i "PassMethod" = some (.str "DriftPass")

theorem UseFrame.rfl' (s : SC K) : UseFrame s s :=
  ⟨rfl, rfl, rfl, rfl, fun _ _ _ => rfl, fun _ _ _ _ _ => rfl, fun _ _ _ => rfl, fun _ h => h, fun _ _ h => h⟩

/-- calls which change none of these attributes -/
theorem useFrame_of {W : Nat → String → Prop} {s s' : SC K} (h : DrawFrame W s s')
    (hW : ∀ i, ∀ a ∈ "PassMethod" :: usedNames ++ ["SupportOffset", "SupportRoll"], ¬ W i a)
    (hF : ∀ i, i ∉ s.ORD.RF → s.RING.attr i "FrequencyOffset" = none → s'.RING.attr i "Frequency" = s.RING.attr i "Frequency") :
    UseFrame s s' where
  ord := h.ord
  sig := h.sig
  ideal := by rw [h.inj]
  length := h.len
  attr := fun i a ha => h.attr i a (hW i a (by simp [ha]))
  support := fun i _ _ a ha => h.attr i a (hW i a (List.mem_append_right _ ha))
  freq := hF
  newDrift := fun i hh => by rwa [h.attr i _ (hW i _ (by simp))] at hh
  oldDrift := fun i _ hh => by rwa [h.attr i _ (hW i _ (by simp))]

/-- calls which change no attribute with one of these names -/
theorem useFrame_of' {W : Nat → String → Prop} {s s' : SC K} (h : DrawFrame W s s')
    (hW : ∀ i, ∀ a ∈ "Frequency" :: "PassMethod" :: usedNames ++ ["SupportOffset", "SupportRoll"], ¬ W i a) : UseFrame s s' :=
  useFrame_of h (fun i a ha => hW i a (List.mem_cons_of_mem _ ha)) (fun i _ _ => h.attr i _ (hW i _ (by simp)))

theorem useFrame_onlyRng {s s' : SC K} (h : OnlyRng s s') : UseFrame s s' := by
  rw [h.1]
  exact ⟨rfl, rfl, rfl, rfl, fun _ _ _ => rfl, fun _ _ _ _ _ => rfl, fun _ _ _ => rfl, fun _ h => h, fun _ _ h => h⟩

theorem setPoint_not_used (p : String) : p ++ "SetPoint" ∉ "Frequency" :: "PassMethod" :: usedNames ++ ["SupportOffset", "SupportRoll"] := by
  have hl : (p ++ "SetPoint").toList.reverse.take 2 = ['t', 'n'] := by
    rw [String.toList_append, List.reverse_append]
    rfl
  intro h
  exact (by decide +kernel : ∀ a ∈ "Frequency" :: "PassMethod" :: usedNames ++ ["SupportOffset", "SupportRoll"],
    a.toList.reverse.take 2 ≠ ['t', 'n']) _ h hl

/-- frequencies of elements which are no cavities -/
def FrequencyKept (s s' : SC K) : Prop := (∀ i, s'.RING.attr i "FrequencyOffset" = s.RING.attr i "FrequencyOffset") ∧
  ∀ i, s.RING.attr i "FrequencyOffset" = none → s'.RING.attr i "Frequency" = s.RING.attr i "Frequency"

instance : PreRel (FrequencyKept (K := K)) := ⟨fun _ => ⟨fun _ => rfl, fun _ _ => rfl⟩, fun _ _ _ h1 h2 =>
  ⟨fun i => (h2.1 i).trans (h1.1 i), fun i hi => (h2.2 i (by rw [h1.1 i]; exact hi)).trans (h1.2 i hi)⟩⟩

theorem CavitiesOnly.frequency {s s' : SC K} (h : CavitiesOnly s s') : FrequencyKept s s' :=
  ⟨fun i => h.2.1 i _ (by decide +kernel), h.2.2⟩

theorem setCavity_frequency (o : List Nat) (sp : NpArr K) (p m : String) : Rel (FrequencyKept (K := K)) (setCavitySetpoints o sp p m) := by
  unfold setCavitySetpoints
  refine Rels.bind (Rels.rd _) (fun _ => Rels.bind (Rels.forEach (fun _ _ => Rels.setAttr (fun _ => ?_)))
      (fun _ => Rel.mono (fun _ _ h => h.frequency) (updateCavities_only _)))
  have h := setPoint_not_used p
  refine ⟨fun i => Ring.attr_setAttr_ne (fun e => h (e ▸ by decide +kernel)), fun i _ => Ring.attr_setAttr_ne (fun e => h (e ▸ by decide +kernel))⟩

/-- where `update_supports` writes -/
theorem updateSupports_where (E : Env K) (b m : Bool) (s : SC K) :
    Frame (fun i a => a ∈ ["R1", "T1", "T2", "R2"] ∨ ((i ∈ s.ORD.Magnet ∨ i ∈ s.ORD.BPM) ∧ a ∈ ["SupportOffset", "SupportRoll"])) s
      (updateSupports E b m s).state := by
  let W : Nat → String → Prop := fun i a => a ∈ ["R1", "T1", "T2", "R2"] ∨ ((i ∈ s.ORD.Magnet ∨ i ∈ s.ORD.BPM) ∧ a ∈ ["SupportOffset", "SupportRoll"])
  have hm : ∀ {l : List Nat} {p : Nat × Nat}, p ∈ l.zipIdx → p.1 ∈ l := by
    intro l p hp
    have := List.mem_map_of_mem (f := Prod.fst) hp
    rwa [List.zipIdx_map_fst] at this
  have hc : ∀ i j, Rel (Frame W) (copyTransformation (K := K) i j) := by
    intro i j
    unfold copyTransformation
    refine Rels.forEach (fun a ha => Rels.bind (Rels.rd _) (fun _ => Rels.setAttr (fun _ => Frame.setAttr (.inl ?_))))
    revert a; decide +kernel
  have ht : ∀ i, Rel (Frame W) (updateTransformation E i) := by
    intro i
    unfold updateTransformation
    rels <;> exact Frame.setAttr (.inl (by decide +kernel))
  have h1 : ∀ offs rolls, ∀ p ∈ s.ORD.Magnet.zipIdx, Rel (Frame W) (updateMagnetSupport E offs rolls p) := by
    intro offs rolls p hp
    unfold updateMagnetSupport
    exact Rels.bind (Rels.lift _) (fun _ => Rels.bind (Rels.setAttr (fun _ => Frame.setAttr (.inr ⟨.inl (hm hp), by decide +kernel⟩))) (fun _ =>
      Rels.bind (Rels.lift _) (fun _ => Rels.bind (Rels.setAttr (fun _ => Frame.setAttr (.inr ⟨.inl (hm hp), by decide +kernel⟩))) (fun _ =>
        Rels.bind (ht _) (fun _ => Rels.bind (Rels.rd _) (fun _ => Rels.forEach (fun _ _ => hc _ _)))))))
  have h2 : ∀ offs rolls, ∀ p ∈ s.ORD.BPM.zipIdx, Rel (Frame W) (updateBpmSupport (K := K) offs rolls p) := by
    intro offs rolls p hp
    unfold updateBpmSupport
    exact Rels.bind (Rels.lift _) (fun _ => Rels.bind (Rels.setAttr (fun _ => Frame.setAttr (.inr ⟨.inr (hm hp), by decide +kernel⟩))) (fun _ =>
      Rels.bind (Rels.lift _) (fun _ => Rels.bind (Rels.lift _) (fun _ =>
        Rels.setAttr (fun _ => Frame.setAttr (.inr ⟨.inr (hm hp), by decide +kernel⟩))))))
  exact (show Rel (Frame W) ((when (m && !s.ORD.Magnet.isEmpty) (rd (fun r => supportAt r s.ORD s.ORD.Magnet) >>= fun or =>
      forEach s.ORD.Magnet.zipIdx (updateMagnetSupport E or.1 or.2))) >>= fun _ =>
    when (b && !s.ORD.BPM.isEmpty) (rd (fun r => supportAt r s.ORD s.ORD.BPM) >>= fun or =>
      forEach s.ORD.BPM.zipIdx (updateBpmSupport or.1 or.2))) from
    Rels.bind (Rels.when (Rels.bind (Rels.rd _) (fun _ => Rels.forEach (fun p hp => h1 _ _ p hp)))) (fun _ =>
      Rels.when (Rels.bind (Rels.rd _) (fun _ => Rels.forEach (fun p hp => h2 _ _ p hp))))) s

/-- what the switches do to pass methods -/
structure SwitchOnly (r r' : Ring K) : Prop where
  length : r'.length = r.length
  attr : ∀ i a, a ≠ "PassMethod" → r'.attr i a = r.attr i a
  newDrift : ∀ i, r'.attr i "PassMethod" = some (.str "DriftPass") → r.attr i "PassMethod" = some (.str "DriftPass")
  oldDrift : ∀ i, r.attr i "Frequency" = none → r.attr i "PassMethod" = some (.str "DriftPass") →
    r'.attr i "PassMethod" = some (.str "DriftPass")

instance : PreRel (SwitchOnly (K := K)) := ⟨fun _ => ⟨rfl, fun _ _ _ => rfl, fun _ h => h, fun _ _ h => h⟩, fun _ _ _ h1 h2 =>
  ⟨h2.length.trans h1.length, fun i a ha => (h2.attr i a ha).trans (h1.attr i a ha), fun i h => h1.newDrift i (h2.newDrift i h),
    fun i hf h => h2.oldDrift i (by rw [h1.attr i _ (by decide)]; exact hf) (h1.oldDrift i hf h)⟩⟩

theorem SwitchOnly.set {r : Ring K} {i : Nat} {m : String} (hm : m ≠ "DriftPass")
    (h : r.attr i "PassMethod" = some (.str "DriftPass") → r.attr i "Frequency" ≠ none) : SwitchOnly r (r.setAttr i "PassMethod" (.str m)) where
  length := by simp
  attr := fun j a ha => Ring.attr_setAttr_ne ha
  newDrift := fun j hj => by
    rw [Ring.attr_setAttr] at hj
    split at hj
    · split at hj
      · simp only [Option.some.injEq, Attr.str.injEq] at hj
        exact absurd hj hm
      · cases hj
    · exact hj
  oldDrift := fun j hf hj => by
    rw [Ring.attr_setAttr]
    split
    · rename_i hh
      rw [hh.1] at hf hj
      exact absurd hf (h hj)
    · exact hj

theorem passMethod_eq_ok {i : Nat} {r r' : Ring K} {m : String} (h : passMethod i r = .ok m r') : r' = r ∧ r.attr i "PassMethod" = some (.str m) := by
  unfold passMethod at h
  unfold Ring.attr
  cases he : r[i]? with
  | none => rw [he] at h; cases h
  | some e =>
    rw [he] at h
    dsimp only at h
    simp only [Option.bind_some]
    split at h
    · rename_i m' hm
      cases h
      exact ⟨rfl, hm⟩
    · cases h
    · cases h

theorem switches_only (args : List String) : Rel (SwitchOnly (K := K)) (switchCavityAndRadiation args) := by
  have hset : ∀ (r : Ring K) i m, m ≠ "DriftPass" → (r.attr i "PassMethod" = some (.str "DriftPass") → r.attr i "Frequency" ≠ none) →
      SwitchOnly r (setPassMethod i m r).state := by
    intro r i m hm h
    unfold setPassMethod
    split
    · exact SwitchOnly.set hm h
    · exact PreRel.refl r
  have h1 : ∀ (ms : List String) o n, "DriftPass" ∉ ms → (∀ m ∈ ms, strReplace m o n ≠ "DriftPass") → Rel (SwitchOnly (K := K)) (replacePass ms o n) := by
    intro ms o n hd hr
    unfold replacePass
    refine Rels.bind Rels.get (fun r => Rels.forEach (fun i _ q => ?_))
    rw [bind_apply]
    cases hp : passMethod i q with
    | error e q' =>
      have : q' = q := by
        unfold passMethod at hp
        split at hp
        · cases hp; rfl
        · split at hp <;> cases hp <;> rfl
      rw [this]; exact PreRel.refl q
    | ok m q' =>
      obtain ⟨rfl, hm⟩ := passMethod_eq_ok hp
      dsimp only
      split
      · rename_i hin
        refine hset _ _ _ (hr m hin) (fun h => ?_)
        rw [hm] at h
        cases h
        exact absurd hin hd
      · exact PreRel.refl q'
  have h2 : ∀ o b, Rel (SwitchOnly (K := K)) (switchRf o b) := by
    intro o b r
    let R : Ring K → Ring K → Prop := fun p q => (∀ i, p.attr i "Frequency" = r.attr i "Frequency") → SwitchOnly p q
    have : PreRel R := ⟨fun p _ => PreRel.refl p, fun p q q' h1 h2 h => PreRel.trans (R := SwitchOnly) _ _ _ (h1 h) (h2 (fun i => by
      rw [(h1 h).attr i _ (by decide)]; exact h i))⟩
    have key : Rel R (if o.all (fun i => decide (i < r.length)) then
      forEach (o.filter (fun i => (r.attr i "Frequency").isSome)) (fun ind => setPassMethod ind (if b then "RFCavityPass" else "IdentityPass"))
      else throw .indexError) := by
      refine Rels.ite (Rels.forEach (fun i hi p hp => hset p i _ ?_ (fun _ => ?_))) (Rels.throw _)
      · cases b <;> decide
      · rw [hp i]
        have := (List.mem_filter.1 hi).2
        intro h; rw [h] at this; cases this
    exact key r (fun _ => rfl)
  unfold switchCavityAndRadiation
  refine Rels.ite (Rels.throw _) ?_
  rels <;> first | exact h1 _ _ _ (by decide +kernel) (by decide +kernel) | exact h2 _ _

theorem trackMode_ideal (m : String) (i : Inj K) : (setTrackMode m i).state.Z0ideal = i.Z0ideal := by
  have : Rel (fun i j : Inj K => j.Z0ideal = i.Z0ideal) (setTrackMode m) := by
    have : PreRel (fun i j : Inj K => j.Z0ideal = i.Z0ideal) := ⟨fun _ => rfl, fun _ _ _ h1 h2 => h2.trans h1⟩
    unfold setTrackMode
    exact Rels.ite (Rels.throw _) (Rels.bind (Rels.modify (fun _ => rfl)) (fun _ => Rels.ite (Rels.modify (fun _ => rfl)) (Rels.pure' _)))
  exact this i

theorem correctors_not_used {r : Ring K} {H V F : List Nat} : ∀ i, ∀ a ∈ "PassMethod" :: usedNames ++ ["SupportOffset", "SupportRoll"],
    ¬ correctorWrites r H V F i a := by
  intro i a ha h
  rcases h with ⟨-, rfl⟩ | ⟨-, rfl⟩ | ⟨-, h⟩ | ⟨-, h⟩
  · revert ha; decide +kernel
  · revert ha; decide +kernel
  · simp only [List.mem_cons, List.not_mem_nil, or_false] at h
    rcases h with rfl | rfl | rfl | rfl <;> revert ha <;> decide +kernel
  · simp only [List.mem_cons, List.not_mem_nil, or_false] at h
    rcases h with rfl | rfl | rfl | rfl <;> revert ha <;> decide +kernel

theorem useFrame_correctors {H V F : List Nat} {s s' : SC K} (h : OnlyCorrectors H V F s s') (hF : ∀ i ∈ F, i ∈ s.ORD.RF) : UseFrame s s' := by
  refine useFrame_of h.frame correctors_not_used (fun i hi _ => h.frame.attr i _ ?_)
  rintro (⟨-, e⟩ | ⟨-, e⟩ | ⟨-, e⟩ | ⟨hf, -⟩)
  · revert e; decide
  · revert e; decide
  · revert e; decide
  · exact hi (hF i hf)

/-- what a call which uses the machine does to it -/
theorem run_use (W : World K) (c : Call K) (h : c.IsUse) (s : SC K) : UseFrame s (c.run W s).state := by
  have hd : ∀ {α : Type} {m : Py (SC K) α}, UseFrame s (m s).state → UseFrame s ((do let _ ← m; Py.pure ()) s).state := by
    intro α m hm
    rw [bind_apply]
    cases hq : m s with
    | ok a t => rw [hq] at hm; exact hm
    | error e t => rw [hq] at hm; exact hm
  have nm : ∀ a ∈ "Frequency" :: "PassMethod" :: usedNames ++ ["SupportOffset", "SupportRoll"], a ∉ magnetWrites := by decide +kernel
  have nr : ∀ a ∈ "PassMethod" :: usedNames ++ ["SupportOffset", "SupportRoll"], a ∉ rfProperties := by decide +kernel
  have npl : ∀ sk, "SetPoint" ++ plane sk ∉ "Frequency" :: "PassMethod" :: usedNames ++ ["SupportOffset", "SupportRoll"] := by
    intro sk; cases sk <;> decide +kernel
  cases c with
  | register c => exact h.elim
  | applyErrors n => exact h.elim
  | systematicMultipoles o ba k sk =>
    refine hd (useFrame_of' (DrawFrame.of_frame (setSystematicMultipoles_rel o ba k sk s)) (fun i a ha hh => ?_))
    obtain ⟨-, t, ht, rfl⟩ := hh
    simp only [List.mem_cons, List.not_mem_nil, or_false] at ht
    revert ha
    rcases ht with rfl | rfl <;> cases sk <;> decide +kernel
  | randomMultipoles o ba =>
    have : Rel (DrawFrame (fun _ a => a ∈ offsetAttrs)) (setRandomMultipoles W.E o ba) := by
      unfold setRandomMultipoles
      exact Rels.forEach (fun i _ => Rel.mono (fun s s' h => h.mono (fun _ _ hh => hh.2)) (randomMultipole1_rel i))
    exact useFrame_of' (this s) (fun i => by decide +kernel)
  | updateCavities o =>
    exact useFrame_of (DrawFrame.of_frame (updateCavities_frame o s)) (fun i => nr) (fun i _ hi => (updateCavities_only o s).2.2 i hi)
  | updateMagnets o => exact useFrame_of' (DrawFrame.of_frame (updateMagnets_modifies o s)) (fun i => nm)
  | updateSupports b m =>
    have f := updateSupports_where W.E b m s
    have n4 : ∀ a ∈ "Frequency" :: "PassMethod" :: usedNames, a ∉ ["R1", "T1", "T2", "R2"] ∧ a ∉ ["SupportOffset", "SupportRoll"] := by decide +kernel
    have k : ∀ i, ∀ a ∈ "Frequency" :: "PassMethod" :: usedNames, (updateSupports W.E b m s).state.RING.attr i a = s.RING.attr i a :=
      fun i a ha => f.attr i a (fun hh => hh.elim (n4 a ha).1 (fun q => (n4 a ha).2 q.2))
    exact { ord := f.ord, sig := f.sig, ideal := by show (updateSupports W.E b m s).state.INJ.Z0ideal = _; rw [f.inj], length := f.len,
            attr := fun i a ha => k i a (by simp [ha]),
            support := fun i h1 h2 a ha => f.attr i a (fun hh => hh.elim
              ((by decide : ∀ a ∈ ["SupportOffset", "SupportRoll"], a ∉ ["R1", "T1", "T2", "R2"]) a ha) (fun q => q.1.elim h1 h2)),
            freq := fun i _ _ => k i _ (by simp), newDrift := fun i hh => (k i "PassMethod" (by simp)).symm.trans hh,
            oldDrift := fun i _ hh => (k i "PassMethod" (by simp)).trans hh }
  | setCavity o sp p m =>
    refine useFrame_of (DrawFrame.of_frame (setCavitySetpoints_modifies o sp p m s)) (fun i a ha hh => ?_)
      (fun i _ hi => (setCavity_frequency o sp p m s).2 i hi)
    rcases hh.2 with rfl | hh
    · exact setPoint_not_used p (List.mem_cons_of_mem _ ha)
    · exact nr a ha hh
  | getCM o sk => exact hd (useFrame_onlyRng ((show Rel OnlyRng _ from Rels.rd _) s))
  | setCM o sp sk m =>
    refine useFrame_of' (DrawFrame.of_frame (setCMSetpoints_modifies o sp sk m s)) (fun i a ha hh => ?_)
    rcases hh with ⟨-, rfl⟩ | hh
    · exact npl sk ha
    · exact nm a ha hh
  | setMagnet o sp sk k m d =>
    refine useFrame_of' (DrawFrame.of_frame (setMagnetSetpoints_modifies o sp sk k m d s)) (fun i a ha hh => ?_)
    rcases hh with ⟨-, rfl | ⟨-, rfl⟩⟩ | hh
    · exact npl sk ha
    · exact npl false ha
    · exact nm a ha hh
  | veryDeepCopy =>
    refine hd (useFrame_onlyRng ((show Rel OnlyRng _ from ?_) s))
    unfold veryDeepCopy
    exact Rels.bind Rels.get (fun s => Rels.ite (Rels.throw _) (Rels.pure' _))
  | verify => exact useFrame_onlyRng ((show Rel OnlyRng _ from Rels.bind Rels.get (fun s => Rels.lift _)) s)
  | switches a =>
    have k := switches_only a s.RING
    show UseFrame s (onRing (switchCavityAndRadiation a) s).state
    have hs : (onRing (switchCavityAndRadiation a) s).state = { s with RING := (switchCavityAndRadiation a s.RING).state } := by
      unfold onRing
      cases switchCavityAndRadiation a s.RING <;> rfl
    rw [hs]
    exact { ord := rfl, sig := rfl, ideal := rfl, length := k.length,
            attr := fun i a ha => k.attr i a (fun e => (by decide +kernel : "PassMethod" ∉ usedNames) (e ▸ ha)),
            support := fun i _ _ a ha => k.attr i a (fun e => (by decide : "PassMethod" ∉ ["SupportOffset", "SupportRoll"]) (e ▸ ha)),
            freq := fun i _ _ => k.attr i _ (by decide), newDrift := k.newDrift, oldDrift := k.oldDrift }
  | trackMode m =>
    have k := trackMode_ideal m s.INJ
    show UseFrame s (onInj (setTrackMode m) s).state
    have hs : (onInj (setTrackMode m) s).state = { s with INJ := (setTrackMode m s.INJ).state } := by
      unfold onInj
      cases setTrackMode m s.INJ <;> rfl
    rw [hs]
    exact { UseFrame.rfl' s with ideal := k }
  | setInjection f => exact { UseFrame.rfl' s with ideal := h s.INJ }
  | bunches n => exact hd (useFrame_onlyRng (generateBunches_onlyRng _ _ _ s))
  | transmission n t =>
    refine hd (useFrame_onlyRng ((show Rel OnlyRng _ from ?_) s))
    unfold beamTransmission
    refine Rels.bind Rels.get (fun s => Rels.bind (generateBunches_onlyRng _ _ _) (fun z => ?_))
    rels
  | reading b cc => exact hd (useFrame_onlyRng (bpmReading_onlyRng _ _ _ _ s))
  | firstTurn rm r c b n => exact hd (useFrame_correctors (C37_only_correctors W.E W.B W.O rm r c b n s) (by simp))
  | stitch rm r c b k n => exact hd (useFrame_correctors (C39_stitch_only_correctors W.E W.B W.O rm r c b k n s) (by simp))
  | balance rm r c b e n => exact hd (useFrame_correctors (C39_balance_only_correctors W.E W.B W.O rm r c b e n s) (by simp))
  | correct rm r c b e t n d =>
    exact hd (useFrame_correctors (C38_only_correctors W.E W.B W.O rm r c b e t n d s) (by split <;> simp))

/-- a machine which has been used is prepared as it was -/
structure Prepared (b s : SC K) : Prop where
  same : SamePreparation b s
  cavities : ∀ i, (s.RING.attr i "Frequency").isSome → i ∈ b.ORD.RF ∨ (b.RING.attr i "Frequency").isSome ∨ (b.RING.attr i "FrequencyOffset").isSome
  offset : ∀ i, s.RING.attr i "FrequencyOffset" = b.RING.attr i "FrequencyOffset"

theorem Prepared.rfl' (s : SC K) : Prepared s s :=
  ⟨⟨rfl, rfl, rfl, rfl, fun _ _ _ => rfl, fun _ => Iff.rfl, fun _ _ _ _ => rfl⟩, fun _ h => .inr (.inl h), fun _ => rfl⟩

theorem Prepared.use {b s s' : SC K} (hb : NoDriftCavity b) (h : Prepared b s) (hu : UseFrame s s') : Prepared b s' where
  same :=
    { ord := hu.ord.trans h.same.ord, sig := hu.sig.trans h.same.sig, ideal := hu.ideal.trans h.same.ideal, length := hu.length.trans h.same.length,
      geometry := fun i a ha => (hu.attr i a (List.mem_append_left _ ha)).trans (h.same.geometry i a ha),
      drifts := fun i => by
        refine ⟨fun hh => (h.same.drifts i).1 (hu.newDrift i hh), fun hh => hu.oldDrift i ?_ ((h.same.drifts i).2 hh)⟩
        by_contra hf
        exact hb i (h.cavities i (Option.isSome_iff_ne_none.2 hf)) hh,
      errors := fun i a ha hr => by
        refine Eq.trans ?_ (h.same.errors i a ha hr)
        by_cases hs : a ∈ ["SupportOffset", "SupportRoll"]
        · refine hu.support i (fun hm => hr ?_) (fun hm => hr ?_) a hs
          · exact .inr (.inr (.inr ⟨.inl (h.same.ord ▸ hm), hs⟩))
          · exact .inr (.inr (.inr ⟨.inr (h.same.ord ▸ hm), hs⟩))
        · exact hu.attr i a (List.mem_append_right _ (List.mem_filter.2 ⟨ha, by simpa using hs⟩)) }
  cavities := fun i hi => by
    by_cases hr : i ∈ b.ORD.RF
    · exact .inl hr
    by_cases ho : b.RING.attr i "FrequencyOffset" = none
    · rw [hu.freq i (by rw [h.same.ord]; exact hr) (by rw [h.offset]; exact ho)] at hi
      exact h.cavities i hi
    · exact .inr (.inr (Option.isSome_iff_ne_none.2 ho))
  offset := fun i => (hu.attr i _ (by decide +kernel)).trans (h.offset i)

theorem history_prepared (W : World K) {s : SC K} (hb : NoDriftCavity s) (calls : List (Call K)) (hc : ∀ c ∈ calls, c.IsUse) :
    Prepared s (history W calls s) := by
  have : ∀ (l : List (Call K)) (t : SC K), (∀ c ∈ l, c.IsUse) → Prepared s t → Prepared s (history W l t) := by
    intro l
    induction l with
    | nil => exact fun t _ h => h
    | cons c l ih => exact fun t hl h => ih _ (fun c hc => hl c (by simp [hc])) (h.use hb (run_use W c (hl c (by simp)) t))
  exact this calls s hc (Prepared.rfl' s)

/-- calls which use no random numbers -/
theorem run_quiet (W : World K) (c : Call K) (h : c.IsUse) (hq : c.IsQuiet) (s : SC K) : (c.run W s).state.rng = s.rng := by
  have hd : ∀ {α : Type} {m : Py (SC K) α}, (m s).state.rng = s.rng → ((do let _ ← m; Py.pure ()) s).state.rng = s.rng := by
    intro α m hm
    rw [bind_apply]
    cases hq : m s with
    | ok a t => rw [hq] at hm; exact hm
    | error e t => rw [hq] at hm; exact hm
  have : PreRel (fun s s' : SC K => s'.rng = s.rng) := ⟨fun _ => rfl, fun _ _ _ h1 h2 => h2.trans h1⟩
  cases c with
  | register c => exact h.elim
  | systematicMultipoles o ba k sk => exact hd (setSystematicMultipoles_rel o ba k sk s).rng
  | updateCavities o => exact (updateCavities_frame o s).rng
  | updateMagnets o => exact (updateMagnets_modifies o s).rng
  | updateSupports b m => exact (updateSupports_frame W.E b m s).rng
  | setCavity o sp p m => exact (setCavitySetpoints_modifies o sp p m s).rng
  | getCM o sk => exact hd ((show Rel (fun s s' : SC K => s'.rng = s.rng) _ from Rels.rd _) s)
  | setCM o sp sk m => exact (setCMSetpoints_modifies o sp sk m s).rng
  | setMagnet o sp sk k m d => exact (setMagnetSetpoints_modifies o sp sk k m d s).rng
  | veryDeepCopy =>
    refine hd ((show Rel (fun s s' : SC K => s'.rng = s.rng) _ from ?_) s)
    unfold veryDeepCopy
    exact Rels.bind Rels.get (fun s => Rels.ite (Rels.throw _) (Rels.pure' _))
  | verify => exact (show Rel (fun s s' : SC K => s'.rng = s.rng) _ from Rels.bind Rels.get (fun s => Rels.lift _)) s
  | switches a =>
    show (onRing (switchCavityAndRadiation a) s).state.rng = s.rng
    unfold onRing
    cases switchCavityAndRadiation a s.RING <;> rfl
  | trackMode m =>
    show (onInj (setTrackMode m) s).state.rng = s.rng
    unfold onInj
    cases setTrackMode m s.INJ <;> rfl
  | setInjection f => rfl
  | _ => exact hq.elim

theorem history_quiet (W : World K) (calls : List (Call K)) (hc : ∀ c ∈ calls, c.IsUse ∧ c.IsQuiet) (s : SC K) :
    (history W calls s).rng = s.rng := by
  induction calls generalizing s with
  | nil => rfl
  | cons c l ih => exact (ih (fun c hc' => hc c (by simp [hc'])) _).trans (run_quiet W c (hc c (by simp)).1 (hc c (by simp)).2 s)

end PySC
