import Verif.Lemmas.CommuteCalls
import Verif.Lemmas.History
/-
Methods which concern different elements can be exchanged (C91).
-/
namespace PySC
set_option linter.unusedSectionVars false
variable {K : Type} [Field K] [LinearOrder K] [FloorRing K]
open Py Spec

theorem AgreeOn.refl (S : Nat → Prop) (s : SC K) : AgreeOn S s s := fun _ _ => SameAt.refl _ _
theorem AgreeOn.symm {S : Nat → Prop} {s t : SC K} (h : AgreeOn S s t) : AgreeOn S t s := fun i hi => (h i hi).symm

theorem attr_of_elem {r r' : Ring K} {i : Nat} (h : r[i]? = r'[i]?) (a : String) : r.attr i a = r'.attr i a := by
  unfold Ring.attr; rw [h]

theorem Kids.congr {o : List Nat} {S : Nat → Prop} {s t : SC K} (h : Kids o S s) (ha : AgreeOn S s t) : Kids o S t := by
  intro m hm
  refine ⟨(h m hm).1, fun l hl => (h m hm).2 l ?_⟩
  rw [attr_of_elem (ha m (h m hm).1).elem]; exact hl

/-- what two runs of a method which is local to `S` have in common -/
theorem Loc.outcome {α : Type _} {o : List Nat} {S : Nat → Prop} {Q : α → Prop} {m : Py (SC K) α} (hm : Loc o S Q m) {s t : SC K}
    (hk : Kids o S s) (ha : AgreeOn S s t) :
    (m s).value? = (m t).value? ∧ (m s).err? = (m t).err? ∧ AgreeOn S (m s).state (m t).state ∧
    Untouched S s (m s).state ∧ Untouched S t (m t).state := by
  have h1 := hm s t hk ha
  have h2 := hm t s (hk.congr ha) ha.symm
  cases hs : m s with
  | ok a s' =>
    cases ht : m t with
    | ok b t' =>
      rw [hs, ht] at h1 h2
      exact ⟨congrArg some h1.1, rfl, h1.2.2.2.1, h1.2.2.2.2, h2.2.2.2.2⟩
    | error e t' => rw [hs, ht] at h1; exact h1.elim
  | error e s' =>
    cases ht : m t with
    | ok b t' => rw [hs, ht] at h1; exact h1.elim
    | error f t' =>
      rw [hs, ht] at h1 h2
      exact ⟨rfl, congrArg some h1.1, h1.2.2.1, h1.2.2.2, h2.2.2.2⟩

theorem Untouched.agree {S T : Nat → Prop} (hd : ∀ i, ¬ (S i ∧ T i)) {s s' : SC K} (h : Untouched S s s') : AgreeOn T s s' :=
  fun i hi => h.other i (fun hs => hd i ⟨hs, hi⟩)

/-- two methods which are local to different elements: neither notices the other, and the order does not matter -/
theorem Loc.swap {α β : Type _} {o p : List Nat} {S T : Nat → Prop} {Q : α → Prop} {P : β → Prop} {m : Py (SC K) α}
    {n : Py (SC K) β} (hm : Loc o S Q m) (hn : Loc p T P n) (hd : ∀ i, ¬ (S i ∧ T i)) {s : SC K} (hS : Kids o S s) (hT : Kids p T s) :
    (n (m s).state).value? = (n s).value? ∧ (n (m s).state).err? = (n s).err? ∧
    (m (n s).state).value? = (m s).value? ∧ (m (n s).state).err? = (m s).err? ∧
    (∀ i, SameAt i (n (m s).state).state (m (n s).state).state) ∧ SameWhole (n (m s).state).state (m (n s).state).state := by
  have um := (hm.outcome hS (AgreeOn.refl S s)).2.2.2.1
  have un := (hn.outcome hT (AgreeOn.refl T s)).2.2.2.1
  obtain ⟨a1, a2, a3, -, a5⟩ := hn.outcome hT (um.agree hd)
  obtain ⟨b1, b2, b3, -, b5⟩ := hm.outcome hS (un.agree (fun i h => hd i ⟨h.2, h.1⟩))
  refine ⟨a1.symm, a2.symm, b1.symm, b2.symm, fun i => ?_, ?_⟩
  · by_cases hi : S i
    · exact (a5.other i (fun h => hd i ⟨hi, h⟩)).symm.trans (b3 i hi)
    · by_cases hj : T i
      · exact (a3 i hj).symm.trans (b5.other i hi)
      · exact ((um.other i hi).trans (a5.other i hj)).symm.trans ((un.other i hj).trans (b5.other i hi))
  · exact (um.whole.trans a5.whole).symm.trans (un.whole.trans b5.whole)

/-! ### machines -/

theorem increasing_ext {l m : List Nat} (hl : Increasing l) (hm : Increasing m) (h : ∀ i, i ∈ l ↔ i ∈ m) : l = m := by
  induction l generalizing m with
  | nil =>
    cases m with
    | nil => rfl
    | cons y ys => exact absurd ((h y).2 (by simp)) (by simp)
  | cons x xs ih =>
    cases m with
    | nil => exact absurd ((h x).1 (by simp)) (by simp)
    | cons y ys =>
      have hx := List.pairwise_cons.1 hl
      have hy := List.pairwise_cons.1 hm
      have hxy : x = y := by
        rcases List.mem_cons.1 ((h x).1 (by simp)) with h1 | h1
        · exact h1
        · rcases List.mem_cons.1 ((h y).2 (by simp)) with h2 | h2
          · exact h2.symm
          · exact absurd (hx.1 y h2) (Nat.not_lt.2 (Nat.le_of_lt (hy.1 x h1)))
      subst hxy
      congr 1
      refine ih hx.2 hy.2 (fun i => ?_)
      have hi := h i
      simp only [List.mem_cons] at hi
      constructor
      · intro h1
        rcases hi.1 (Or.inr h1) with h2 | h2
        · exact absurd (h2 ▸ hx.1 i h1) (Nat.lt_irrefl _)
        · exact h2
      · intro h1
        rcases hi.2 (Or.inr h1) with h2 | h2
        · exact absurd (h2 ▸ hy.1 i h1) (Nat.lt_irrefl _)
        · exact h2

theorem alike_of {s t : SC K} (hs : Tidy s.ORD) (ht : Tidy t.ORD) (h : ∀ i, SameAt i s t) (hw : SameWhole s t) : Alike s t where
  ring := List.ext_getElem? (fun i => (h i).elem)
  design := hw.design
  injection := hw.injection
  ord := by
    have h1 := increasing_ext hs.BPM ht.BPM (fun i => (h i).oBpm)
    have h2 := increasing_ext hs.RF ht.RF (fun i => (h i).oRf)
    have h3 := increasing_ext hs.Magnet ht.Magnet (fun i => (h i).oMagnet)
    have h4 := increasing_ext hs.SkewQuad ht.SkewQuad (fun i => (h i).oSkew)
    have h5 := increasing_ext hs.HCM ht.HCM (fun i => (h i).oHcm)
    have h6 := increasing_ext hs.VCM ht.VCM (fun i => (h i).oVcm)
    have h7 := hw.girder
    have h8 := hw.plinth
    have h9 := hw.sections
    revert h1 h2 h3 h4 h5 h6 h7 h8 h9
    cases s.ORD; cases t.ORD
    rintro rfl rfl rfl rfl rfl rfl rfl rfl rfl
    rfl
  rng := hw.rng
  bpm i := (h i).bpm
  rf i := (h i).rf
  magnet i := (h i).magnet
  support := hw.support
  randomInjection := hw.randomInjection
  staticInjection := hw.staticInjection
  circumference := hw.circumference

theorem Spec.Alike.at {s t : SC K} (h : Alike s t) (i : Nat) : SameAt i s t :=
  ⟨by rw [h.ring], h.bpm i, h.rf i, h.magnet i, by rw [h.ord], by rw [h.ord], by rw [h.ord], by rw [h.ord], by rw [h.ord], by rw [h.ord]⟩
theorem Spec.Alike.whole {s t : SC K} (h : Alike s t) : SameWhole s t :=
  ⟨h.design, h.injection, h.rng, by rw [h.ord], by rw [h.ord], by rw [h.ord], h.support, h.randomInjection, h.staticInjection, h.circumference⟩
theorem Spec.Alike.refl (s : SC K) : Alike s s :=
  ⟨rfl, rfl, rfl, rfl, rfl, fun _ => rfl, fun _ => rfl, fun _ => rfl, rfl, rfl, rfl, rfl⟩
theorem Spec.Alike.trans {s t u : SC K} (h : Alike s t) (k : Alike t u) : Alike s u :=
  ⟨h.ring.trans k.ring, h.design.trans k.design, h.injection.trans k.injection, h.ord.trans k.ord, h.rng.trans k.rng,
   fun i => (h.bpm i).trans (k.bpm i), fun i => (h.rf i).trans (k.rf i), fun i => (h.magnet i).trans (k.magnet i),
   h.support.trans k.support, h.randomInjection.trans k.randomInjection, h.staticInjection.trans k.staticInjection,
   h.circumference.trans k.circumference⟩

/-! ### calls -/

/-- calls are local to the elements they name and the children of these -/
theorem call_loc (W : World K) {c : Call K} {o : List Nat} (hc : c.named = some o) {S : Nat → Prop} (ho : ∀ i ∈ o, S i) :
    ∃ o', (∀ i ∈ o', i ∈ o) ∧ Loc o' S (fun _ => True) (c.run W) := by
  have hd : ∀ {α : Type} {o' : List Nat} {m : Py (SC K) α}, Loc o' S (fun _ => True) m →
      Loc o' S (fun _ => True) (do let _ ← m; Py.pure ()) := fun hm => Loc.bind hm (fun _ _ => Loc.pure' trivial)
  have hn : ∀ i ∈ ([] : List Nat), i ∈ o := fun i hi => by simp at hi
  cases c with
  | register c =>
    cases c <;> simp only [Call.named, Option.some.injEq, reduceCtorEq] at hc
    · subst hc; exact ⟨[], hn, registerBpms_loc ho _⟩
    · subst hc; exact ⟨[], hn, registerCavities_loc ho _⟩
    · subst hc; exact ⟨[], hn, registerMagnets_loc ho _⟩
  | systematicMultipoles l ba k sk =>
    simp only [Call.named, Option.some.injEq] at hc; subst hc; exact ⟨[], hn, hd (setSystematicMultipoles_loc ho _ _ _)⟩
  | updateCavities l => simp only [Call.named] at hc; subst hc; exact ⟨[], hn, updateCavities_loc ho⟩
  | updateMagnets l => simp only [Call.named] at hc; subst hc; exact ⟨o, fun _ h => h, updateMagnets_loc (fun _ h => h) ho⟩
  | setCavity l sp p m =>
    simp only [Call.named, Option.some.injEq] at hc; subst hc; exact ⟨[], hn, setCavitySetpoints_loc ho _ _ _⟩
  | getCM l sk =>
    simp only [Call.named, Option.some.injEq] at hc; subst hc; exact ⟨[], hn, hd (getCMSetpoints_loc ho _)⟩
  | setCM l sp sk m =>
    simp only [Call.named, Option.some.injEq] at hc; subst hc
    exact ⟨_, fun _ h => h, setCMSetpoints_loc (fun _ h => h) ho _ _ _⟩
  | setMagnet l sp sk k m d =>
    simp only [Call.named, Option.some.injEq] at hc; subst hc
    exact ⟨_, fun _ h => h, setMagnetSetpoints_loc (fun _ h => h) ho _ _ _ _ _⟩
  | _ => simp [Call.named] at hc

theorem kids_concerned {o o' : List Nat} (h : ∀ i ∈ o', i ∈ o) (s : SC K) : Kids o' (Concerned s o) s :=
  fun m hm => ⟨Or.inl (h m hm), fun l hl _ hi => Or.inr ⟨m, h m hm, l, hl, hi⟩⟩

theorem kids_all (o : List Nat) (s : SC K) : Kids o (fun _ => True) s := fun _ _ => ⟨trivial, fun _ _ _ _ => trivial⟩

theorem call_tidy (W : World K) (c : Call K) (s : SC K) (h : Tidy s.ORD) (hr : ∀ r, c = .register r → Tidy (r.run s).state.ORD) :
    Tidy (c.run W s).state.ORD := by
  by_cases hc : c.IsRegistration
  · cases c <;> simp only [Call.IsRegistration] at hc
    exact hr _ rfl
  · rw [(run_keeps W c hc s).ord]; exact h

/-- a call which concerns certain elements does not change what concerns other ones -/
theorem concerned_after {W : World K} {c : Call K} {s : SC K} {o p : List Nat} (hc : c.named = some o)
    (hd : ∀ i, ¬ (Concerned s o i ∧ Concerned s p i)) (i : Nat) : Concerned (c.run W s).state p i ↔ Concerned s p i := by
  obtain ⟨o', ho', hl⟩ := call_loc W hc (S := Concerned s o) (fun i hi => Or.inl hi)
  have hu := (hl.outcome (kids_concerned ho' s) (AgreeOn.refl _ s)).2.2.2.1
  have : ∀ m ∈ p, (c.run W s).state.RING.attr m "MasterOf" = s.RING.attr m "MasterOf" := fun m hm =>
    (attr_of_elem (hu.other m (fun h => hd m ⟨h, Or.inl hm⟩)).elem _).symm
  unfold Concerned
  constructor
  · rintro (h | ⟨m, hm, l, hl, hi⟩)
    · exact Or.inl h
    · exact Or.inr ⟨m, hm, l, by rw [← this m hm]; exact hl, hi⟩
  · rintro (h | ⟨m, hm, l, hl, hi⟩)
    · exact Or.inl h
    · exact Or.inr ⟨m, hm, l, by rw [this m hm]; exact hl, hi⟩

theorem Spec.Apart.symm {s : SC K} {c d : Call K} (h : Apart s c d) : Apart s d c := by
  obtain ⟨o, p, h1, h2, h3⟩ := h
  exact ⟨p, o, h2, h1, fun i hi => h3 i ⟨hi.2, hi.1⟩⟩

theorem Spec.Apart.after {W : World K} {s : SC K} {c d e : Call K} (h : Apart s d e) (hd : Apart s c d) (he : Apart s c e) :
    Apart (c.run W s).state d e := by
  obtain ⟨p, q, h1, h2, h3⟩ := h
  obtain ⟨o, p', hc, hp, h4⟩ := hd
  obtain ⟨o', q', hc', hq, h5⟩ := he
  obtain rfl : o = o' := by rw [hc] at hc'; exact Option.some.inj hc'
  obtain rfl : p = p' := by rw [h1] at hp; exact Option.some.inj hp
  obtain rfl : q = q' := by rw [h2] at hq; exact Option.some.inj hq
  refine ⟨p, q, h1, h2, fun i hi => h3 i ?_⟩
  rw [concerned_after hc h4, concerned_after hc h5] at hi
  exact hi

theorem Spec.Apart.swap (W : World K) {s : SC K} {c d : Call K} (h : Apart s c d) :
    (d.run W (c.run W s).state).err? = (d.run W s).err? ∧ (c.run W (d.run W s).state).err? = (c.run W s).err? ∧
    (∀ i, SameAt i (d.run W (c.run W s).state).state (c.run W (d.run W s).state).state) ∧
    SameWhole (d.run W (c.run W s).state).state (c.run W (d.run W s).state).state := by
  obtain ⟨o, p, hc, hp, hd⟩ := h
  obtain ⟨o', ho', hm⟩ := call_loc W hc (S := Concerned s o) (fun i hi => Or.inl hi)
  obtain ⟨p', hp', hn⟩ := call_loc W hp (S := Concerned s p) (fun i hi => Or.inl hi)
  obtain ⟨-, h2, -, h4, h5, h6⟩ := Loc.swap hm hn hd (kids_concerned ho' s) (kids_concerned hp' s)
  exact ⟨h2, h4, h5, h6⟩

/-- calls which concern certain elements can not tell machines apart which are alike -/
theorem alike_call (W : World K) {c : Call K} {o : List Nat} (hc : c.named = some o) {s t : SC K} (h : Alike s t) :
    (c.run W s).err? = (c.run W t).err? ∧ (∀ i, SameAt i (c.run W s).state (c.run W t).state) ∧
    SameWhole (c.run W s).state (c.run W t).state := by
  obtain ⟨o', -, hl⟩ := call_loc W hc (S := fun _ => True) (fun i hi => trivial)
  obtain ⟨-, h2, h3, h4, h5⟩ := hl.outcome (kids_all o' s) (fun i _ => h.at i)
  exact ⟨h2, fun i => h3 i trivial, h4.whole.symm.trans (h.whole.trans h5.whole)⟩

end PySC
