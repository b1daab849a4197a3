import Verif.Spec.Commute
import Verif.Lemmas.Rels
import Verif.Lemmas.Register
/-
Methods which read and write only certain elements: run on two machines which agree about these elements they have the same
outcome and leave machines which agree about them; they leave the rest of the machine alone (C91).
-/
namespace PySC
set_option linter.unusedSectionVars false
variable {K : Type} [Field K] [LinearOrder K] [FloorRing K]
open Py Spec

/-- the machines agree about element `i` -/
structure SameAt (i : Nat) (s t : SC K) : Prop where
  elem : s.RING[i]? = t.RING[i]?
  bpm : s.SIG.BPM.get? i = t.SIG.BPM.get? i
  rf : s.SIG.RF.get? i = t.SIG.RF.get? i
  magnet : s.SIG.Magnet.get? i = t.SIG.Magnet.get? i
  oBpm : i ∈ s.ORD.BPM ↔ i ∈ t.ORD.BPM
  oRf : i ∈ s.ORD.RF ↔ i ∈ t.ORD.RF
  oMagnet : i ∈ s.ORD.Magnet ↔ i ∈ t.ORD.Magnet
  oSkew : i ∈ s.ORD.SkewQuad ↔ i ∈ t.ORD.SkewQuad
  oHcm : i ∈ s.ORD.HCM ↔ i ∈ t.ORD.HCM
  oVcm : i ∈ s.ORD.VCM ↔ i ∈ t.ORD.VCM

theorem SameAt.refl (i : Nat) (s : SC K) : SameAt i s s := ⟨rfl, rfl, rfl, rfl, .rfl, .rfl, .rfl, .rfl, .rfl, .rfl⟩
theorem SameAt.symm {i : Nat} {s t : SC K} (h : SameAt i s t) : SameAt i t s :=
  ⟨h.elem.symm, h.bpm.symm, h.rf.symm, h.magnet.symm, h.oBpm.symm, h.oRf.symm, h.oMagnet.symm, h.oSkew.symm, h.oHcm.symm, h.oVcm.symm⟩
theorem SameAt.trans {i : Nat} {s t u : SC K} (h : SameAt i s t) (k : SameAt i t u) : SameAt i s u :=
  ⟨h.elem.trans k.elem, h.bpm.trans k.bpm, h.rf.trans k.rf, h.magnet.trans k.magnet, h.oBpm.trans k.oBpm, h.oRf.trans k.oRf,
   h.oMagnet.trans k.oMagnet, h.oSkew.trans k.oSkew, h.oHcm.trans k.oHcm, h.oVcm.trans k.oVcm⟩

/-- the machines agree about everything that does not belong to one element -/
structure SameWhole (s t : SC K) : Prop where
  design : s.IDEALRING = t.IDEALRING
  injection : s.INJ = t.INJ
  rng : s.rng = t.rng
  girder : s.ORD.Girder = t.ORD.Girder
  plinth : s.ORD.Plinth = t.ORD.Plinth
  sections : s.ORD.Section = t.ORD.Section
  support : s.SIG.Support = t.SIG.Support
  randomInjection : s.SIG.randomInjectionZ = t.SIG.randomInjectionZ
  staticInjection : s.SIG.staticInjectionZ = t.SIG.staticInjectionZ
  circumference : s.SIG.Circumference = t.SIG.Circumference

theorem SameWhole.refl (s : SC K) : SameWhole s s := ⟨rfl, rfl, rfl, rfl, rfl, rfl, rfl, rfl, rfl, rfl⟩
theorem SameWhole.symm {s t : SC K} (h : SameWhole s t) : SameWhole t s :=
  ⟨h.design.symm, h.injection.symm, h.rng.symm, h.girder.symm, h.plinth.symm, h.sections.symm, h.support.symm,
   h.randomInjection.symm, h.staticInjection.symm, h.circumference.symm⟩
theorem SameWhole.trans {s t u : SC K} (h : SameWhole s t) (k : SameWhole t u) : SameWhole s u :=
  ⟨h.design.trans k.design, h.injection.trans k.injection, h.rng.trans k.rng, h.girder.trans k.girder, h.plinth.trans k.plinth,
   h.sections.trans k.sections, h.support.trans k.support, h.randomInjection.trans k.randomInjection,
   h.staticInjection.trans k.staticInjection, h.circumference.trans k.circumference⟩

/-- only elements in `S` were touched -/
structure Untouched (S : Nat → Prop) (s s' : SC K) : Prop where
  other : ∀ i, ¬ S i → SameAt i s s'
  whole : SameWhole s s'

theorem Untouched.refl (S : Nat → Prop) (s : SC K) : Untouched S s s := ⟨fun _ _ => SameAt.refl _ _, SameWhole.refl s⟩
theorem Untouched.trans {S : Nat → Prop} {s t u : SC K} (h : Untouched S s t) (k : Untouched S t u) : Untouched S s u :=
  ⟨fun i hi => (h.other i hi).trans (k.other i hi), h.whole.trans k.whole⟩

/-- the machines agree about the elements in `S` -/
def AgreeOn (S : Nat → Prop) (s t : SC K) : Prop := ∀ i, S i → SameAt i s t

/-- the magnets in `o` and their children are in `S` -/
def Kids (o : List Nat) (S : Nat → Prop) (s : SC K) : Prop :=
  ∀ m ∈ o, S m ∧ ∀ l, s.RING.attr m "MasterOf" = some (.ords l) → ∀ i ∈ l, S i

/-- the outcomes of a method on two machines -/
def Together {α : Type _} (o : List Nat) (S : Nat → Prop) (Q : α → Prop) (s : SC K) : Res (SC K) α → Res (SC K) α → Prop
  | .ok a s', .ok b t' => a = b ∧ Q a ∧ Kids o S s' ∧ AgreeOn S s' t' ∧ Untouched S s s'
  | .error e s', .error f t' => e = f ∧ Kids o S s' ∧ AgreeOn S s' t' ∧ Untouched S s s'
  | _, _ => False

/-- the method reads and writes only elements in `S` -/
def Loc {α : Type _} (o : List Nat) (S : Nat → Prop) (Q : α → Prop) (m : Py (SC K) α) : Prop :=
  ∀ s t, Kids o S s → AgreeOn S s t → Together o S Q s (m s) (m t)

namespace Loc
variable {α β : Type _} {o : List Nat} {S : Nat → Prop} {Q : α → Prop}

theorem pure' {a : α} (h : Q a) : Loc o S Q (Py.pure a : Py (SC K) α) :=
  fun s _ hk ha => ⟨rfl, h, hk, ha, Untouched.refl S s⟩
theorem pure {a : α} (h : Q a) : Loc o S Q (Pure.pure a : Py (SC K) α) := pure' h
theorem throw {e : Err} : Loc o S Q (Py.throw e : Py (SC K) α) := fun s _ hk ha => ⟨rfl, hk, ha, Untouched.refl S s⟩
theorem lift {x : Except Err α} (h : ∀ a, x = .ok a → Q a) : Loc o S Q (Py.lift x : Py (SC K) α) := by
  intro s t hk ha
  unfold Py.lift
  cases x with
  | ok a => exact ⟨rfl, h a rfl, hk, ha, Untouched.refl S s⟩
  | error e => exact ⟨rfl, hk, ha, Untouched.refl S s⟩

theorem bind {P : β → Prop} {m : Py (SC K) α} {f : α → Py (SC K) β} (hm : Loc o S Q m) (hf : ∀ a, Q a → Loc o S P (f a)) :
    Loc o S P (m >>= f) := by
  intro s t hk ha
  have h := hm s t hk ha
  rw [bind_apply, bind_apply]
  cases h1 : m s with
  | ok a s' =>
    cases h2 : m t with
    | ok b t' =>
      rw [h1, h2] at h
      obtain ⟨rfl, hq, hk', ha', hu⟩ := h
      have h' := hf a hq s' t' hk' ha'
      dsimp only
      cases h3 : f a s' with
      | ok c s'' =>
        cases h4 : f a t' with
        | ok d t'' => rw [h3, h4] at h'; exact ⟨h'.1, h'.2.1, h'.2.2.1, h'.2.2.2.1, hu.trans h'.2.2.2.2⟩
        | error e t'' => rw [h3, h4] at h'; exact h'.elim
      | error e s'' =>
        cases h4 : f a t' with
        | ok d t'' => rw [h3, h4] at h'; exact h'.elim
        | error e' t'' => rw [h3, h4] at h'; exact ⟨h'.1, h'.2.1, h'.2.2.1, hu.trans h'.2.2.2⟩
    | error e t' => rw [h1, h2] at h; exact h.elim
  | error e s' =>
    cases h2 : m t with
    | ok b t' => rw [h1, h2] at h; exact h.elim
    | error e' t' => rw [h1, h2] at h; exact h

theorem mono {P : α → Prop} {m : Py (SC K) α} (hm : Loc o S Q m) (h : ∀ a, Q a → P a) : Loc o S P m := by
  intro s t hk ha
  have := hm s t hk ha
  cases h1 : m s <;> cases h2 : m t <;> rw [h1, h2] at this
  · exact ⟨this.1, h _ this.2.1, this.2.2⟩
  · exact this.elim
  · exact this.elim
  · exact this

theorem forEach {l : List β} {f : β → Py (SC K) Unit} (hf : ∀ x ∈ l, Loc o S (fun _ => True) (f x)) :
    Loc o S (fun _ => True) (Py.forEach l f) := by
  induction l with
  | nil => exact pure' trivial
  | cons x xs ih => exact bind (hf x (by simp)) (fun _ _ => ih (fun y hy => hf y (by simp [hy])))

theorem ite {c : Prop} [Decidable c] {m n : Py (SC K) α} (hm : Loc o S Q m) (hn : Loc o S Q n) :
    Loc o S Q (if c then m else n) := by split <;> assumption
theorem when {c : Bool} {m : Py (SC K) Unit} (hm : Loc o S (fun _ => True) m) : Loc o S (fun _ => True) (Py.when c m) := by
  unfold Py.when; split
  · exact hm
  · exact pure' trivial

/-- reading the state, if only what the machines agree about is used -/
theorem getBind {f : SC K → Py (SC K) α} (h : ∀ s t, AgreeOn S s t → f s = f t) (hf : ∀ s, Loc o S Q (f s)) :
    Loc o S Q (Py.get >>= f) := by
  intro s t hk ha
  rw [bind_apply, bind_apply, get_apply, get_apply]
  dsimp only
  rw [← h s t ha]
  exact hf s s t hk ha

theorem rd {f : Ring K → Except Err α} (h : ∀ r r' : Ring K, (∀ i, S i → r[i]? = r'[i]?) → f r = f r')
    (hq : ∀ s, Kids o S s → ∀ a, f s.RING = .ok a → Q a) : Loc o S Q (PySC.rd f) := by
  intro s t hk ha
  have := h s.RING t.RING (fun i hi => (ha i hi).elem)
  unfold PySC.rd
  rw [← this]
  cases h1 : f s.RING with
  | ok a => exact ⟨rfl, hq s hk a h1, hk, ha, Untouched.refl S s⟩
  | error e => exact ⟨rfl, hk, ha, Untouched.refl S s⟩

theorem read {f : Ring K → Except Err α} (h : ∀ r r' : Ring K, (∀ i, S i → r[i]? = r'[i]?) → f r = f r') :
    Loc o S (fun _ => True) (PySC.rd f) := rd h (fun _ _ _ _ => trivial)

theorem modify {f : SC K → SC K} (hk : ∀ s, Kids o S s → Kids o S (f s)) (ha : ∀ s t, AgreeOn S s t → AgreeOn S (f s) (f t))
    (hu : ∀ s, Untouched S s (f s)) : Loc o S (fun _ => True) (Py.modify f) :=
  fun s t hk' ha' => ⟨rfl, trivial, hk s hk', ha s t ha', hu s⟩

theorem setAttr {i : Nat} {a : String} {v : Attr K} (hi : S i) (h : o = [] ∨ a ≠ "MasterOf") :
    Loc o S (fun _ => True) (PySC.setAttr i a v) := by
  refine bind (read (fun r r' h => by simp only [Ring.getE, h i hi])) (fun _ _ => modify (fun s hk m hm => ?_) (fun s t ha j hj => ?_)
    (fun s => ⟨fun j hj => ?_, ?_⟩))
  · rcases h with h | h
    · subst h; simp at hm
    · dsimp only; rw [Ring.attr_setAttr_ne h.symm]; exact hk m hm
  · have := ha j hj
    refine ⟨?_, this.bpm, this.rf, this.magnet, this.oBpm, this.oRf, this.oMagnet, this.oSkew, this.oHcm, this.oVcm⟩
    dsimp only
    simp only [Ring.setAttr, List.getElem?_modify, this.elem]
  · refine ⟨?_, rfl, rfl, rfl, .rfl, .rfl, .rfl, .rfl, .rfl, .rfl⟩
    dsimp only
    have : i ≠ j := fun h => hj (h ▸ hi)
    simp [Ring.setAttr, List.getElem?_modify, this]
  · exact ⟨rfl, rfl, rfl, rfl, rfl, rfl, rfl, rfl, rfl, rfl⟩

end Loc

end PySC
