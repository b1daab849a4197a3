import Verif.Lemmas.Ring
/-
A tactic `rels` which proves that a method relates the state before and after a call by a reflexive and transitive
relation, whatever the outcome of the call.
-/
namespace PySC
set_option linter.unusedSectionVars false
open Py

/-- reflexive and transitive relations between states -/
class PreRel {σ : Type _} (R : σ → σ → Prop) : Prop where
  refl : ∀ s, R s s
  trans : ∀ a b c, R a b → R b c → R a c

instance {σ τ : Type _} (f : σ → τ) : PreRel (fun s s' => f s' = f s) :=
  ⟨fun _ => rfl, fun _ _ _ h1 h2 => h2.trans h1⟩
instance {K : Type _} (W : Nat → String → Prop) : PreRel (Frame (K := K) W) := ⟨Frame.refl, Frame.trans⟩
instance {σ : Type _} (P : σ → Prop) : PreRel (fun s s' => P s → P s') :=
  ⟨fun _ h => h, fun _ _ _ h1 h2 h => h2 (h1 h)⟩

namespace Rels
variable {σ α β : Type _} {R : σ → σ → Prop} [PreRel R]
theorem pure (a : α) : Rel R (Pure.pure a : Py σ α) := fun s => PreRel.refl s
theorem pure' (a : α) : Rel R (Py.pure a : Py σ α) := fun s => PreRel.refl s
theorem throw (e : Err) : Rel R (Py.throw e : Py σ α) := fun s => PreRel.refl s
theorem get : Rel R (Py.get : Py σ σ) := fun s => PreRel.refl s
theorem lift (x : Except Err α) : Rel R (Py.lift x : Py σ α) := Rel.lift PreRel.refl x
theorem bind {m : Py σ α} {f : α → Py σ β} (hm : Rel R m) (hf : ∀ a, Rel R (f a)) : Rel R (m >>= f) :=
  Rel.bind PreRel.trans hm hf
theorem forEach {l : List α} {f : α → Py σ Unit} (hf : ∀ x ∈ l, Rel R (f x)) : Rel R (Py.forEach l f) :=
  Rel.forEach PreRel.refl PreRel.trans hf
theorem mapEach {l : List α} {f : α → Py σ β} (hf : ∀ x ∈ l, Rel R (f x)) : Rel R (Py.mapEach l f) :=
  Rel.mapEach PreRel.refl PreRel.trans hf
theorem when {c : Bool} {m : Py σ Unit} (hm : Rel R m) : Rel R (Py.when c m) := Rel.when PreRel.refl hm
theorem ite {c : Prop} [Decidable c] {m n : Py σ α} (hm : Rel R m) (hn : Rel R n) :
    Rel R (if c then m else n) := by split <;> assumption
theorem modify {f : σ → σ} (h : ∀ s, R s (f s)) : Rel R (Py.modify f) := h
end Rels

section
variable {K : Type _} {α : Type _} {R : SC K → SC K → Prop} [PreRel R]
theorem Rels.rd (f : Ring K → Except Err α) : Rel R (PySC.rd f) := by
  intro s; unfold PySC.rd; cases f s.RING <;> exact PreRel.refl s
theorem Rels.setAttr {i : Nat} {a : String} {v : Attr K}
    (h : ∀ s : SC K, R s { s with RING := s.RING.setAttr i a v }) : Rel R (PySC.setAttr i a v) :=
  Rels.bind (Rels.rd _) (fun _ => h)
end

/-- walks through the program text; leaves the side goals of assignments -/
macro "rels" : tactic => `(tactic|
  with_reducible repeat' (first
    | exact Rels.pure _ | exact Rels.pure' _ | exact Rels.throw _ | exact Rels.get
    | exact Rels.lift _ | exact Rels.rd _
    | assumption
    | refine Rels.setAttr (fun _ => ?_)
    | refine Rels.modify (fun _ => ?_)
    | refine Rels.bind ?_ (fun _ => ?_)
    | refine Rels.forEach (fun _ _ => ?_)
    | refine Rels.mapEach (fun _ _ => ?_)
    | refine Rels.when ?_
    | refine Rels.ite ?_ ?_))

/-- loops: what every pass establishes and no other pass destroys holds at the end -/
theorem forEach_post {σ α : Type _} {f : α → Py σ Unit} {I : σ → Prop} {P : α → σ → Prop} {l : List α}
    (hI : ∀ x s s', I s → f x s = .ok () s' → I s')
    (hP : ∀ x ∈ l, ∀ s s', I s → f x s = .ok () s' → P x s')
    (hk : ∀ x ∈ l, ∀ y ∈ l, ∀ s s', I s → x ≠ y → P y s → f x s = .ok () s' → P y s')
    {s s' : σ} (h : Py.forEach l f s = .ok () s') (hs : I s) : ∀ y ∈ l, P y s' := by
  classical
  have key : ∀ (l' : List α), (∀ x ∈ l', x ∈ l) → ∀ (s s' : σ), Py.forEach l' f s = .ok () s' → I s →
      ∀ y ∈ l, (y ∈ l' ∨ P y s) → P y s' := by
    intro l'
    induction l' with
    | nil => intro _ s s' h _ y _ hy; simp at h hy; subst h; exact hy
    | cons x xs ih =>
      intro hsub s s' h hs y hyl hy
      have hx := hsub x (by simp)
      rw [forEach_cons, bind_eq_ok] at h
      obtain ⟨⟨⟩, s1, h1, h2⟩ := h
      refine ih (fun z hz => hsub z (by simp [hz])) s1 s' h2 (hI x s s1 hs h1) y hyl ?_
      by_cases hxy : x = y
      · subst hxy; exact Or.inr (hP x hx s s1 hs h1)
      · rcases hy with hy | hy
        · rcases List.mem_cons.1 hy with rfl | hy
          · exact absurd rfl hxy
          · exact Or.inl hy
        · exact Or.inr (hk x hx y hyl s s1 hs hxy hy h1)
  exact fun y hy => key l (fun _ h => h) s s' h hs y hy (Or.inl hy)

/-- loops which end normally: what every pass keeps holds at the end -/
theorem forEach_inv {σ α : Type _} {f : α → Py σ Unit} {I : σ → Prop} {l : List α}
    (hI : ∀ x ∈ l, ∀ s s', I s → f x s = .ok () s' → I s') {s s' : σ} (h : Py.forEach l f s = .ok () s') (hs : I s) : I s' := by
  induction l generalizing s with
  | nil => simp at h; subst h; exact hs
  | cons x xs ih =>
    rw [forEach_cons, bind_eq_ok] at h
    obtain ⟨⟨⟩, s1, h1, h2⟩ := h
    exact ih (fun y hy => hI y (by simp [hy])) h2 (hI x (by simp) s s1 hs h1)

/-- loops over different items: each pass starts from what the passes before it left alone -/
theorem forEach_post_fresh {σ α : Type _} {f : α → Py σ Unit} {I : σ → Prop} {P Q : α → σ → Prop} {l : List α} (hnd : l.Nodup)
    (hI : ∀ x ∈ l, ∀ s s', I s → f x s = .ok () s' → I s')
    (hP : ∀ x ∈ l, ∀ s s', I s → Q x s → f x s = .ok () s' → P x s')
    (hQ : ∀ x ∈ l, ∀ y ∈ l, ∀ s s', I s → x ≠ y → Q y s → f x s = .ok () s' → Q y s')
    (hk : ∀ x ∈ l, ∀ y ∈ l, ∀ s s', I s → x ≠ y → P y s → f x s = .ok () s' → P y s')
    {s s' : σ} (h : Py.forEach l f s = .ok () s') (hs : I s) (hq : ∀ y ∈ l, Q y s) : ∀ y ∈ l, P y s' := by
  induction l generalizing s with
  | nil => intro y hy; simp at hy
  | cons x xs ih =>
    rw [List.nodup_cons] at hnd
    rw [forEach_cons, bind_eq_ok] at h
    obtain ⟨⟨⟩, s1, h1, h2⟩ := h
    have hI1 := hI x (by simp) s s1 hs h1
    intro y hy
    rcases List.mem_cons.1 hy with rfl | hy
    · exact (forEach_inv (I := fun t => I t ∧ P y t) (fun z hz t t' ht hf =>
        ⟨hI z (by simp [hz]) t t' ht.1 hf, hk z (by simp [hz]) y (by simp) t t' ht.1 (fun he => hnd.1 (he ▸ hz)) ht.2 hf⟩) h2
        ⟨hI1, hP y (by simp) s s1 hs (hq y (by simp)) h1⟩).2
    · exact ih hnd.2 (fun z hz => hI z (by simp [hz])) (fun z hz => hP z (by simp [hz]))
        (fun z hz w hw => hQ z (by simp [hz]) w (by simp [hw])) (fun z hz w hw => hk z (by simp [hz]) w (by simp [hw])) h2 hI1
        (fun z hz => hQ x (by simp) z (by simp [hz]) s s1 hs (fun he => hnd.1 (he ▸ hz)) (hq z (by simp [hz])) h1) y hy

/-- loops always succeed if every pass does -/
theorem forEach_progress {σ α : Type _} {f : α → Py σ Unit} {I : σ → Prop} {l : List α}
    (hf : ∀ x ∈ l, ∀ s, I s → ∃ s', f x s = .ok () s' ∧ I s') {s : σ} (hs : I s) :
    ∃ s', Py.forEach l f s = .ok () s' ∧ I s' := by
  induction l generalizing s with
  | nil => exact ⟨s, rfl, hs⟩
  | cons x xs ih =>
    obtain ⟨s1, h1, hs1⟩ := hf x (by simp) s hs
    obtain ⟨s2, h2, hs2⟩ := ih (fun y hy => hf y (by simp [hy])) hs1
    exact ⟨s2, by rw [forEach_cons, bind_eq_ok]; exact ⟨(), s1, h1, h2⟩, hs2⟩

end PySC
