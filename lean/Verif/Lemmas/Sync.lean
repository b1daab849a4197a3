import Verif.Spec.Instruments
import Verif.Lemmas.Py
/-
Two runs side by side: methods which give related results on related states.
-/
namespace PySC
set_option linter.unusedSectionVars false
open Py Spec

/-- on related states both methods return related values or raise the same exception, and the states stay related -/
def Sync {σ α β : Type _} (R : σ → σ → Prop) (V : α → β → Prop) (m : Py σ α) (m' : Py σ β) : Prop :=
  ∀ s t, R s t → (∃ a b s' t', m s = .ok a s' ∧ m' t = .ok b t' ∧ V a b ∧ R s' t') ∨
    (∃ e s' t', m s = .error e s' ∧ m' t = .error e t' ∧ R s' t')

namespace Sync
variable {σ α β γ δ : Type _} {R : σ → σ → Prop} {V : α → β → Prop} {W : γ → δ → Prop}

theorem bind {m : Py σ α} {m' : Py σ β} {f : α → Py σ γ} {f' : β → Py σ δ} (hm : Sync R V m m') (hf : ∀ a b, V a b → Sync R W (f a) (f' b)) :
    Sync R W (m >>= f) (m' >>= f') := by
  intro s t h
  rw [bind_apply, bind_apply]
  rcases hm s t h with ⟨a, b, s', t', h1, h2, hv, hr⟩ | ⟨e, s', t', h1, h2, hr⟩
  · rw [h1, h2]; exact hf a b hv s' t' hr
  · rw [h1, h2]; exact Or.inr ⟨e, s', t', rfl, rfl, hr⟩

theorem mono {V' : α → β → Prop} {m : Py σ α} {m' : Py σ β} (hm : Sync R V m m') (h : ∀ a b, V a b → V' a b) : Sync R V' m m' := by
  intro s t hr
  rcases hm s t hr with ⟨a, b, s', t', h1, h2, hv, hr⟩ | h2
  · exact Or.inl ⟨a, b, s', t', h1, h2, h a b hv, hr⟩
  · exact Or.inr h2

theorem pure {a : α} {b : β} (h : V a b) : Sync R V (Py.pure a) (Py.pure b) := fun s t hr => Or.inl ⟨a, b, s, t, rfl, rfl, h, hr⟩
theorem throw (e : Err) : Sync R V (Py.throw e) (Py.throw e) := fun s t hr => Or.inr ⟨e, s, t, rfl, rfl, hr⟩
theorem get : Sync R R Py.get Py.get := fun s t hr => Or.inl ⟨s, t, s, t, rfl, rfl, hr, hr⟩
theorem lift (x : Except Err α) : Sync R Eq (Py.lift x) (Py.lift x) := by
  intro s t hr
  cases x with
  | ok a => exact Or.inl ⟨a, a, s, t, rfl, rfl, rfl, hr⟩
  | error e => exact Or.inr ⟨e, s, t, rfl, rfl, hr⟩
theorem modify {f f' : σ → σ} (h : ∀ s t, R s t → R (f s) (f' t)) : Sync R Eq (Py.modify f) (Py.modify f') :=
  fun s t hr => Or.inl ⟨(), (), _, _, rfl, rfl, rfl, h s t hr⟩
theorem ite {c : Prop} [Decidable c] {m n : Py σ α} {m' n' : Py σ β} (hm : Sync R V m m') (hn : Sync R V n n') :
    Sync R V (if c then m else n) (if c then m' else n') := by split <;> assumption
theorem when {c : Bool} {m m' : Py σ Unit} (hm : Sync R Eq m m') : Sync R Eq (Py.when c m) (Py.when c m') := by
  unfold Py.when; exact ite hm (pure rfl)

/-- the same value is handed on -/
theorem seq {m m' : Py σ α} {f : α → Py σ γ} {f' : α → Py σ δ} (hm : Sync R Eq m m') (hf : ∀ a, Sync R W (f a) (f' a)) :
    Sync R W (m >>= f) (m' >>= f') := bind hm (fun a b h => by subst h; exact hf a)

theorem forEach {l : List α} {f f' : α → Py σ Unit} (hf : ∀ x ∈ l, Sync R Eq (f x) (f' x)) : Sync R Eq (Py.forEach l f) (Py.forEach l f') := by
  induction l with
  | nil => exact pure rfl
  | cons x l ih => exact seq (hf x (by simp)) (fun _ => ih (fun y hy => hf y (by simp [hy])))

theorem mapEach {l : List α} {f f' : α → Py σ γ} (hf : ∀ x ∈ l, Sync R Eq (f x) (f' x)) : Sync R Eq (Py.mapEach l f) (Py.mapEach l f') := by
  induction l with
  | nil => exact pure rfl
  | cons x l ih => exact seq (hf x (by simp)) (fun _ => seq (ih (fun y hy => hf y (by simp [hy]))) (fun _ => pure rfl))
end Sync

section
variable {K : Type} [Field K] [LinearOrder K] {α : Type}

theorem sync_of_sameRun {R : SC K → SC K → Prop} {m : Py (SC K) α} (h : SameRun R m) : Sync R Eq m m := by
  intro s t hr
  obtain ⟨h1, h2, h3⟩ := h s t hr
  cases hs : m s with
  | ok a s' =>
    cases ht : m t with
    | ok b t' =>
      rw [hs, ht] at h1 h3
      cases h1
      exact Or.inl ⟨a, a, s', t', rfl, rfl, rfl, h3⟩
    | error e t' => rw [hs, ht] at h1; cases h1
  | error e s' =>
    cases ht : m t with
    | ok b t' => rw [hs, ht] at h1; cases h1
    | error e' t' =>
      rw [hs, ht] at h2 h3
      cases h2
      exact Or.inr ⟨e, s', t', rfl, rfl, h3⟩

theorem Sync.sameRun {R : SC K → SC K → Prop} {m : Py (SC K) α} (h : Sync R Eq m m) : SameRun R m := by
  intro s t hr
  rcases h s t hr with ⟨a, b, s', t', h1, h2, rfl, h4⟩ | ⟨e, s', t', h1, h2, h4⟩
  · rw [h1, h2]; exact ⟨rfl, rfl, h4⟩
  · rw [h1, h2]; exact ⟨rfl, rfl, h4⟩

theorem Sync.rd {R : SC K → SC K → Prop} {f f' : Ring K → Except Err α} (h : ∀ s t, R s t → f s.RING = f' t.RING) :
    Sync R Eq (PySC.rd f) (PySC.rd f') := by
  intro s t hr
  unfold PySC.rd
  rw [h s t hr]
  cases f' t.RING with
  | ok a => exact Or.inl ⟨a, a, s, t, rfl, rfl, rfl, hr⟩
  | error e => exact Or.inr ⟨e, s, t, rfl, rfl, hr⟩
end
end PySC
