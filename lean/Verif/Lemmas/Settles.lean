import Verif.Lemmas.ApplyErrors
/-
Outcomes which no longer depend on the number of passes allowed for drawing random numbers.
-/
namespace PySC
open Py Spec
set_option linter.unusedSectionVars false

/-- with enough passes the outcome is a fixed one: success with `P`, or one of the errors in `Bad` -/
def Settles {σ α : Type} (Bad : Err → σ → Prop) (m : Nat → Py σ α) (s : σ) (P : α → σ → Prop) : Prop :=
  ∃ f0 res, (∀ f, f0 ≤ f → m f s = res) ∧ ((∃ a t, res = .ok a t ∧ P a t) ∨ ∃ e t, res = .error e t ∧ Bad e t)

namespace Settles
variable {σ α β : Type} {Bad : Err → σ → Prop}

theorem of_ok {m : Nat → Py σ α} {s t : σ} {a : α} {P : α → σ → Prop} (h : ∀ f, m f s = .ok a t) (hP : P a t) : Settles Bad m s P :=
  ⟨0, _, fun f _ => h f, Or.inl ⟨a, t, rfl, hP⟩⟩

theorem of_bad {m : Nat → Py σ α} {s t : σ} {e : Err} {P : α → σ → Prop} (h : ∀ f, m f s = .error e t) (hP : Bad e t) : Settles Bad m s P :=
  ⟨0, _, fun f _ => h f, Or.inr ⟨e, t, rfl, hP⟩⟩

theorem mono {m : Nat → Py σ α} {s : σ} {P Q : α → σ → Prop} (h : Settles Bad m s P) (hPQ : ∀ a t, P a t → Q a t) : Settles Bad m s Q := by
  obtain ⟨f0, res, h1, h2⟩ := h
  refine ⟨f0, res, h1, ?_⟩
  rcases h2 with ⟨a, t, rfl, h2⟩ | h2
  · exact Or.inl ⟨a, t, rfl, hPQ a t h2⟩
  · exact Or.inr h2

/-- what is known about successful runs can be added -/
theorem post {m : Nat → Py σ α} {s : σ} {P Q : α → σ → Prop} (h : Settles Bad m s P) (hQ : ∀ f a t, m f s = .ok a t → Q a t) :
    Settles Bad m s (fun a t => P a t ∧ Q a t) := by
  obtain ⟨f0, res, h1, h2⟩ := h
  refine ⟨f0, res, h1, ?_⟩
  rcases h2 with ⟨a, t, rfl, h2⟩ | h2
  · exact Or.inl ⟨a, t, rfl, h2, hQ f0 a t (h1 f0 (le_refl _))⟩
  · exact Or.inr h2

theorem bind {m : Nat → Py σ α} {k : Nat → α → Py σ β} {s : σ} {P : α → σ → Prop} {Q : β → σ → Prop} (h : Settles Bad m s P)
    (hk : ∀ a t, P a t → Settles Bad (fun f => k f a) t Q) : Settles Bad (fun f => m f >>= k f) s Q := by
  obtain ⟨f0, res, h1, h2⟩ := h
  rcases h2 with ⟨a, t, rfl, h2⟩ | ⟨e, t, rfl, h2⟩
  · obtain ⟨f1, res', h3, h4⟩ := hk a t h2
    refine ⟨max f0 f1, res', fun f hf => ?_, h4⟩
    change (m f >>= k f) s = res'
    rw [bind_apply, h1 f (le_trans (le_max_left _ _) hf)]
    exact h3 f (le_trans (le_max_right _ _) hf)
  · refine ⟨f0, .error e t, fun f hf => ?_, Or.inr ⟨e, t, rfl, h2⟩⟩
    change (m f >>= k f) s = _
    rw [bind_apply, h1 f hf]

theorem pure {s : σ} {a : α} {P : α → σ → Prop} (h : P a s) : Settles Bad (fun _ => Py.pure a) s P := of_ok (fun _ => rfl) h

theorem get {s : σ} {P : σ → σ → Prop} (h : P s s) : Settles Bad (fun _ => Py.get) s P := of_ok (fun _ => rfl) h

theorem lift {s : σ} {x : Except Err α} {a : α} {P : α → σ → Prop} (hx : x = .ok a) (h : P a s) : Settles Bad (fun _ => Py.lift x) s P :=
  of_ok (fun _ => lift_eq_ok.2 ⟨hx, rfl⟩) h

theorem modify {s : σ} {g : σ → σ} {P : Unit → σ → Prop} (h : P () (g s)) : Settles Bad (fun _ => Py.modify g) s P := of_ok (fun _ => rfl) h

theorem when {c : Bool} {m : Nat → Py σ Unit} {s : σ} {P : Unit → σ → Prop} (h1 : c = true → Settles Bad m s P) (h2 : c = false → P () s) :
    Settles Bad (fun f => Py.when c (m f)) s P := by
  cases c with
  | false => exact of_ok (fun _ => rfl) (h2 rfl)
  | true => exact h1 rfl

/-- a loop keeps an invariant -/
theorem forEach {l : List α} {g : Nat → α → Py σ Unit} {I : σ → Prop} (hg : ∀ x ∈ l, ∀ s, I s → Settles Bad (fun f => g f x) s (fun _ => I))
    {s : σ} (hs : I s) : Settles Bad (fun f => Py.forEach l (g f)) s (fun _ => I) := by
  induction l generalizing s with
  | nil => exact of_ok (fun _ => rfl) hs
  | cons x l ih =>
    simp only [forEach_cons]
    exact bind (hg x (by simp) s hs) (fun _ t ht => ih (fun y hy => hg y (by simp [hy])) ht)

/-- a loop whose steps do not spoil the preconditions of the steps still to come -/
theorem forEach_fresh {l : List α} {R : α → α → Prop} (hl : l.Pairwise R) {g : Nat → α → Py σ Unit} {I : σ → Prop} {J : α → σ → Prop}
    (hg : ∀ x ∈ l, ∀ s, I s → J x s → Settles Bad (fun f => g f x) s (fun _ => I))
    (hk : ∀ x ∈ l, ∀ y ∈ l, R x y → ∀ f s t, I s → J y s → g f x s = .ok () t → J y t)
    {s : σ} (hs : I s) (hJ : ∀ x ∈ l, J x s) : Settles Bad (fun f => Py.forEach l (g f)) s (fun _ => I) := by
  induction l generalizing s with
  | nil => exact of_ok (fun _ => rfl) hs
  | cons x l ih =>
    simp only [forEach_cons]
    obtain ⟨h1, h2⟩ := List.pairwise_cons.1 hl
    refine bind ((hg x (by simp) s hs (hJ x (by simp))).post (Q := fun _ t => ∀ y ∈ l, J y t) (fun f a t hf y hy =>
      hk x (by simp) y (by simp [hy]) (h1 y hy) f s t hs (hJ y (by simp [hy])) hf)) (fun _ t ht => ?_)
    exact ih h2 (fun y hy => hg y (by simp [hy])) (fun y hy z hz => hk y (by simp [hy]) z (by simp [hz])) ht.1 ht.2
end Settles

section ring
variable {K : Type} [Field K] [LinearOrder K] {Bad : Err → SC K → Prop}

theorem Settles.rd {α : Type} {s : SC K} {x : Ring K → Except Err α} {a : α} {P : α → SC K → Prop} (hx : x s.RING = .ok a) (h : P a s) :
    Settles Bad (fun _ => PySC.rd x) s P := Settles.of_ok (fun _ => rd_eq_ok.2 ⟨hx, rfl⟩) h

theorem Settles.setAttr {s : SC K} {i : Nat} {a : String} {v : Attr K} {P : Unit → SC K → Prop} (hi : i < s.RING.length)
    (h : P () { s with RING := s.RING.setAttr i a v }) : Settles Bad (fun _ => PySC.setAttr i a v) s P :=
  Settles.of_ok (fun _ => setAttr_apply hi) h

/-- the environment with `f` passes -/
def Env.passes (E : Env K) (f : Nat) : Env K := { E with fuel := f }

end ring
end PySC
