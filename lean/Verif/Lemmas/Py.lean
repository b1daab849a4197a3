import Verif.Model.Py
/-
Reasoning principles for `Py`: inversion of successful runs, and frame (state relation) rules which also
cover the exceptional outcomes.
-/
namespace PySC
namespace Py
variable {σ α β : Type _}

@[simp] theorem pure_apply (a : α) (s : σ) : (pure a : Py σ α) s = .ok a s := rfl
@[simp] theorem pure_apply' (a : α) (s : σ) : (Py.pure a : Py σ α) s = .ok a s := rfl
@[simp] theorem throw_apply (e : Err) (s : σ) : (throw e : Py σ α) s = .error e s := rfl
@[simp] theorem get_apply (s : σ) : (get : Py σ σ) s = .ok s s := rfl
@[simp] theorem modify_apply (f : σ → σ) (s : σ) : modify f s = .ok () (f s) := rfl
@[simp] theorem lift_ok_apply (a : α) (s : σ) : (lift (.ok a) : Py σ α) s = .ok a s := rfl
@[simp] theorem lift_error_apply (e : Err) (s : σ) : (lift (.error e) : Py σ α) s = .error e s := rfl

theorem bind_apply (m : Py σ α) (f : α → Py σ β) (s : σ) :
    (m >>= f) s = match m s with
      | .ok a s' => f a s'
      | .error e s' => .error e s' := rfl

theorem bind_def (m : Py σ α) (f : α → Py σ β) : Py.bind m f = m >>= f := rfl

@[simp] theorem pure_bind (a : α) (f : α → Py σ β) : (Py.pure a >>= f) = f a := rfl
@[simp] theorem pure_bind' (a : α) (f : α → Py σ β) : ((pure a : Py σ α) >>= f) = f a := rfl
@[simp] theorem throw_bind (e : Err) (f : α → Py σ β) : ((throw e : Py σ α) >>= f) = throw e := rfl

theorem bind_eq_ok {m : Py σ α} {f : α → Py σ β} {s : σ} {b : β} {s'' : σ} :
    (m >>= f) s = .ok b s'' ↔ ∃ a s', m s = .ok a s' ∧ f a s' = .ok b s'' := by
  rw [bind_apply]
  cases h : m s with
  | ok a s1 => exact ⟨fun h' => ⟨a, s1, rfl, h'⟩, fun ⟨_, _, h1, h2⟩ => by cases h1; exact h2⟩
  | error e s1 => simp

theorem bind_eq_error {m : Py σ α} {f : α → Py σ β} {s : σ} {e : Err} {s'' : σ} :
    (m >>= f) s = .error e s'' ↔
      m s = .error e s'' ∨ ∃ a s', m s = .ok a s' ∧ f a s' = .error e s'' := by
  rw [bind_apply]
  cases h : m s with
  | ok a s1 =>
    refine ⟨fun h' => Or.inr ⟨a, s1, rfl, h'⟩, fun h' => ?_⟩
    rcases h' with h' | ⟨_, _, h1, h2⟩
    · simp at h'
    · cases h1; exact h2
  | error e s1 => simp

theorem lift_eq_ok {x : Except Err α} {s : σ} {a : α} {s' : σ} :
    (lift x : Py σ α) s = .ok a s' ↔ x = .ok a ∧ s' = s := by
  cases x <;> simp [lift, eq_comm, and_comm]

theorem lift_eq_error {x : Except Err α} {s : σ} {e : Err} {s' : σ} :
    (lift x : Py σ α) s = .error e s' ↔ x = .error e ∧ s' = s := by
  cases x <;> simp [lift, eq_comm]

@[simp] theorem forEach_nil (f : α → Py σ Unit) : forEach [] f = Py.pure () := rfl
theorem forEach_cons (x : α) (xs : List α) (f : α → Py σ Unit) :
    forEach (x :: xs) f = f x >>= fun _ => forEach xs f := rfl
@[simp] theorem mapEach_nil (f : α → Py σ β) : mapEach [] f = Py.pure [] := rfl
theorem mapEach_cons (x : α) (xs : List α) (f : α → Py σ β) :
    mapEach (x :: xs) f = f x >>= fun y => mapEach xs f >>= fun ys => Py.pure (y :: ys) := rfl

@[simp] theorem when_true (m : Py σ Unit) : when true m = m := rfl
@[simp] theorem when_false (m : Py σ Unit) : when false m = Py.pure () := rfl

theorem forEach_append (xs ys : List α) (f : α → Py σ Unit) :
    forEach (xs ++ ys) f = forEach xs f >>= fun _ => forEach ys f := by
  induction xs with
  | nil => rfl
  | cons x xs ih =>
    funext s
    simp only [List.cons_append, forEach_cons, ih, bind_apply]
    cases f x s <;> rfl

/-- `Rel R m`: whatever happens, the state reached is `R`-related to the initial one. -/
def Rel (R : σ → σ → Prop) (m : Py σ α) : Prop := ∀ s, R s (m s).state

section Rel
variable {R : σ → σ → Prop}

theorem Rel.pure' (hr : ∀ s, R s s) (a : α) : Rel R (Py.pure a) := fun s => hr s
theorem Rel.pure (hr : ∀ s, R s s) (a : α) : Rel R (Pure.pure a : Py σ α) := fun s => hr s
theorem Rel.throw (hr : ∀ s, R s s) (e : Err) : Rel R (Py.throw e : Py σ α) := fun s => hr s
theorem Rel.get (hr : ∀ s, R s s) : Rel R (Py.get : Py σ σ) := fun s => hr s
theorem Rel.lift (hr : ∀ s, R s s) (x : Except Err α) : Rel R (Py.lift x : Py σ α) := by
  intro s; cases x <;> exact hr s

theorem Rel.bind (ht : ∀ a b c, R a b → R b c → R a c) {m : Py σ α} {f : α → Py σ β}
    (hm : Rel R m) (hf : ∀ a, Rel R (f a)) : Rel R (m >>= f) := by
  intro s
  rw [bind_apply]
  have := hm s
  cases h : m s with
  | ok a s' => rw [h] at this; exact ht _ _ _ this (hf a s')
  | error e s' => rw [h] at this; exact this

theorem Rel.forEach (hr : ∀ s, R s s) (ht : ∀ a b c, R a b → R b c → R a c)
    {l : List α} {f : α → Py σ Unit} (hf : ∀ x ∈ l, Rel R (f x)) : Rel R (Py.forEach l f) := by
  induction l with
  | nil => exact Rel.pure' hr ()
  | cons x xs ih =>
    rw [forEach_cons]
    exact Rel.bind ht (hf x (by simp)) (fun _ => ih (fun y hy => hf y (by simp [hy])))

theorem Rel.mapEach (hr : ∀ s, R s s) (ht : ∀ a b c, R a b → R b c → R a c)
    {l : List α} {f : α → Py σ β} (hf : ∀ x ∈ l, Rel R (f x)) : Rel R (Py.mapEach l f) := by
  induction l with
  | nil => exact Rel.pure' hr []
  | cons x xs ih =>
    rw [mapEach_cons]
    exact Rel.bind ht (hf x (by simp))
      (fun _ => Rel.bind ht (ih (fun y hy => hf y (by simp [hy]))) (fun _ => Rel.pure' hr _))

theorem Rel.when (hr : ∀ s, R s s) {c : Bool} {m : Py σ Unit} (hm : Rel R m) : Rel R (Py.when c m) := by
  cases c
  · exact Rel.pure' hr ()
  · exact hm

theorem Rel.mono {R' : σ → σ → Prop} (h : ∀ s s', R s s' → R' s s') {m : Py σ α} (hm : Rel R m) :
    Rel R' m := fun s => h _ _ (hm s)

theorem Rel.ok {m : Py σ α} (hm : Rel R m) {s a s'} (h : m s = .ok a s') : R s s' := by
  have := hm s; rwa [h] at this

theorem Rel.error {m : Py σ α} (hm : Rel R m) {s e s'} (h : m s = .error e s') : R s s' := by
  have := hm s; rwa [h] at this
end Rel

/-- `Inv P m`: the predicate `P` on states survives the call, whatever its outcome. -/
def Inv (P : σ → Prop) (m : Py σ α) : Prop := ∀ s, P s → P (m s).state

section Inv
variable {P : σ → Prop}
theorem Inv.iff_rel {m : Py σ α} : Inv P m ↔ Rel (fun s s' => P s → P s') m := Iff.rfl
theorem Inv.pure' (a : α) : Inv P (Py.pure a) := fun _ h => h
theorem Inv.pure (a : α) : Inv P (Pure.pure a : Py σ α) := fun _ h => h
theorem Inv.throw (e : Err) : Inv P (Py.throw e : Py σ α) := fun _ h => h
theorem Inv.get : Inv P (Py.get : Py σ σ) := fun _ h => h
theorem Inv.lift (x : Except Err α) : Inv P (Py.lift x : Py σ α) := by
  intro s h; cases x <;> exact h
theorem Inv.bind {m : Py σ α} {f : α → Py σ β} (hm : Inv P m) (hf : ∀ a, Inv P (f a)) :
    Inv P (m >>= f) :=
  Rel.bind (R := fun s s' => P s → P s') (fun _ _ _ h1 h2 h => h2 (h1 h)) hm hf
theorem Inv.forEach {l : List α} {f : α → Py σ Unit} (hf : ∀ x ∈ l, Inv P (f x)) :
    Inv P (Py.forEach l f) :=
  Rel.forEach (R := fun s s' => P s → P s') (fun _ h => h) (fun _ _ _ h1 h2 h => h2 (h1 h)) hf
theorem Inv.when {c : Bool} {m : Py σ Unit} (hm : Inv P m) : Inv P (Py.when c m) :=
  Rel.when (R := fun s s' => P s → P s') (fun _ h => h) hm
end Inv

end Py
end PySC
