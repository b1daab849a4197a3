import Verif.Lemmas.Py
import Verif.Model.Setpoints
import Verif.Spec.Machine
import Mathlib.Tactic.Common
/-
Lemmas about attribute access, and frame rules for methods that act on attributes of `SC.RING`.
-/
namespace PySC
variable {K : Type _}

namespace Elem
@[simp] theorem set_same (e : Elem K) (a : String) (v : Attr K) : e.set a v a = some v := by simp [set]
theorem set_apply (e : Elem K) (a b : String) (v : Attr K) :
    e.set a v b = if b = a then some v else e b := rfl
end Elem

namespace Ring
@[simp] theorem length_setAttr (r : Ring K) (i : Nat) (a : String) (v : Attr K) :
    (r.setAttr i a v).length = r.length := by simp [setAttr]

theorem attr_setAttr (r : Ring K) (i j : Nat) (a b : String) (v : Attr K) :
    (r.setAttr i a v).attr j b =
      if j = i ∧ b = a then (if i < r.length then some v else none) else r.attr j b := by
  unfold attr setAttr
  rw [List.getElem?_modify]
  by_cases hij : j = i
  · subst hij
    by_cases hlt : j < r.length
    · simp [hlt, Elem.set_apply]
    · simp [hlt]
  · have : ¬ i = j := fun h => hij h.symm
    cases h : r[j]? <;> simp [hij, this]

theorem attr_some_lt {r : Ring K} {i : Nat} {a : String} {v : Attr K} (h : r.attr i a = some v) :
    i < r.length := by
  by_contra hge
  simp [attr, List.getElem?_eq_none (Nat.le_of_not_lt hge)] at h

theorem ext_attr {r r' : Ring K} (hl : r.length = r'.length) (h : ∀ i a, r.attr i a = r'.attr i a) :
    r = r' := by
  apply List.ext_getElem hl
  intro i h1 h2
  funext a
  have := h i a
  simpa [attr, h1, h2] using this
end Ring

namespace Ring
theorem setAttr_setAttr_same (r : Ring K) (i : Nat) (a : String) (v w : Attr K) :
    (r.setAttr i a v).setAttr i a w = r.setAttr i a w := by
  refine ext_attr (by simp) (fun j b => ?_)
  simp only [attr_setAttr, length_setAttr]
  split <;> rfl
theorem setAttr_eq_self {r : Ring K} {i : Nat} {a : String} {v : Attr K} (h : r.attr i a = some v) :
    r.setAttr i a v = r := by
  refine ext_attr (by simp) (fun j b => ?_)
  rw [attr_setAttr]
  split
  · rename_i hh; obtain ⟨rfl, rfl⟩ := hh
    simp [attr_some_lt h, h]
  · rfl
theorem attr_setAttr_same {r : Ring K} {i : Nat} {a : String} {v : Attr K} (h : i < r.length) :
    (r.setAttr i a v).attr i a = some v := by rw [attr_setAttr]; simp [h]
theorem attr_setAttr_ne {r : Ring K} {i j : Nat} {a b : String} {v : Attr K} (h : b ≠ a) :
    (r.setAttr i a v).attr j b = r.attr j b := by rw [attr_setAttr]; simp [h]
theorem attr_setAttr_ne' {r : Ring K} {i j : Nat} {a b : String} {v : Attr K} (h : j ≠ i) :
    (r.setAttr i a v).attr j b = r.attr j b := by rw [attr_setAttr]; simp [h]
end Ring

theorem Except.bind_eq_ok' {α β : Type _} {x : Except Err α} {f : α → Except Err β} {b : β} :
    (x >>= f) = .ok b ↔ ∃ a, x = .ok a ∧ f a = .ok b := by
  cases x with
  | error e => simp [bind, Except.bind]
  | ok a => simp [bind, Except.bind]

@[simp] theorem Except.ok_bind' {α β : Type _} (a : α) (f : α → Except Err β) :
    ((Except.ok a : Except Err α) >>= f) = f a := rfl
@[simp] theorem Except.error_bind' {α β : Type _} (e : Err) (f : α → Except Err β) :
    ((Except.error e : Except Err α) >>= f) = .error e := rfl

theorem Except.ite_eq_ok {α : Type _} {c : Prop} [Decidable c] {x y : Except Err α} {a : α} :
    (if c then x else y) = .ok a ↔ (c ∧ x = .ok a) ∨ (¬ c ∧ y = .ok a) := by
  split <;> simp [*]

namespace Ring
variable {r : Ring K} {i j : Nat} {a b : String}

theorem getE_eq_ok {e : Elem K} : r.getE i = .ok e ↔ r[i]? = some e := by
  unfold getE; cases r[i]? <;> simp

theorem getE_ok_of_lt (h : i < r.length) : ∃ e, r.getE i = .ok e :=
  ⟨r[i], getE_eq_ok.2 (by simp [h])⟩

theorem getA_eq_ok {v : Attr K} : r.getA i a = .ok v ↔ r.attr i a = some v := by
  unfold getA
  rw [Except.bind_eq_ok']
  constructor
  · rintro ⟨e, h1, h2⟩
    rw [getE_eq_ok] at h1
    cases h : e a with
    | none => rw [h] at h2; simp at h2
    | some w => rw [h] at h2; simp at h2; simp [attr, h1, h, h2]
  · intro h
    unfold attr at h
    cases he : r[i]? with
    | none => rw [he] at h; simp at h
    | some e =>
      rw [he] at h
      refine ⟨e, getE_eq_ok.2 he, ?_⟩
      simp at h; simp [h]

theorem hasA_eq_ok {c : Bool} : r.hasA i a = .ok c ↔ i < r.length ∧ c = (r.attr i a).isSome := by
  unfold hasA
  rw [Except.bind_eq_ok']
  constructor
  · rintro ⟨e, h1, h2⟩
    rw [getE_eq_ok] at h1
    simp at h2
    refine ⟨(List.getElem?_eq_some_iff.1 h1).1, ?_⟩
    simp [attr, h1, ← h2, Elem.has]
  · rintro ⟨h1, h2⟩
    exact ⟨r[i], getE_eq_ok.2 (by simp [h1]), by simp [h2, attr, h1, Elem.has]⟩

theorem hasA_of_lt (h : i < r.length) : r.hasA i a = .ok (r.attr i a).isSome := hasA_eq_ok.2 ⟨h, rfl⟩

theorem getNum_eq_ok {x : K} : r.getNum i a = .ok x ↔ r.attr i a = some (.num x) := by
  unfold getNum
  simp only [Except.bind_eq_ok', getA_eq_ok]
  constructor
  · rintro ⟨v, h1, h2⟩
    cases v <;> simp [Attr.toNum] at h2
    rw [h1, h2]
  · intro h; exact ⟨_, h, rfl⟩

theorem getVec_eq_ok {x : List K} : r.getVec i a = .ok x ↔ r.attr i a = some (.vec x) := by
  unfold getVec
  simp only [Except.bind_eq_ok', getA_eq_ok]
  constructor
  · rintro ⟨v, h1, h2⟩
    cases v <;> simp [Attr.toVec] at h2
    rw [h1, h2]
  · intro h; exact ⟨_, h, rfl⟩

theorem getStr_eq_ok {x : String} : r.getStr i a = .ok x ↔ r.attr i a = some (.str x) := by
  unfold getStr
  simp only [Except.bind_eq_ok', getA_eq_ok]
  constructor
  · rintro ⟨v, h1, h2⟩
    cases v <;> simp [Attr.toStr] at h2
    rw [h1, h2]
  · intro h; exact ⟨_, h, rfl⟩

/-- two rings of the same length agreeing on one attribute of one element -/
theorem getA_congr {r r' : Ring K} (hl : r.length = r'.length) (h : r.attr i a = r'.attr i a) :
    r.getA i a = r'.getA i a := by
  unfold getA getE
  unfold attr at h
  by_cases hi : i < r.length
  · have hi' : i < r'.length := hl ▸ hi
    simp [hi, hi'] at h
    simp [hi, hi', h]
  · have hi' : ¬ i < r'.length := hl ▸ hi
    simp [hi, hi']

theorem hasA_congr {r r' : Ring K} (hl : r.length = r'.length) (h : r.attr i a = r'.attr i a) :
    r.hasA i a = r'.hasA i a := by
  unfold hasA getE
  unfold attr at h
  by_cases hi : i < r.length
  · have hi' : i < r'.length := hl ▸ hi
    simp [hi, hi'] at h
    simp [hi, hi', Elem.has, h]
  · have hi' : ¬ i < r'.length := hl ▸ hi
    simp [hi, hi']

theorem getA_setAttr_ne (h : b ≠ a) (v : Attr K) : (r.setAttr i a v).getA j b = r.getA j b :=
  getA_congr (by simp) (by rw [attr_setAttr, if_neg (by simp [h])])
theorem hasA_setAttr_ne (h : b ≠ a) (v : Attr K) : (r.setAttr i a v).hasA j b = r.hasA j b :=
  hasA_congr (by simp) (by rw [attr_setAttr, if_neg (by simp [h])])
theorem getA_setAttr_ne' (h : j ≠ i) (v : Attr K) : (r.setAttr i a v).getA j b = r.getA j b :=
  getA_congr (by simp) (by rw [attr_setAttr, if_neg (by simp [h])])
theorem hasA_setAttr_ne' (h : j ≠ i) (v : Attr K) : (r.setAttr i a v).hasA j b = r.hasA j b :=
  hasA_congr (by simp) (by rw [attr_setAttr, if_neg (by simp [h])])
theorem getA_setAttr_same (h : i < r.length) (v : Attr K) : (r.setAttr i a v).getA i a = .ok v :=
  getA_eq_ok.2 (by rw [attr_setAttr]; simp [h])
end Ring

theorem Ring.getVecAt_eq_ok {r : Ring K} {i : Nat} {a : String} {k : Nat} {x : K} :
    r.getVecAt i a k = .ok x ↔ ∃ v, r.attr i a = some (.vec v) ∧ v[k]? = some x := by
  unfold Ring.getVecAt
  simp only [Except.bind_eq_ok', Ring.getVec_eq_ok]
  constructor
  · rintro ⟨v, h1, h2⟩
    refine ⟨v, h1, ?_⟩
    unfold idx at h2; cases h : v[k]? <;> rw [h] at h2 <;> simp_all
  · rintro ⟨v, h1, h2⟩
    exact ⟨v, h1, by simp [idx, h2]⟩

section Access
open Py
variable {s s' : SC K} {i : Nat} {a : String}

theorem rd_eq_ok {α : Type _} {f : Ring K → Except Err α} {x : α} :
    rd f s = .ok x s' ↔ f s.RING = .ok x ∧ s' = s := by
  unfold rd; cases f s.RING <;> simp [eq_comm]

theorem rd_eq_error {α : Type _} {f : Ring K → Except Err α} {e : Err} :
    rd f s = .error e s' ↔ f s.RING = .error e ∧ s' = s := by
  unfold rd; cases f s.RING <;> simp [eq_comm]

theorem rd_apply_ok {α : Type _} {f : Ring K → Except Err α} {x : α} (h : f s.RING = .ok x) :
    rd f s = .ok x s := rd_eq_ok.2 ⟨h, rfl⟩

theorem setAttr_eq_ok {v : Attr K} {u : Unit} : setAttr i a v s = .ok u s' ↔
    i < s.RING.length ∧ s' = { s with RING := s.RING.setAttr i a v } := by
  unfold setAttr
  rw [bind_eq_ok]
  constructor
  · rintro ⟨e, s1, h1, h2⟩
    rw [rd_eq_ok, Ring.getE_eq_ok] at h1
    obtain ⟨h1, rfl⟩ := h1
    exact ⟨(List.getElem?_eq_some_iff.1 h1).1, by simpa [eq_comm] using h2⟩
  · rintro ⟨h1, rfl⟩
    exact ⟨s.RING[i], s, rd_eq_ok.2 ⟨Ring.getE_eq_ok.2 (by simp [h1]), rfl⟩, rfl⟩

theorem setAttr_apply {v : Attr K} (h : i < s.RING.length) :
    setAttr i a v s = .ok () { s with RING := s.RING.setAttr i a v } := setAttr_eq_ok.2 ⟨h, rfl⟩
end Access

theorem idx_eq_ok {α : Type _} {v : List α} {i : Nat} {x : α} : idx v i = .ok x ↔ v[i]? = some x := by
  unfold idx; cases v[i]? <;> simp

theorem divE_eq_ok [Field K] [LinearOrder K] {a b x : K} : divE a b = .ok x ↔ b ≠ 0 ∧ x = a / b := by
  unfold divE; split <;> simp_all [eq_comm]

/-! ### Frames -/

namespace Frame
variable {W W' : Nat → String → Prop}
theorem refl (s : SC K) : Frame W s s := ⟨rfl, rfl, rfl, rfl, rfl, rfl, fun _ _ _ => rfl⟩
theorem trans (a b c : SC K) (h1 : Frame W a b) (h2 : Frame W b c) : Frame W a c :=
  ⟨h2.ideal.trans h1.ideal, h2.inj.trans h1.inj, h2.sig.trans h1.sig, h2.ord.trans h1.ord,
   h2.rng.trans h1.rng, h2.len.trans h1.len, fun i a h => (h2.attr i a h).trans (h1.attr i a h)⟩
theorem mono (hW : ∀ i a, W i a → W' i a) {s s' : SC K} (h : Frame W s s') : Frame W' s s' :=
  ⟨h.ideal, h.inj, h.sig, h.ord, h.rng, h.len, fun i a hn => h.attr i a (fun hw => hn (hW i a hw))⟩
theorem setAttr {s : SC K} {i a v} (h : W i a) :
    Frame W s { s with RING := s.RING.setAttr i a v } := by
  refine ⟨rfl, rfl, rfl, rfl, rfl, by simp, fun j b hn => ?_⟩
  rw [Ring.attr_setAttr, if_neg]
  rintro ⟨rfl, rfl⟩; exact hn h
/-- two states related by an empty frame are equal -/
theorem eq_of_empty {s s' : SC K} (h : Frame (fun _ _ => False) s s') : s' = s := by
  have hr : s'.RING = s.RING := Ring.ext_attr h.len (fun i a => h.attr i a (by simp))
  cases s; cases s'
  have h1 := h.ideal; have h2 := h.inj; have h3 := h.sig; have h4 := h.ord; have h5 := h.rng
  simp_all
end Frame

/-- `Modifies W m`: whatever its outcome, `m` changes at most the ring attributes in `W`. -/
abbrev Modifies {α : Type _} (W : Nat → String → Prop) (m : Py (SC K) α) : Prop := Py.Rel (Frame W) m

namespace Modifies
open Py
variable {α β : Type _} {W : Nat → String → Prop}

theorem pure (a : α) : Modifies (K := K) W (Pure.pure a : Py (SC K) α) := Rel.pure Frame.refl a
theorem pure' (a : α) : Modifies (K := K) W (Py.pure a) := Rel.pure' Frame.refl a
theorem throw (e : Err) : Modifies (K := K) W (Py.throw e : Py (SC K) α) := Rel.throw Frame.refl e
theorem get : Modifies (K := K) W Py.get := Rel.get Frame.refl
theorem lift (x : Except Err α) : Modifies (K := K) W (Py.lift x : Py (SC K) α) := Rel.lift Frame.refl x
theorem bind {m : Py (SC K) α} {f : α → Py (SC K) β} (hm : Modifies W m) (hf : ∀ a, Modifies W (f a)) :
    Modifies W (m >>= f) := Rel.bind Frame.trans hm hf
theorem forEach {l : List α} {f : α → Py (SC K) Unit} (hf : ∀ x ∈ l, Modifies W (f x)) :
    Modifies W (Py.forEach l f) := Rel.forEach Frame.refl Frame.trans hf
theorem mapEach {l : List α} {f : α → Py (SC K) β} (hf : ∀ x ∈ l, Modifies W (f x)) :
    Modifies W (Py.mapEach l f) := Rel.mapEach Frame.refl Frame.trans hf
theorem when {c : Bool} {m : Py (SC K) Unit} (hm : Modifies W m) : Modifies W (Py.when c m) :=
  Rel.when Frame.refl hm
theorem rd (f : Ring K → Except Err α) : Modifies (K := K) W (PySC.rd f) := by
  intro s; unfold PySC.rd; cases f s.RING <;> exact Frame.refl s
theorem setAttr {i : Nat} {a : String} {v : Attr K} (h : W i a) : Modifies W (PySC.setAttr i a v) := by
  refine bind (rd _) (fun _ s => ?_)
  exact Frame.setAttr h
theorem mono {W' : Nat → String → Prop} (hW : ∀ i a, W i a → W' i a) {m : Py (SC K) α}
    (hm : Modifies W m) : Modifies W' m := Rel.mono (fun _ _ h => Frame.mono hW h) hm
theorem ite {c : Prop} [Decidable c] {m n : Py (SC K) α} (hm : Modifies W m) (hn : Modifies W n) :
    Modifies W (if c then m else n) := by split <;> assumption
end Modifies

/-- Discharges `Modifies W m` goals by walking through the program text; leaves the side goals `W i a`. -/
macro "frames" : tactic => `(tactic|
  with_reducible repeat' (first
    | exact Modifies.pure _ | exact Modifies.pure' _ | exact Modifies.throw _ | exact Modifies.get
    | exact Modifies.lift _ | exact Modifies.rd _
    | refine Modifies.setAttr ?_
    | refine Modifies.bind ?_ (fun _ => ?_)
    | refine Modifies.forEach (fun _ _ => ?_)
    | refine Modifies.mapEach (fun _ _ => ?_)
    | refine Modifies.when ?_
    | refine Modifies.ite ?_ ?_
    | assumption))

end PySC
