import Verif.Spec.Synoptic
import Verif.Lemmas.PlotSupport
import Mathlib.Tactic.Ring
import Mathlib.Tactic.NormNum
import Mathlib.Tactic.Linarith
/-
Lemmas about the synoptic.
-/
namespace PySC
set_option linter.unusedSectionVars false
variable {K : Type} [Field K] [LinearOrder K] [IsStrictOrderedRing K]
open Py Spec

theorem mapM_except_forall₂ {α β : Type} {f : α → Except Err β} : ∀ {l : List α} {w : List β}, l.mapM f = .ok w →
    List.Forall₂ (fun x y => f x = .ok y) l w
  | [], w, h => by cases h; exact .nil
  | x :: l, w, h => by
    rw [List.mapM_cons, Except.bind_eq_ok'] at h
    obtain ⟨y, h1, h⟩ := h
    rw [Except.bind_eq_ok'] at h
    obtain ⟨ys, h2, h⟩ := h
    cases h
    exact .cons h1 (mapM_except_forall₂ h2)

theorem spos_dropLast {r : Ring K} {i : Nat} {s : K} (h : idx (findspos r).dropLast i = .ok s) : s = sPos r i := by
  rw [idx_eq_ok] at h
  rw [List.getElem?_dropLast] at h
  split at h
  · exact (findspos_get.1 h).2
  · cases h

theorem shapeOf_ok {r : Ring K} {len : Except Err K} {m : Except Err String} {i : Nat} {p : List (K × K)} (h : shapeOf r len m i = .ok p) :
    ∃ l mt u, len = .ok l ∧ m = .ok mt ∧ unitShape mt = .ok u ∧ p = u.map (fun c => (c.1 * l + sPos r i, c.2)) := by
  unfold shapeOf getShape at h
  simp only [Except.bind_eq_ok'] at h
  obtain ⟨s, h1, l, h2, mt, h3, u, h4, h5⟩ := h
  cases spos_dropLast h1
  cases h5
  exact ⟨l, mt, u, h2, h3, h4, rfl⟩

theorem getNum_length {r : Ring K} {i : Nat} {l : K} (h : r.getNum i "Length" = .ok l) : l = numAt r i "Length" := by
  rw [Ring.getNum_eq_ok] at h
  simp [numAt, h]

theorem lengthOr0_ok {r : Ring K} {i : Nat} {l : K} (h : lengthOr0 r i = .ok l) : l = numAt r i "Length" := by
  unfold lengthOr0 at h
  simp only [Except.bind_eq_ok', Ring.hasA_eq_ok] at h
  obtain ⟨c, ⟨-, rfl⟩, h⟩ := h
  split at h
  · exact getNum_length h
  · rename_i hc
    cases h
    unfold numAt
    cases hx : r.attr i "Length" with
    | none => rfl
    | some v => simp [hx] at hc

theorem signed_ok {r : Ring K} {i k : Nat} {a name m : String} (h : signed r i a k name = .ok m) :
    (0 ≤ coef (vecAt r i a) k ∧ m = "f_" ++ name) ∨ (¬ 0 ≤ coef (vecAt r i a) k ∧ m = "d_" ++ name) := by
  unfold signed at h
  rw [Except.bind_eq_ok'] at h
  obtain ⟨x, h1, h2⟩ := h
  rw [Ring.getVecAt_eq_ok] at h1
  obtain ⟨v, hv, hx⟩ := h1
  have e : coef (vecAt r i a) k = x := by simp [coef, vecAt, hv, hx]
  rw [e]
  cases h2
  by_cases h0 : 0 ≤ x
  · left; simp [h0]
  · right; simp [h0]

theorem spos_total {r : Ring K} {i : Nat} (hi : i < r.length) : ∃ s, idx (findspos r).dropLast i = .ok s := by
  refine ⟨sPos r i, ?_⟩
  rw [idx_eq_ok, List.getElem?_dropLast, if_pos]
  · exact findspos_get.2 ⟨hi.le, rfl⟩
  · rw [findspos_eq]; simpa using hi

theorem shapeOf_total {r : Ring K} {len : Except Err K} {m : Except Err String} {i : Nat} (hi : i < r.length) (hl : ∃ l, len = .ok l)
    (hm : ∃ mt, m = .ok mt ∧ ∃ u, (unitShape mt : Except Err (List (K × K))) = .ok u) : ∃ p, shapeOf r len m i = .ok p := by
  obtain ⟨l, rfl⟩ := hl
  obtain ⟨mt, rfl, u, hu⟩ := hm
  obtain ⟨s, hs⟩ := spos_total hi
  unfold shapeOf getShape
  rw [hs]
  simp only [Except.ok_bind', hu]
  exact ⟨_, rfl⟩

theorem getNum_total {r : Ring K} {i : Nat} {a : String} : (∃ l, r.attr i a = some (.num l)) → ∃ l, r.getNum i a = .ok l :=
  fun ⟨l, hl⟩ => ⟨l, Ring.getNum_eq_ok.2 hl⟩

theorem lengthOr0_total {r : Ring K} {i : Nat} (hi : i < r.length)
    (h : r.attr i "Length" = none ∨ ∃ l, r.attr i "Length" = some (.num l)) : ∃ l, lengthOr0 r i = .ok l := by
  unfold lengthOr0
  rcases h with h | ⟨l, hl⟩
  · refine ⟨0, ?_⟩
    rw [Except.bind_eq_ok']
    exact ⟨false, Ring.hasA_eq_ok.2 ⟨hi, by simp [h]⟩, by simp⟩
  · refine ⟨l, ?_⟩
    rw [Except.bind_eq_ok']
    exact ⟨true, Ring.hasA_eq_ok.2 ⟨hi, by simp [hl]⟩, by simpa using Ring.getNum_eq_ok.2 hl⟩

theorem signed_total {r : Ring K} {i k : Nat} {a name : String} (hn : name ∈ ["quadrupole", "skewquadrupole", "sextupole"])
    (h : ∃ v, r.attr i a = some (.vec v) ∧ k < v.length) :
    ∃ mt, signed r i a k name = .ok mt ∧ ∃ u, (unitShape mt : Except Err (List (K × K))) = .ok u := by
  obtain ⟨v, hv, hk⟩ := h
  unfold signed
  rw [Ring.getVecAt_eq_ok.2 ⟨v, hv, List.getElem?_eq_getElem hk⟩]
  refine ⟨_, rfl, ?_⟩
  simp only [List.mem_cons, List.not_mem_nil, or_false] at hn
  by_cases h0 : v[k] ≥ (0 : K)
  · rw [if_pos h0]
    rcases hn with rfl | rfl | rfl <;> simp [unitShape]
  · rw [if_neg h0]
    rcases hn with rfl | rfl | rfl <;> simp [unitShape]

section shapes
variable {r : Ring K} {i : Nat}

/-- the shapes, evaluated -/
macro "shape" h:ident hL:ident : tactic => `(tactic| (
  simp only [unitShape, reduceIte, String.reduceEq, Except.ok.injEq] at $h:ident
  subst $h:ident
  have := $hL:ident
  unfold LengthNonneg at this
  simp only [List.map_cons, List.map_nil]))

theorem dipole_shape (hL : LengthNonneg r i) {u : List (K × K)} (h : unitShape "dipole" = .ok u) :
    MagnetShape r i (u.map (fun c => (c.1 * numAt r i "Length" + sPos r i, c.2))) := by
  shape h hL
  refine ⟨⟨⟨by simp, ?_⟩, by simp [add_comm]⟩, ?_, ?_⟩
  · simp only [List.mem_cons, List.not_mem_nil, or_false, forall_eq_or_imp, forall_eq]
    refine ⟨?_, ?_, ?_, ?_⟩ <;> constructor <;> linarith
  · simp only [List.mem_cons, List.not_mem_nil, or_false, forall_eq_or_imp, forall_eq]
    norm_num
  · simp only [List.mem_cons, List.not_mem_nil, or_false, exists_eq_or_imp, exists_eq_left]
    norm_num

theorem fQuad_shape (hL : LengthNonneg r i) {u : List (K × K)} (h : unitShape "f_quadrupole" = .ok u) :
    MagnetShape r i (u.map (fun c => (c.1 * numAt r i "Length" + sPos r i, c.2))) := by
  shape h hL
  refine ⟨⟨⟨by simp, ?_⟩, by simp [add_comm]⟩, ?_, ?_⟩
  · simp only [List.mem_cons, List.not_mem_nil, or_false, forall_eq_or_imp, forall_eq]
    refine ⟨?_, ?_, ?_, ?_, ?_⟩ <;> constructor <;> linarith
  · simp only [List.mem_cons, List.not_mem_nil, or_false, forall_eq_or_imp, forall_eq]
    norm_num
  · simp only [List.mem_cons, List.not_mem_nil, or_false, exists_eq_or_imp, exists_eq_left]
    norm_num

theorem dQuad_shape (hL : LengthNonneg r i) {u : List (K × K)} (h : unitShape "d_quadrupole" = .ok u) :
    MagnetShape r i (u.map (fun c => (c.1 * numAt r i "Length" + sPos r i, c.2))) := by
  shape h hL
  refine ⟨⟨⟨by simp, ?_⟩, by simp [add_comm]⟩, ?_, ?_⟩
  · simp only [List.mem_cons, List.not_mem_nil, or_false, forall_eq_or_imp, forall_eq]
    refine ⟨?_, ?_, ?_, ?_, ?_⟩ <;> constructor <;> linarith
  · simp only [List.mem_cons, List.not_mem_nil, or_false, forall_eq_or_imp, forall_eq]
    norm_num
  · simp only [List.mem_cons, List.not_mem_nil, or_false, exists_eq_or_imp, exists_eq_left]
    norm_num

theorem fSext_shape (hL : LengthNonneg r i) {u : List (K × K)} (h : unitShape "f_sextupole" = .ok u) :
    MagnetShape r i (u.map (fun c => (c.1 * numAt r i "Length" + sPos r i, c.2))) := by
  shape h hL
  refine ⟨⟨⟨by simp, ?_⟩, by simp [add_comm]⟩, ?_, ?_⟩
  · simp only [List.mem_cons, List.not_mem_nil, or_false, forall_eq_or_imp, forall_eq]
    refine ⟨?_, ?_, ?_, ?_, ?_, ?_⟩ <;> constructor <;> linarith
  · simp only [List.mem_cons, List.not_mem_nil, or_false, forall_eq_or_imp, forall_eq]
    norm_num
  · simp only [List.mem_cons, List.not_mem_nil, or_false, exists_eq_or_imp, exists_eq_left]
    norm_num

theorem dSext_shape (hL : LengthNonneg r i) {u : List (K × K)} (h : unitShape "d_sextupole" = .ok u) :
    MagnetShape r i (u.map (fun c => (c.1 * numAt r i "Length" + sPos r i, c.2))) := by
  shape h hL
  refine ⟨⟨⟨by simp, ?_⟩, by simp [add_comm]⟩, ?_, ?_⟩
  · simp only [List.mem_cons, List.not_mem_nil, or_false, forall_eq_or_imp, forall_eq]
    refine ⟨?_, ?_, ?_, ?_, ?_, ?_⟩ <;> constructor <;> linarith
  · simp only [List.mem_cons, List.not_mem_nil, or_false, forall_eq_or_imp, forall_eq]
    norm_num
  · simp only [List.mem_cons, List.not_mem_nil, or_false, exists_eq_or_imp, exists_eq_left]
    norm_num

theorem hcor_shape (hL : LengthNonneg r i) {u : List (K × K)} (h : unitShape "hcor" = .ok u) :
    InExtent r i (u.map (fun c => (c.1 * numAt r i "Length" + sPos r i, c.2))) ∧ Standing (u.map (fun c => (c.1 * numAt r i "Length" + sPos r i, c.2))) := by
  shape h hL
  refine ⟨⟨by simp, ?_⟩, ?_, ?_⟩
  · simp only [List.mem_cons, List.not_mem_nil, or_false, forall_eq_or_imp, forall_eq]
    refine ⟨?_, ?_, ?_, ?_⟩ <;> constructor <;> linarith
  · simp only [List.mem_cons, List.not_mem_nil, or_false, forall_eq_or_imp, forall_eq]
    norm_num
  · simp only [List.mem_cons, List.not_mem_nil, or_false, exists_eq_or_imp, exists_eq_left]
    norm_num

theorem vcor_shape (hL : LengthNonneg r i) {u : List (K × K)} (h : unitShape "vcor" = .ok u) :
    InExtent r i (u.map (fun c => (c.1 * numAt r i "Length" + sPos r i, c.2))) ∧ Hanging (u.map (fun c => (c.1 * numAt r i "Length" + sPos r i, c.2))) := by
  shape h hL
  refine ⟨⟨by simp, ?_⟩, ?_, ?_⟩
  · simp only [List.mem_cons, List.not_mem_nil, or_false, forall_eq_or_imp, forall_eq]
    refine ⟨?_, ?_, ?_, ?_⟩ <;> constructor <;> linarith
  · simp only [List.mem_cons, List.not_mem_nil, or_false, forall_eq_or_imp, forall_eq]
    norm_num
  · simp only [List.mem_cons, List.not_mem_nil, or_false, exists_eq_or_imp, exists_eq_left]
    norm_num

theorem fSkew_shape (hL : LengthNonneg r i) {u : List (K × K)} (h : unitShape "f_skewquadrupole" = .ok u) :
    InExtent r i (u.map (fun c => (c.1 * numAt r i "Length" + sPos r i, c.2))) ∧ Standing (u.map (fun c => (c.1 * numAt r i "Length" + sPos r i, c.2))) := by
  shape h hL
  refine ⟨⟨by simp, ?_⟩, ?_, ?_⟩
  · simp only [List.mem_cons, List.not_mem_nil, or_false, forall_eq_or_imp, forall_eq]
    refine ⟨?_, ?_, ?_, ?_, ?_⟩ <;> constructor <;> linarith
  · simp only [List.mem_cons, List.not_mem_nil, or_false, forall_eq_or_imp, forall_eq]
    norm_num
  · simp only [List.mem_cons, List.not_mem_nil, or_false, exists_eq_or_imp, exists_eq_left]
    norm_num

theorem dSkew_shape (hL : LengthNonneg r i) {u : List (K × K)} (h : unitShape "d_skewquadrupole" = .ok u) :
    InExtent r i (u.map (fun c => (c.1 * numAt r i "Length" + sPos r i, c.2))) ∧ Standing (u.map (fun c => (c.1 * numAt r i "Length" + sPos r i, c.2))) := by
  shape h hL
  refine ⟨⟨by simp, ?_⟩, ?_, ?_⟩
  · simp only [List.mem_cons, List.not_mem_nil, or_false, forall_eq_or_imp, forall_eq]
    refine ⟨?_, ?_, ?_, ?_, ?_⟩ <;> constructor <;> linarith
  · simp only [List.mem_cons, List.not_mem_nil, or_false, forall_eq_or_imp, forall_eq]
    norm_num
  · simp only [List.mem_cons, List.not_mem_nil, or_false, exists_eq_or_imp, exists_eq_left]
    norm_num

theorem monitor_shape (hL : LengthNonneg r i) {u : List (K × K)} (h : unitShape "monitor" = .ok u) :
    InExtent r i (u.map (fun c => (c.1 * numAt r i "Length" + sPos r i, c.2))) ∧ Standing (u.map (fun c => (c.1 * numAt r i "Length" + sPos r i, c.2))) := by
  shape h hL
  refine ⟨⟨by simp, ?_⟩, ?_, ?_⟩
  · simp only [List.mem_cons, List.not_mem_nil, or_false, forall_eq_or_imp, forall_eq]
    refine ⟨?_, ?_⟩ <;> constructor <;> linarith
  · simp only [List.mem_cons, List.not_mem_nil, or_false, forall_eq_or_imp, forall_eq]
    norm_num
  · simp only [List.mem_cons, List.not_mem_nil, or_false, exists_eq_or_imp, exists_eq_left]
    norm_num

theorem fQuad_roof {P : Prop} (hP : P) {u : List (K × K)} (h : unitShape "f_quadrupole" = .ok u) :
    Roof r i (u.map (fun c => (c.1 * numAt r i "Length" + sPos r i, c.2))) P := by
  simp only [unitShape, reduceIte, String.reduceEq, Except.ok.injEq] at h
  subst h
  refine ⟨(0 * numAt r i "Length" + sPos r i, 1), by simp, (1/2 * numAt r i "Length" + sPos r i, 7/5), by simp, by simp, by norm_num, ?_, by norm_num,
    fun hp => ?_, fun hp => ?_⟩
  · by_cases h0 : numAt r i "Length" = 0
    · exact Or.inr h0
    · left; simp [h0]
  · norm_num
  · exact absurd hP hp

theorem dQuad_roof {P : Prop} (hP : ¬ P) {u : List (K × K)} (h : unitShape "d_quadrupole" = .ok u) :
    Roof r i (u.map (fun c => (c.1 * numAt r i "Length" + sPos r i, c.2))) P := by
  simp only [unitShape, reduceIte, String.reduceEq, Except.ok.injEq] at h
  subst h
  refine ⟨(0 * numAt r i "Length" + sPos r i, 1), by simp, (1/2 * numAt r i "Length" + sPos r i, 3/5), by simp, by simp, by norm_num, ?_, by norm_num,
    fun hp => ?_, fun hp => ?_⟩
  · by_cases h0 : numAt r i "Length" = 0
    · exact Or.inr h0
    · left; simp [h0]
  · exact absurd hp hP
  · norm_num

theorem fSkew_roof {P : Prop} (hP : P) {u : List (K × K)} (h : unitShape "f_skewquadrupole" = .ok u) :
    Roof r i (u.map (fun c => (c.1 * numAt r i "Length" + sPos r i, c.2))) P := by
  simp only [unitShape, reduceIte, String.reduceEq, Except.ok.injEq] at h
  subst h
  refine ⟨(0 * numAt r i "Length" + sPos r i, 11/10), by simp, (1/2 * numAt r i "Length" + sPos r i, 3/2), by simp, by simp, by norm_num, ?_, by norm_num,
    fun hp => ?_, fun hp => ?_⟩
  · by_cases h0 : numAt r i "Length" = 0
    · exact Or.inr h0
    · left; simp [h0]
  · norm_num
  · exact absurd hP hp

theorem dSkew_roof {P : Prop} (hP : ¬ P) {u : List (K × K)} (h : unitShape "d_skewquadrupole" = .ok u) :
    Roof r i (u.map (fun c => (c.1 * numAt r i "Length" + sPos r i, c.2))) P := by
  simp only [unitShape, reduceIte, String.reduceEq, Except.ok.injEq] at h
  subst h
  refine ⟨(0 * numAt r i "Length" + sPos r i, 11/10), by simp, (1/2 * numAt r i "Length" + sPos r i, 7/10), by simp, by simp, by norm_num, ?_, by norm_num,
    fun hp => ?_, fun hp => ?_⟩
  · by_cases h0 : numAt r i "Length" = 0
    · exact Or.inr h0
    · left; simp [h0]
  · exact absurd hp hP
  · norm_num

theorem fSext_roof {P : Prop} (hP : P) {u : List (K × K)} (h : unitShape "f_sextupole" = .ok u) :
    Roof r i (u.map (fun c => (c.1 * numAt r i "Length" + sPos r i, c.2))) P := by
  simp only [unitShape, reduceIte, String.reduceEq, Except.ok.injEq] at h
  subst h
  refine ⟨(0 * numAt r i "Length" + sPos r i, 4/5), by simp, (33/100 * numAt r i "Length" + sPos r i, 1), by simp, by simp, by norm_num, ?_, by norm_num,
    fun hp => ?_, fun hp => ?_⟩
  · by_cases h0 : numAt r i "Length" = 0
    · exact Or.inr h0
    · left; simp [h0]
  · norm_num
  · exact absurd hP hp

theorem dSext_roof {P : Prop} (hP : ¬ P) {u : List (K × K)} (h : unitShape "d_sextupole" = .ok u) :
    Roof r i (u.map (fun c => (c.1 * numAt r i "Length" + sPos r i, c.2))) P := by
  simp only [unitShape, reduceIte, String.reduceEq, Except.ok.injEq] at h
  subst h
  refine ⟨(0 * numAt r i "Length" + sPos r i, 4/5), by simp, (33/100 * numAt r i "Length" + sPos r i, 3/5), by simp, by simp, by norm_num, ?_, by norm_num,
    fun hp => ?_, fun hp => ?_⟩
  · by_cases h0 : numAt r i "Length" = 0
    · exact Or.inr h0
    · left; simp [h0]
  · exact absurd hp hP
  · norm_num

end shapes

end PySC
