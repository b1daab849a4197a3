import Verif.Lemmas.ApplyErrors
import Verif.Lemmas.Supports
import Mathlib.Tactic.FieldSimp
import Mathlib.Algebra.BigOperators.Group.List.Basic
/-
What `scale_circumference` does to the ring.
-/
namespace PySC
set_option linter.unusedSectionVars false
open Py Spec
variable {K : Type} [Field K] [LinearOrder K] [FloorRing K]

theorem elemLength_eq {r : Ring K} {i : Nat} (hi : i < r.length) : numAt r i "Length" = elemLength r[i] := by
  unfold numAt Ring.attr elemLength
  simp only [hi, List.getElem?_eq_getElem, Option.bind_some]
  cases r[i] "Length" with
  | none => rfl
  | some v => cases v <;> rfl

theorem circumference_eq (r : Ring K) : circumference r = (r.map elemLength).sum := by
  unfold circumference sPos
  congr 1
  apply List.ext_getElem (by simp)
  intro i h1 h2
  simp only [List.length_map, List.length_range] at h1
  simp [elemLength_eq h1]

theorem foldl_add_eq (l : List K) (a : K) : l.foldl (· + ·) a = a + l.sum := by
  induction l generalizing a with
  | nil => simp
  | cons x xs ih => rw [List.foldl_cons, ih, List.sum_cons]; ring

theorem sum_scaled (r : Ring K) (q : K) :
    ((r.map (fun e => if isDrift e then e.set "Length" (.num (elemLength e * (1 - q))) else e)).map elemLength).sum =
      (r.map elemLength).sum - q * ((r.filter isDrift).map elemLength).sum := by
  induction r with
  | nil => simp
  | cons e r ih =>
    simp only [List.map_cons, List.sum_cons, ih]
    by_cases hd : isDrift e = true
    · rw [if_pos hd, List.filter_cons_of_pos hd, List.map_cons, List.sum_cons]
      have : elemLength (e.set "Length" (.num (elemLength e * (1 - q)))) = elemLength e * (1 - q) := by
        simp [elemLength, Elem.set]
      rw [this]; ring
    · rw [if_neg hd, List.filter_cons_of_neg hd]; ring

/-- total length of the drifts -/
theorem driftTotal_eq (r : Ring K) : ((r.filter isDrift).map elemLength).foldl (· + ·) 0 = ((r.filter isDrift).map elemLength).sum := by
  rw [foldl_add_eq, zero_add]

theorem scaleCircumference_ok {r : Ring K} {c : K} {mode : String} (hm : mode ∈ ["abs", "rel"])
    (hd : ((r.filter isDrift).map elemLength).sum ≠ 0) :
    ∃ r' q, scaleCircumference r c mode = .ok r' ∧
      r' = r.map (fun e => if isDrift e then e.set "Length" (.num (elemLength e * q)) else e) ∧
      circumference r' = if mode = "rel" then c * circumference r else c := by
  have hne : (r.filter isDrift).isEmpty = false := by
    cases h : r.filter isDrift with
    | nil => rw [h] at hd; simp at hd
    | cons => rfl
  set D := ((r.filter isDrift).map elemLength).sum with hD
  set q := (if mode = "rel" then (1 - c) * circumference r else circumference r - c) / D with hq
  refine ⟨_, 1 - q, ?_, rfl, ?_⟩
  · unfold scaleCircumference
    rw [if_neg (not_not.2 hm)]
    simp only [hne, driftTotal_eq, findspos_last, Bool.false_eq_true, if_false]
    rw [divE_eq_ok.2 ⟨hd, rfl⟩]
    rfl
  · rw [circumference_eq, sum_scaled, ← circumference_eq, ← hD, hq]
    split <;> field_simp <;> ring


theorem isDrift_iff {r : Ring K} {i : Nat} (hi : i < r.length) : isDrift r[i] = true ↔ DriftAt r i := by
  unfold isDrift DriftAt Ring.attr
  simp [hi]

theorem sum_filter_map {α : Type} (l : List α) (P : α → Bool) (f : α → K) :
    ((l.filter P).map f).sum = (l.map (fun x => if P x then f x else 0)).sum := by
  induction l with
  | nil => rfl
  | cons x xs ih =>
    by_cases h : P x = true
    · rw [List.filter_cons_of_pos h]; simp [ih, h]
    · rw [List.filter_cons_of_neg h]; simp [ih, h]

theorem driftLength_eq (r : Ring K) : driftLength r = ((r.filter isDrift).map elemLength).sum := by
  rw [sum_filter_map]
  unfold driftLength
  congr 1
  apply List.ext_getElem (by simp)
  intro i h1 h2
  simp only [List.length_map, List.length_range] at h1
  simp only [List.getElem_map, List.getElem_range]
  by_cases hd : DriftAt r i
  · rw [if_pos hd, if_pos ((isDrift_iff h1).2 hd), elemLength_eq h1]
  · rw [if_neg hd, if_neg (fun hh => hd ((isDrift_iff h1).1 hh))]

theorem scaleCircumference_spec {r : Ring K} {c : K} {mode : String} (hm : mode ∈ ["abs", "rel"]) (hd : driftLength r ≠ 0) :
    ∃ r' q, scaleCircumference r c mode = .ok r' ∧ r'.length = r.length ∧
      (∀ i < r.length, ∀ a, r'.attr i a =
        if a = "Length" ∧ DriftAt r i then some (.num (q * numAt r i "Length")) else r.attr i a) ∧
      circumference r' = if mode = "rel" then c * circumference r else c := by
  rw [driftLength_eq] at hd
  obtain ⟨r', q, h1, h2, h3⟩ := scaleCircumference_ok (c := c) hm hd
  refine ⟨r', q, h1, by rw [h2]; simp, fun i hi a => ?_, h3⟩
  rw [h2]
  unfold Ring.attr
  rw [List.getElem?_map, List.getElem?_eq_getElem hi]
  simp only [Option.map_some, Option.bind_some]
  by_cases hdr : isDrift r[i] = true
  · rw [if_pos hdr, Elem.set_apply]
    have hda := (isDrift_iff hi).1 hdr
    by_cases ha : a = "Length"
    · rw [if_pos ha, if_pos ⟨ha, hda⟩, elemLength_eq hi, mul_comm]
    · rw [if_neg ha, if_neg (fun h => ha h.1)]
  · rw [if_neg hdr, if_neg (fun h => hdr ((isDrift_iff hi).2 h.2))]

theorem scaleCircumference_rel {r r' : Ring K} {c : K} (h : scaleCircumference r c "rel" = .ok r') :
    (driftLength r ≠ 0 ∧ circumference r' = c * circumference r) ∨ ((∀ i < r.length, ¬ DriftAt r i) ∧ r' = r) := by
  by_cases hd : driftLength r = 0
  · right
    rw [driftLength_eq] at hd
    unfold scaleCircumference at h
    simp only [List.mem_cons, List.not_mem_nil, or_false, driftTotal_eq, hd, divE, if_true] at h
    split at h
    · rename_i hh; exact absurd (by simp) hh
    · split at h
      · rename_i he
        cases h
        refine ⟨fun i hi hda => ?_, rfl⟩
        have := (isDrift_iff hi).2 hda
        have hmem : r[i] ∈ r.filter isDrift := List.mem_filter.2 ⟨List.getElem_mem hi, this⟩
        rw [List.isEmpty_iff.1 he] at hmem
        simp at hmem
      · cases h
  · left
    obtain ⟨r'', q, h1, -, -, h3⟩ := scaleCircumference_spec (c := c) (mode := "rel") (by simp) hd
    rw [h] at h1
    cases h1
    exact ⟨hd, by simpa using h3⟩

section ord
variable [IsStrictOrderedRing K]
theorem applyCircumference_ok {E : Env K} {n : K} {s s' : SC K} (h : applyCircumference E n s = .ok () s') :
    ∃ q, ((s.rng ≤ q ∧ q < s'.rng) ∧ randncFrom E n 1 s.rng = .ok ([E.randn q], s'.rng)) ∧ |E.randn q| ≤ |n| ∧
      scaleCircumference s.RING (1 + s.SIG.Circumference * E.randn q) "rel" = .ok s'.RING := by
  unfold applyCircumference at h
  simp only [bind_eq_ok, randnc_eq_ok, lift_eq_ok] at h
  obtain ⟨z, s1, ⟨pos, hz, rfl⟩, s2, s3, h3, r, s4, ⟨hr, hs4⟩, h4⟩ := h
  cases h3
  subst hs4
  cases h4
  obtain ⟨h1, h2, -, qs, rfl, -, hq⟩ := randncFrom_eq_ok hz
  cases qs with
  | nil => simp at h2
  | cons q qs =>
    have : qs = [] := by simpa using h2
    subst this
    exact ⟨q, ⟨hq q (by simp), hz⟩, h1 _ (by simp), hr⟩
end ord

end PySC
