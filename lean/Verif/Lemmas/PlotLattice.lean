import Verif.Spec.PlotLattice
import Verif.Lemmas.PlotSupport
import Verif.Lemmas.ApplicableSupports
import Mathlib.Tactic.Ring
import Mathlib.Tactic.FieldSimp
import Mathlib.Tactic.Linarith
/-
Lemmas about the figure of the lattice.
-/
namespace PySC
set_option linter.unusedSectionVars false
variable {K : Type} [Field K] [LinearOrder K] [IsStrictOrderedRing K]
open Py Spec

theorem foldl_min_spec : ∀ (l : List Nat) (i : Nat), l.foldl min i ∈ i :: l ∧ ∀ k ∈ i :: l, l.foldl min i ≤ k
  | [], i => by simp
  | a :: l, i => by
    obtain ⟨h1, h2⟩ := foldl_min_spec l (min i a)
    refine ⟨?_, fun k hk => ?_⟩
    · rw [List.foldl_cons]
      rcases List.mem_cons.1 h1 with h | h
      · rw [h]
        rcases le_total i a with h' | h'
        · rw [min_eq_left h']; simp
        · rw [min_eq_right h']; simp
      · simp [h]
    · rw [List.foldl_cons]
      have h0 := h2 (min i a) (List.mem_cons_self ..)
      rcases List.mem_cons.1 hk with rfl | hk
      · exact h0.trans (min_le_left _ _)
      · rcases List.mem_cons.1 hk with rfl | hk
        · exact h0.trans (min_le_right _ _)
        · exact h2 k (List.mem_cons_of_mem _ hk)

theorem foldl_max_spec : ∀ (l : List Nat) (i : Nat), l.foldl max i ∈ i :: l ∧ ∀ k ∈ i :: l, k ≤ l.foldl max i
  | [], i => by simp
  | a :: l, i => by
    obtain ⟨h1, h2⟩ := foldl_max_spec l (max i a)
    refine ⟨?_, fun k hk => ?_⟩
    · rw [List.foldl_cons]
      rcases List.mem_cons.1 h1 with h | h
      · rw [h]
        rcases le_total i a with h' | h'
        · rw [max_eq_right h']; simp
        · rw [max_eq_left h']; simp
      · simp [h]
    · rw [List.foldl_cons]
      have h0 := h2 (max i a) (List.mem_cons_self ..)
      rcases List.mem_cons.1 hk with rfl | hk
      · exact (le_max_left _ _).trans h0
      · rcases List.mem_cons.1 hk with rfl | hk
        · exact (le_max_right _ _).trans h0
        · exact h2 k (List.mem_cons_of_mem _ hk)

theorem sRange_ok {r : Ring K} {own : K × K} {range : Option (K × K)} {indices : Option (List Nat)} {sectors : Option Nat} {p : K × K}
    (h : sRange r own range indices sectors = .ok p) : RangeAsked r own range indices sectors p := by
  unfold sRange at h
  match range, indices, sectors, h with
  | some q, _, _, h => cases h; refine ⟨?_, ?_, ?_, ?_⟩ <;> simp
  | none, some [], _, h => cases h
  | none, some (i :: l), _, h =>
    simp only [Except.bind_eq_ok'] at h
    obtain ⟨a, h1, b, h2, h3⟩ := h
    have e1 := (findspos_get.1 (idx_eq_ok.1 h1)).2
    have e2 := (findspos_get.1 (idx_eq_ok.1 h2)).2
    cases h3
    obtain ⟨m1, m2⟩ := foldl_min_spec l i
    obtain ⟨m3, m4⟩ := foldl_max_spec l i
    refine ⟨by simp, fun _ l' hl' => ?_, by simp, by simp⟩
    cases hl'
    exact ⟨l.foldl min i, l.foldl max i, m1, m3, fun k hk => ⟨m2 k hk, m4 k hk⟩, by rw [e1, e2]⟩
  | none, none, some n, h =>
    simp only [Except.bind_eq_ok', divE_eq_ok] at h
    obtain ⟨b, ⟨h1, rfl⟩, h2⟩ := h
    cases h2
    refine ⟨by simp, by simp, fun _ _ m hm => ?_, by simp⟩
    cases hm
    refine ⟨fun h0 => h1 (by rw [h0]; simp), rfl, ?_⟩
    rw [findspos_last]
    field_simp
  | none, none, none, h => cases h; refine ⟨?_, ?_, ?_, ?_⟩ <;> simp

theorem ellipticLimits_ok {r : Ring K} {i : Nat} {q} (h : ellipticLimits r i = .ok q) (w : K) :
    (Limits r i 0 w ↔ q.1.1 = some w ∨ q.1.2 = some w) ∧ (Limits r i 1 w ↔ q.2.1 = some w ∨ q.2.2 = some w) := by
  unfold ellipticLimits at h
  simp only [Except.bind_eq_ok', Ring.hasA_eq_ok] at h
  obtain ⟨c, ⟨-, rfl⟩, h⟩ := h
  split at h
  · simp only [Except.bind_eq_ok', Ring.getVec_eq_ok] at h
    obtain ⟨v, hv, h⟩ := h
    split at h
    · next a b => 
      cases h
      simp only [Limits, hv, Option.some.injEq, Attr.vec.injEq, List.cons.injEq, and_true, eq_comm (a := -a), eq_comm (a := a), eq_comm (a := -b), eq_comm (a := b)]
      constructor
      · exact ⟨fun ⟨a', b', ⟨h1, h2⟩, h3⟩ => by subst h1 h2; exact h3, fun h3 => ⟨a, b, ⟨rfl, rfl⟩, h3⟩⟩
      · exact ⟨fun ⟨a', b', ⟨h1, h2⟩, h3⟩ => by subst h1 h2; exact h3, fun h3 => ⟨a, b, ⟨rfl, rfl⟩, h3⟩⟩
    · cases h
  · next hn =>
    cases h
    have : r.attr i "EApertures" = none := by simpa using hn
    simp [Limits, this]

theorem rectangularLimits_ok {r : Ring K} {i : Nat} {q} (h : rectangularLimits r i = .ok q) (w : K) :
    (Limits r i 2 w ↔ q.1.1 = some w ∨ q.1.2 = some w) ∧ (Limits r i 3 w ↔ q.2.1 = some w ∨ q.2.2 = some w) := by
  unfold rectangularLimits at h
  simp only [Except.bind_eq_ok', Ring.hasA_eq_ok] at h
  obtain ⟨c, ⟨-, rfl⟩, h⟩ := h
  split at h
  · simp only [Except.bind_eq_ok', Ring.getVec_eq_ok] at h
    obtain ⟨v, hv, h⟩ := h
    split at h
    · next a b c d => 
      cases h
      simp only [Limits, hv, Option.some.injEq, Attr.vec.injEq, List.cons.injEq, and_true, eq_comm (a := a), eq_comm (a := b), eq_comm (a := c), eq_comm (a := d)]
      constructor
      · exact ⟨fun ⟨a', b', c', d', ⟨h1, h2, h3, h4⟩, h5⟩ => by subst h1 h2 h3 h4; exact h5, fun h5 => ⟨a, b, c, d, ⟨rfl, rfl, rfl, rfl⟩, h5⟩⟩
      · exact ⟨fun ⟨a', b', c', d', ⟨h1, h2, h3, h4⟩, h5⟩ => by subst h1 h2 h3 h4; exact h5, fun h5 => ⟨a, b, c, d, ⟨rfl, rfl, rfl, rfl⟩, h5⟩⟩
    · cases h
  · next hn =>
    cases h
    have : r.attr i "RApertures" = none := by simpa using hn
    simp [Limits, this]

theorem apertureMm_some {c x : Option K} {v : K} : apertureMm c x = some v ↔ ∃ w, x = some w ∧ (∀ b, c = some b → |w| ≤ b) ∧ v = 1000 * w := by
  unfold apertureMm
  cases x with
  | none => simp
  | some x =>
    cases c with
    | none => simp [mul_comm, eq_comm]
    | some b =>
      simp only
      have e : |x * 1000| = |x| * 1000 := by rw [abs_mul, abs_of_pos (by norm_num : (0 : K) < 1000)]
      rw [e]
      split
      · next h => 
        simp only [reduceCtorEq, Option.some.injEq, false_iff, not_exists, not_and]
        rintro w rfl hb
        exact absurd (hb b rfl) (by intro h'; nlinarith)
      · next h =>
        simp only [Option.some.injEq]
        constructor
        · rintro rfl; exact ⟨x, rfl, fun b' hb' => by subst hb'; nlinarith, by ring⟩
        · rintro ⟨w, rfl, -, rfl⟩; ring

theorem mem_joinedCurve {s : List K} {l : List (Option K × Option K)} (hl : l.length = s.length) {x v : K} :
    (x, some v) ∈ joinedCurve s l ↔ ∃ (k : Nat) (p : Option K × Option K), s[k]? = some x ∧ l[k]? = some p ∧ (p.1 = some v ∨ p.2 = some v) := by
  have hz : ∀ g : Option K × Option K → Option K, (x, some v) ∈ s.zip (l.map g) ↔
      ∃ (k : Nat) (p : Option K × Option K), s[k]? = some x ∧ l[k]? = some p ∧ g p = some v := by
    intro g
    rw [List.mem_iff_getElem?]
    constructor
    · rintro ⟨k, hk⟩
      rw [List.getElem?_zip_eq_some, List.getElem?_map, Option.map_eq_some_iff] at hk
      obtain ⟨h1, p, h2, h3⟩ := hk
      exact ⟨k, p, h1, h2, h3⟩
    · rintro ⟨k, p, h1, h2, h3⟩
      refine ⟨k, ?_⟩
      rw [List.getElem?_zip_eq_some, List.getElem?_map, Option.map_eq_some_iff]
      exact ⟨h1, p, h2, h3⟩
  unfold joinedCurve
  rw [List.mem_append, List.mem_append, hz, hz]
  constructor
  · rintro ((⟨k, p, h1, h2, h3⟩ | h) | ⟨k, p, h1, h2, h3⟩)
    · exact ⟨k, p, h1, h2, Or.inl h3⟩
    · simp at h
    · exact ⟨k, p, h1, h2, Or.inr h3⟩
  · rintro ⟨k, p, h1, h2, h3 | h3⟩
    · exact Or.inl (Or.inl ⟨k, p, h1, h2, h3⟩)
    · exact Or.inr ⟨k, p, h1, h2, h3⟩

end PySC
