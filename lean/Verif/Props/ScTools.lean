import Verif.Lemmas.ScTools
import Mathlib.LinearAlgebra.Matrix.Notation
/-
C47, C48, C60, C61: pseudo-inverse, padded addition, selection by name, dictionaries with attribute access.
-/
namespace PySC
set_option linter.unusedSectionVars false
open Spec

section C47
variable {K : Type} [Field K] [LinearOrder K] {m n k : Nat}

/-- **C47**: with `num_removed` singular values removed, each remaining positive singular value `s` is replaced by
`s / (s² + alpha²)` (which is `1 / s` without regularisation) times the damping; the others, the smallest `num_removed` ones among
them, contribute nothing. -/
theorem C47_values_partial (a : Matrix (Fin m) (Fin n) K) (d : Svd K m n k) (h : IsSvd a d) (numRemoved : Nat)
    (hr : numRemoved ≤ k) (alpha damping : K) :
    pinvOf d numRemoved alpha damping = d.vt.transpose * Matrix.diagonal (fun i => if i.1 < k - numRemoved then
      damping * (d.s i / (d.s i ^ 2 + alpha ^ 2)) else 0) * d.u.transpose := by
  rw [pinvOf_eq d h.sorted (Int.natCast_nonneg _) (by exact_mod_cast hr)]
  unfold spreadDiag
  congr 3
  funext i
  have e : ((i.1 : Int) < k - numRemoved) ↔ i.1 < k - numRemoved := by omega
  simp only [e]
  by_cases h1 : i.1 < k - numRemoved
  · rw [if_pos h1]
    by_cases h2 : 0 < d.s i
    · rw [if_pos ⟨h2, h1⟩]
      by_cases h3 : alpha = 0
      · rw [if_neg (not_not.2 h3), h3]
        have := h2.ne'
        field_simp
        simp
      · rw [if_pos h3]
    · rw [if_neg (fun h => h2 h.1)]
      have : d.s i = 0 := le_antisymm (not_lt.1 h2) (h.nonneg i)
      rw [this]; simp
  · rw [if_neg h1, if_neg (fun h => h1 h.2)]

/-- **C47**: without regularisation the result is the Moore-Penrose inverse. -/
theorem C47_moore_penrose (a : Matrix (Fin m) (Fin n) K) (d : Svd K m n k) (h : IsSvd a d) :
    IsPseudoInverse a (pinvOf d 0 0 1) := by
  rw [pinvOf_eq d h.sorted (le_refl _) (Int.natCast_nonneg _), h.product]
  refine spread_pseudoInverse h.left h.right (fun i => ?_) (fun i => ?_)
  all_goals
    have hk : (i.1 : Int) < k - 0 := by have := i.2; omega
    by_cases h2 : 0 < d.s i
    · rw [if_pos ⟨h2, hk⟩, if_neg (by simp)]
      have := h2.ne'
      field_simp
    · rw [if_neg (fun h => h2 h.1)]
      have : d.s i = 0 := le_antisymm (not_lt.1 h2) (h.nonneg i)
      simp [this]

/-- ... of which there is only one. -/
theorem C47_unique (a : Matrix (Fin m) (Fin n) K) (x y : Matrix (Fin n) (Fin m) K) (hx : IsPseudoInverse a x)
    (hy : IsPseudoInverse a y) : x = y := by
  have h1 : a * x = a * y := by
    calc a * x = (a * x).transpose := hx.left.symm
      _ = (a * y * a * x).transpose := by rw [hy.inner]
      _ = (a * y * (a * x)).transpose := by rw [Matrix.mul_assoc (a * y)]
      _ = (a * x).transpose * (a * y).transpose := Matrix.transpose_mul _ _
      _ = a * x * (a * y) := by rw [hx.left, hy.left]
      _ = a * x * a * y := by rw [Matrix.mul_assoc (a * x)]
      _ = a * y := by rw [hx.inner]
  have h2 : x * a = y * a := by
    calc x * a = (x * a).transpose := hx.right.symm
      _ = (x * (a * y * a)).transpose := by rw [hy.inner]
      _ = (x * a * (y * a)).transpose := by simp only [Matrix.mul_assoc]
      _ = (y * a).transpose * (x * a).transpose := Matrix.transpose_mul _ _
      _ = y * a * (x * a) := by rw [hx.right, hy.right]
      _ = y * (a * x * a) := by simp only [Matrix.mul_assoc]
      _ = y * a := by rw [hx.inner]
  calc x = x * a * x := hx.outer.symm
    _ = y * a * x := by rw [h2]
    _ = y * (a * x) := Matrix.mul_assoc _ _ _
    _ = y * (a * y) := by rw [h1]
    _ = y * a * y := (Matrix.mul_assoc _ _ _).symm
    _ = y := hy.outer

/-- **C47**: the damping multiplies the result. -/
theorem C47_damping (d : Svd K m n k) (numRemoved : Int) (alpha damping : K) :
    pinvOf d numRemoved alpha damping = damping • pinvOf d numRemoved alpha 1 := by
  ext a b
  rw [Matrix.smul_apply, smul_eq_mul]
  unfold pinvOf
  rw [← List.sum_map_mul_left]
  congr 1
  refine List.map_congr_left (fun i _ => ?_)
  unfold invertedValues
  ring

/-- **C47**: removing singular values amounts to inverting the matrix without its smallest `num_removed` components. -/
theorem C47_removed_partial (a : Matrix (Fin m) (Fin n) K) (d : Svd K m n k) (h : IsSvd a d) (numRemoved : Nat) (hr : numRemoved ≤ k) :
    IsPseudoInverse (d.u * Matrix.diagonal (fun i => if i.1 < k - numRemoved then d.s i else 0) * d.vt) (pinvOf d numRemoved 0 1) := by
  rw [pinvOf_eq d h.sorted (Int.natCast_nonneg _) (by exact_mod_cast hr)]
  refine spread_pseudoInverse (g := fun i => if i.1 < k - numRemoved then d.s i else 0) h.left h.right (fun i => ?_) (fun i => ?_)
  all_goals
    have e : ((i.1 : Int) < k - numRemoved) ↔ i.1 < k - numRemoved := by omega
    simp only [e]
    by_cases h1 : i.1 < k - numRemoved
    · rw [if_pos h1]
      by_cases h2 : 0 < d.s i
      · rw [if_pos ⟨h2, h1⟩, if_neg (by simp)]
        have := h2.ne'
        field_simp
      · rw [if_neg (fun h => h2 h.1)]
        have : d.s i = 0 := le_antisymm (not_lt.1 h2) (h.nonneg i)
        simp [this]
    · rw [if_neg h1, if_neg (fun h => h1 h.2)]; simp

/-- **C47**: with regularisation the result `x` solves the regularised normal equations `(aᵀ a + alpha²) x = aᵀ`. -/
theorem C47_tikhonov [IsStrictOrderedRing K] (a : Matrix (Fin m) (Fin n) K) (d : Svd K m n k) (h : IsSvd a d) (alpha : K) (ha : alpha ≠ 0) :
    (a.transpose * a + alpha ^ 2 • (1 : Matrix (Fin n) (Fin n) K)) * pinvOf d 0 alpha 1 = a.transpose := by
  rw [pinvOf_eq d h.sorted (le_refl _) (Int.natCast_nonneg _)]
  have hat : a.transpose = spreadDiag d d.s := by
    rw [h.product]; unfold spreadDiag
    rw [Matrix.transpose_mul, Matrix.transpose_mul, Matrix.diagonal_transpose, Matrix.mul_assoc]
  have haa : a.transpose * a = d.vt.transpose * Matrix.diagonal (fun i => d.s i * d.s i) * d.vt := by
    rw [hat, h.product]
    exact spread_mul_unspread h.left d.s d.s
  rw [Matrix.add_mul, haa, right_mul_spread h.right, Matrix.smul_mul, Matrix.one_mul, ← spread_smul, hat]
  ext p q
  rw [Matrix.add_apply, spread_apply, spread_apply, spread_apply, ← Finset.sum_add_distrib]
  refine Finset.sum_congr rfl (fun i _ => ?_)
  have hk : (i.1 : Int) < k - 0 := by have := i.2; omega
  by_cases h2 : 0 < d.s i
  · rw [if_pos ⟨h2, hk⟩, if_pos ha]
    have : d.s i ^ 2 + alpha ^ 2 ≠ 0 := (add_pos (pow_pos h2 2) (pow_two_pos_of_ne_zero ha)).ne'
    field_simp
  · rw [if_neg (fun h => h2 h.1)]
    have : d.s i = 0 := le_antisymm (not_lt.1 h2) (h.nonneg i)
    rw [this]; simp

/-- a singular matrix with three rows -/
def Example.svd : Svd ℚ 3 2 2 where
  u := !![0, 1; 3/5, 0; 4/5, 0]
  s := ![2, 0]
  vt := !![0, 1; 1, 0]

example : IsSvd !![0, 0; 0, 6/5; 0, 8/5] Example.svd ∧ pinvOf Example.svd 0 0 1 = !![0, 0, 0; 0, 3/10, 2/5] ∧
    pinvOf Example.svd 1 0 1 = !![0, 0, 0; 0, 3/10, 2/5] ∧ pinvOf Example.svd 2 0 1 = 0 ∧
    pinvOf Example.svd 0 1 (1/2) = !![0, 0, 0; 0, 3/25, 4/25] := by
  refine ⟨⟨?_, ?_, ?_, ?_, ?_⟩, ?_, ?_, ?_, ?_⟩ <;> decide +kernel

/-- **C47**, the remaining case: if more than all `k` values are to be removed, the largest `2 k - num_removed` are kept. -/
theorem C47_too_many (a : Matrix (Fin m) (Fin n) K) (d : Svd K m n k) (h : IsSvd a d) (numRemoved : Nat)
    (hr : k < numRemoved) (alpha damping : K) :
    pinvOf d numRemoved alpha damping = d.vt.transpose * Matrix.diagonal (fun i => if i.1 < 2 * k - numRemoved then
      damping * (d.s i / (d.s i ^ 2 + alpha ^ 2)) else 0) * d.u.transpose := by
  rw [pinvOf_too_many d h.sorted (by exact_mod_cast hr)]
  unfold spreadDiag
  congr 3
  funext i
  have e : ((i.1 : Int) < 2 * k - numRemoved) ↔ i.1 < 2 * k - numRemoved := by omega
  simp only [e]
  by_cases h1 : i.1 < 2 * k - numRemoved
  · rw [if_pos h1]
    by_cases h2 : 0 < d.s i
    · rw [if_pos ⟨h2, h1⟩]
      by_cases h3 : alpha = 0
      · rw [if_neg (not_not.2 h3), h3]
        have := h2.ne'
        field_simp
        simp
      · rw [if_pos h3]
    · rw [if_neg (fun h => h2 h.1)]
      have : d.s i = 0 := le_antisymm (not_lt.1 h2) (h.nonneg i)
      rw [this]; simp
  · rw [if_neg h1, if_neg (fun h => h1 h.2)]

/-- **C47** is violated: with more values to be removed than there are, some are kept. -/
theorem C47_violated_removal : ∃ (a : Matrix (Fin 2) (Fin 2) ℚ) (d : Svd ℚ 2 2 2), IsSvd a d ∧ pinvOf d 3 0 1 = !![1, 0; 0, 0] := by
  refine ⟨1, ⟨1, fun _ => 1, 1⟩, ⟨?_, ?_, ?_, ?_, ?_⟩, ?_⟩ <;> decide +kernel

end C47

section C48
variable {K : Type} [Field K] [LinearOrder K]

/-- a vector as an array -/
def Spec.vector (v : List K) : NdArr K := ⟨[v.length], v⟩

/-- **C48**: the sum of two vectors is as long as the longer one and its entries are the sums of the entries, zero
beyond the end of a vector. -/
theorem C48_sum (v w : List K) : ∃ u, addPaddedNd (vector v) (vector w) = .ok (vector u) ∧
    u.length = max v.length w.length ∧ ∀ i, padded u i = padded v i + padded w i := by
  have h1 : v.length ≤ (List.replicate (max v.length w.length) (0 : K)).length := by simp
  have h2 : w.length ≤ (addPrefix (List.replicate (max v.length w.length) (0 : K)) v).length := by
    rw [addPrefix_length _ _ h1]; simp
  refine ⟨addPrefix (addPrefix (List.replicate (max v.length w.length) 0) v) w, ?_, ?_, ?_⟩
  · unfold addPaddedNd vector
    simp only [List.length_singleton, ne_eq, not_true_eq_false, ite_false, List.zipWith_cons_cons, List.zipWith_nil_left,
      List.prod_cons, List.prod_nil, mul_one]
    rw [if_neg (by
      have := List.length_filter_le (fun d => decide (1 < d)) [max v.length w.length]
      simp only [List.length_singleton] at this
      omega), addPrefix_length _ _ h2, addPrefix_length _ _ h1, List.length_replicate]
  · rw [addPrefix_length _ _ h2, addPrefix_length _ _ h1, List.length_replicate]
  · intro i
    rw [addPrefix_padded _ _ h2, addPrefix_padded _ _ h1, padded_zeros, zero_add]

/-- **C48**: the order does not matter. -/
theorem C48_commutative (v w : List K) : addPaddedNd (vector v) (vector w) = addPaddedNd (vector w) (vector v) := by
  obtain ⟨u, h1, h2, h3⟩ := C48_sum v w
  obtain ⟨u', h1', h2', h3'⟩ := C48_sum w v
  rw [h1, h1', padded_ext (v := u) (w := u') (by rw [h2, h2', max_comm]) (fun i => by rw [h3, h3', add_comm])]

/-- **C48**: nor do brackets. -/
theorem C48_associative (v w u : List K) :
    (addPaddedNd (vector v) (vector w) >>= fun a => addPaddedNd a (vector u)) =
    (addPaddedNd (vector w) (vector u) >>= fun a => addPaddedNd (vector v) a) := by
  obtain ⟨x, h1, h2, h3⟩ := C48_sum v w
  obtain ⟨y, g1, g2, g3⟩ := C48_sum w u
  obtain ⟨x', h1', h2', h3'⟩ := C48_sum x u
  obtain ⟨y', g1', g2', g3'⟩ := C48_sum v y
  rw [h1, g1]
  show addPaddedNd (vector x) (vector u) = addPaddedNd (vector v) (vector y)
  rw [h1', g1', padded_ext (v := x') (w := y') (by rw [h2', g2', h2, g2, max_assoc])
    (fun i => by rw [h3', g3', h3, g3, add_assoc])]

/-- **C48**: everything but two vectors is refused, different numbers of dimensions with ValueError. -/
theorem C48_refused (v w : NdArr K) :
    (v.shape.length ≠ w.shape.length → addPaddedNd v w = .error .valueError) ∧
    (∀ u, addPaddedNd v w = .ok u → v.shape.length = 1 ∧ w.shape.length = 1) := by
  constructor
  · intro h
    unfold addPaddedNd
    rw [if_pos h]
  · intro u h
    unfold addPaddedNd at h
    by_cases h1 : v.shape.length = w.shape.length
    swap
    · rw [if_pos h1] at h; cases h
    rw [if_neg (not_not.2 h1)] at h
    simp only at h
    split at h
    · cases h
    · split at h
      · cases h
      · rename_i he
        rw [← h1, he]; exact ⟨rfl, rfl⟩
      · cases h

example : addPaddedNd (vector [1, 2]) (vector [(1 : ℚ), 1, 1/2]) = .ok (vector [2, 3, 1/2]) ∧
    addPaddedNd (vector [1, 2]) (⟨[1, 2], [1, (2 : ℚ)]⟩) = .error .valueError ∧
    addPaddedNd ⟨[2, 2], [1, 2, 3, 4]⟩ (⟨[1, 2], [1, (2 : ℚ)]⟩) = .error .valueError := by decide +kernel

end C48

section C60
variable {K : Type}

theorem famName_mapM {ring : Ring K} {names : List String} (h : ring.mapM famName = .ok names) :
    names.length = ring.length ∧ ∀ (i : Nat) (e : Elem K), ring[i]? = some e → ∃ s, famName e = .ok s ∧ names[i]? = some s := by
  induction ring generalizing names with
  | nil => cases h; exact ⟨rfl, by simp⟩
  | cons a r ih =>
    rw [List.mapM_cons] at h
    cases ha : famName a with
    | error e => rw [ha] at h; cases h
    | ok s =>
      rw [ha] at h
      cases hr : r.mapM famName with
      | error e => rw [hr] at h; cases h
      | ok l =>
        rw [hr] at h
        cases h
        obtain ⟨h1, h2⟩ := ih hr
        refine ⟨by simp [h1], ?_⟩
        intro i e hi
        cases i with
        | zero => cases hi; exact ⟨s, ha, rfl⟩
        | succ i => exact h2 i e (by simpa using hi)

/-- **C60**: if every element has a name, exactly the ordinates of the elements with a matching name are returned, in
increasing order. -/
theorem C60_ords_from_regex (search : String → Bool) (ring : Ring K)
    (hn : ∀ e ∈ ring, ∃ s, e "FamName" = some (.str s)) :
    ∃ ords, ordsFromRegex search ring = .ok ords ∧ ords.Pairwise (· < ·) ∧
      ∀ i, i ∈ ords ↔ ∃ s, ring.attr i "FamName" = some (.str s) ∧ search s = true := by
  have hok : ∃ names, ring.mapM famName = .ok names := by
    clear search
    induction ring with
    | nil => exact ⟨[], rfl⟩
    | cons a r ih =>
      obtain ⟨s, hs⟩ := hn a (List.mem_cons_self ..)
      obtain ⟨l, hl⟩ := ih (fun e he => hn e (List.mem_cons_of_mem _ he))
      refine ⟨s :: l, ?_⟩
      rw [List.mapM_cons, hl, show famName a = .ok s by unfold famName; rw [hs]]
      rfl
  obtain ⟨names, hnames⟩ := hok
  obtain ⟨hlen, hget⟩ := famName_mapM hnames
  refine ⟨_, by unfold ordsFromRegex; rw [hnames]; rfl, ?_, ?_⟩
  · have hs : (names.zipIdx.map Prod.snd).Pairwise (· < ·) := by
      rw [List.zipIdx_map_snd]; exact List.pairwise_lt_range'
    rw [List.pairwise_map] at hs ⊢
    exact hs.filter _
  · intro i
    rw [List.mem_map]
    constructor
    · rintro ⟨⟨s, j⟩, hj, rfl⟩
      obtain ⟨h1, h2⟩ := List.mem_filter.1 hj
      have h3 : names[j]? = some s := List.mem_zipIdx_iff_getElem?.1 h1
      have hj' : j < ring.length := by
        rw [← hlen]; exact (List.getElem?_eq_some_iff.1 h3).1
      obtain ⟨s', hf, hs'⟩ := hget j _ (List.getElem?_eq_getElem hj')
      rw [h3] at hs'; cases hs'
      refine ⟨s, ?_, h2⟩
      unfold Ring.attr
      rw [List.getElem?_eq_getElem hj']
      obtain ⟨s'', h''⟩ := hn _ (List.getElem_mem hj')
      unfold famName at hf
      rw [h''] at hf
      cases hf
      exact h''
    · rintro ⟨s, ha, hs⟩
      unfold Ring.attr at ha
      cases he : ring[i]? with
      | none => rw [he] at ha; cases ha
      | some e =>
        rw [he] at ha
        obtain ⟨s', hf, hs'⟩ := hget i e he
        unfold famName at hf
        rw [show e "FamName" = some (.str s) from ha] at hf
        cases hf
        exact ⟨(s, i), List.mem_filter.2 ⟨List.mem_zipIdx_iff_getElem?.2 hs', hs⟩, rfl⟩

/-- **C60**: `intersect` keeps the entries contained in the second list, in the order and as often as in the first. -/
theorem C60_intersect (primary secondary : List Nat) :
    (intersect primary secondary).Sublist primary ∧ (∀ x ∈ intersect primary secondary, x ∈ secondary) ∧
    (∀ x ∈ secondary, (intersect primary secondary).count x = primary.count x) := by
  refine ⟨List.filter_sublist, fun x hx => by simpa using List.of_mem_filter hx, fun x hx => ?_⟩
  unfold intersect
  rw [List.count_filter (by simpa using hx)]

def Example.named (s : String) : Elem ℚ := Elem.ofList [("FamName", .str s)]

example : ordsFromRegex (fun s => s.startsWith "QF") [Example.named "D", Example.named "QF1", Example.named "QD", Example.named "QF2"] =
    .ok [1, 3] ∧ intersect [3, 1, 2, 3] [3, 5, 1] = [3, 1, 3] ∧
    ordsFromRegex (fun _ => true) [(Elem.empty : Elem ℚ)] = .error .attributeError := by decide +kernel

end C60

section C61
variable {α : Type}

/-- **C61**: at construction all dictionaries inside dictionaries are converted, at every depth; keys and entries
stay as they are. -/
theorem C61_converted (e : List (String × DVal α)) :
    AllDot (.dict true (dotEntries e)) ∧
    ∀ path, (atPath (.dict true (dotEntries e)) path).map shown = (atPath (.dict false e) path).map shown := by
  refine ⟨AllDot.dict _ (dotEntries_allDot e), fun path => ?_⟩
  have := dotValue_atPath (.dict false e) path
  rw [show dotValue (.dict false e) = .dict true (dotEntries e) by rw [dotValue]] at this
  rw [this, Option.map_map]
  congr 1
  funext v
  exact dotValue_shown v

/-- **C61**: reading an attribute, unless the class has one of that name, is reading the item, and AttributeError is
raised just if there is none. -/
theorem C61_get_partial (reserved : List String) (d : Dict String (DVal α)) (key : String) (hk : key ∉ reserved) :
    (∀ v, dotGetAttr reserved d key = .ok (.item v) ↔ dotGetItem d key = .ok v) ∧
    (key ∉ d.keys → dotGetAttr reserved d key = .error .attributeError ∧ dotGetItem d key = .error .keyError) ∧
    (key ∈ d.keys → ∃ v, dotGetAttr reserved d key = .ok (.item v)) := by
  have hmem : key ∈ d.keys ↔ ∃ v, d.get? key = some v := by
    induction d with
    | nil => simp [Dict.keys, Dict.get?]
    | cons p d ih =>
      obtain ⟨k, v⟩ := p
      simp only [Dict.keys, List.map_cons, List.mem_cons, Dict.get?]
      by_cases h : k = key
      · rw [if_pos h]; simp [h]
      · rw [if_neg h, ← ih]
        simp [Ne.symm h, Dict.keys]
  unfold dotGetAttr dotGetItem
  rw [if_neg hk]
  cases hg : d.get? key with
  | none =>
    refine ⟨fun v => by simp, fun _ => ⟨rfl, rfl⟩, fun h => ?_⟩
    obtain ⟨v, hv⟩ := hmem.1 h
    rw [hg] at hv; cases hv
  | some w =>
    refine ⟨fun v => by simp, fun h => absurd (hmem.2 ⟨w, hg⟩) h, fun _ => ⟨w, rfl⟩⟩

/-- **C61**: what was assigned is read, by either way, and nothing else changes. -/
theorem C61_set (reserved : List String) (d : Dict String (DVal α)) (key : String) (v : DVal α) :
    dotGetItem (dotSet d key v) key = .ok v ∧ (key ∉ reserved → dotGetAttr reserved (dotSet d key v) key = .ok (.item v)) ∧
    ∀ key', key' ≠ key → dotGetItem (dotSet d key v) key' = dotGetItem d key' ∧
      dotGetAttr reserved (dotSet d key v) key' = dotGetAttr reserved d key' := by
  have hset : ∀ (d : Dict String (DVal α)) key', (d.set key v).get? key' = if key' = key then some v else d.get? key' := by
    intro d key'
    induction d with
    | nil =>
      simp only [Dict.set, Dict.get?]
      by_cases h : key = key'
      · rw [if_pos h, if_pos h.symm]
      · rw [if_neg h, if_neg (Ne.symm h)]
    | cons p d ih =>
      obtain ⟨k, w⟩ := p
      simp only [Dict.set]
      by_cases h : k = key
      · rw [if_pos h]
        simp only [Dict.get?]
        by_cases h' : k = key'
        · rw [if_pos h', if_pos (h'.symm.trans h)]
        · rw [if_neg h', if_neg (fun e => h' (h.trans e.symm)), if_neg h']
      · rw [if_neg h]
        simp only [Dict.get?]
        by_cases h' : k = key'
        · rw [if_pos h', if_pos h', if_neg (fun e => h (h'.trans e))]
        · rw [if_neg h', if_neg h', ih]
  have h1 : dotGetItem (dotSet d key v) key = .ok v := by
    unfold dotGetItem dotSet; rw [hset, if_pos rfl]
  refine ⟨h1, ?_, ?_⟩
  · intro hk
    unfold dotGetAttr
    rw [if_neg hk, h1]
  · intro key' hne
    have h2 : dotGetItem (dotSet d key v) key' = dotGetItem d key' := by
      unfold dotGetItem dotSet; rw [hset, if_neg hne]
    refine ⟨h2, ?_⟩
    unfold dotGetAttr
    rw [h2]

/-- **C61**: what was deleted is gone, by either way, and nothing else changes. -/
theorem C61_delete (reserved : List String) (d d' : Dict String (DVal α)) (key : String) (h : dotDel d key = .ok d') :
    key ∈ d.keys ∧ dotGetItem d' key = .error .keyError ∧ (key ∉ reserved → dotGetAttr reserved d' key = .error .attributeError) ∧
    ∀ key', key' ≠ key → dotGetItem d' key' = dotGetItem d key' := by
  unfold dotDel at h
  split at h
  · rename_i hk
    cases h
    have hget : ∀ (d : Dict String (DVal α)) key', Dict.get? (d.filter (fun p => decide (p.1 ≠ key))) key' =
        if key' = key then none else d.get? key' := by
      intro d key'
      induction d with
      | nil => simp [Dict.get?]
      | cons p d ih =>
        obtain ⟨k, w⟩ := p
        rw [List.filter_cons]
        by_cases h : k = key
        · rw [if_neg (by simp [h]), ih]
          by_cases h' : key' = key
          · rw [if_pos h', if_pos h']
          · rw [if_neg h', if_neg h']
            simp only [Dict.get?]
            rw [if_neg (fun e => h' (e.symm.trans h))]
        · rw [if_pos (by simp [h])]
          simp only [Dict.get?]
          by_cases h' : k = key'
          · rw [if_pos h', if_pos h', if_neg (fun e => h (h'.trans e))]
          · rw [if_neg h', if_neg h', ih]
    have h1 : dotGetItem (d.filter (fun p => decide (p.1 ≠ key))) key = .error .keyError := by
      unfold dotGetItem; rw [hget, if_pos rfl]
    refine ⟨hk, h1, ?_, ?_⟩
    · intro hr
      unfold dotGetAttr
      rw [if_neg hr, h1]
    · intro key' hne
      unfold dotGetItem; rw [hget, if_neg hne]
  · cases h

/-- some attributes every dictionary class has -/
def Example.dictMethods : List String := ["keys", "values", "items", "get", "pop", "update", "copy", "clear", "deepcopy"]

example : (∃ v, dotGetAttr Example.dictMethods [("BPM", DVal.leaf 1), ("RF", DVal.leaf 2)] "RF" = .ok (.item v)) ∧
    "RF" ∉ Example.dictMethods ∧ (∃ d, dotDel [("BPM", DVal.leaf 1), ("RF", DVal.leaf 2)] "RF" = .ok d) :=
  ⟨⟨_, rfl⟩, by decide, ⟨_, rfl⟩⟩

/-- **C61** is violated: an item with the name of a method of dictionaries is not what is read as an attribute. -/
theorem C61_violated_methods (a : α) :
    ∃ v, dotGetItem (dotSet [] "items" (DVal.leaf a)) "items" = .ok v ∧
      dotGetAttr Example.dictMethods (dotSet [] "items" (DVal.leaf a)) "items" ≠ .ok (.item v) :=
  ⟨DVal.leaf a, rfl, fun h => by cases h⟩

end C61

end PySC
