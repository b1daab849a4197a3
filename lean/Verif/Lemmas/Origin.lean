import Verif.Spec.Origin
import Verif.Props.Supports
import Mathlib.Tactic.LinearCombination
/-
The same ring counted from another element.
-/
namespace PySC
set_option linter.unusedSectionVars false
variable {K : Type} [Field K] [LinearOrder K] [IsStrictOrderedRing K]
open Py Spec

section
variable {n : Nat} {r r' : Ring K} {o o' : Ords}

theorem recount_lt {N n k : Nat} (hn : n < N) (hk : k < N) : recount N n k < N := by
  unfold recount; split <;> omega

theorem recount_inj {N n j k : Nat} (hn : n < N) (hj : j < N) (hk : k < N) (h : recount N n j = recount N n k) : j = k := by
  unfold recount at h; split at h <;> split at h <;> omega

theorem recount_surj {N n j : Nat} (hn : n < N) (hj : j < N) : ∃ k < N, recount N n k = j := by
  by_cases h : j + n < N
  · exact ⟨j + n, h, by unfold recount; rw [if_pos (by omega)]; omega⟩
  · exact ⟨j + n - N, by omega, by unfold recount; rw [if_neg (by omega)]; omega⟩

theorem Spec.Restarted.numAt (h : Restarted n r o r' o') {k : Nat} (hk : k < r.length) (a : String) :
    Spec.numAt r' (recount r.length n k) a = Spec.numAt r k a := by unfold Spec.numAt; rw [h.attr k hk]

theorem Spec.Restarted.vecAt (h : Restarted n r o r' o') {k : Nat} (hk : k < r.length) (a : String) :
    Spec.vecAt r' (recount r.length n k) a = Spec.vecAt r k a := by unfold Spec.vecAt; rw [h.attr k hk]

theorem Spec.Restarted.sPos_first (h : Restarted n r o r' o') : ∀ j, n + j ≤ r.length → sPos r' j = sPos r (n + j) - sPos r n := by
  intro j
  induction j with
  | zero => intro _; simp [sPos]
  | succ j ih =>
    intro hj
    have e : recount r.length n (n + j) = j := by unfold recount; rw [if_pos (by omega)]; omega
    rw [sPos_succ, ih (by omega), ← Nat.add_assoc, sPos_succ, ← h.numAt (k := n + j) (by omega), e]
    ring

theorem Spec.Restarted.sPos_second (h : Restarted n r o r' o') : ∀ j, j ≤ n →
    sPos r' (r.length - n + j) = sPos r j + circumference r - sPos r n := by
  intro j
  have hn := h.start
  induction j with
  | zero =>
    intro _
    rw [Nat.add_zero, h.sPos_first (r.length - n) (by omega), show n + (r.length - n) = r.length by omega]
    simp [circumference, sPos]
  | succ j ih =>
    intro hj
    have e : recount r.length n j = r.length - n + j := by unfold recount; rw [if_neg (by omega)]; omega
    rw [← Nat.add_assoc, sPos_succ, ih (by omega), sPos_succ r j, ← h.numAt (k := j) (by omega), e]
    ring

theorem Spec.Restarted.circumference (h : Restarted n r o r' o') : Spec.circumference r' = Spec.circumference r := by
  have hn := h.start
  unfold Spec.circumference
  rw [h.length]
  have := h.sPos_second n (le_refl n)
  rw [show r.length - n + n = r.length by omega] at this
  rw [this, Spec.circumference]
  ring

theorem Spec.Restarted.sPos (h : Restarted n r o r' o') {k : Nat} (hk : k < r.length) :
    Spec.sPos r' (recount r.length n k) = Spec.sPos r k - Spec.sPos r n + if k < n then Spec.circumference r else 0 := by
  by_cases hkn : n ≤ k
  · have e : recount r.length n k = k - n := by unfold recount; rw [if_pos hkn]
    rw [e, h.sPos_first _ (by omega), if_neg (by omega), show n + (k - n) = k by omega, add_zero]
  · have hn := h.start
    have e : recount r.length n k = r.length - n + k := by unfold recount; rw [if_neg hkn]; omega
    rw [e, h.sPos_second k (by omega), if_pos (by omega)]
    ring

theorem covers_recount {N : Nat} (hn : n < N) {p : Nat × Nat} (h1 : p.1 < N) (h2 : p.2 < N) {k : Nat} (hk : k < N) :
    covers (Prod.map (recount N n) (recount N n) p) (recount N n k) ↔ covers p k := by
  obtain ⟨a, b⟩ := p
  simp only [Prod.map, covers, recount]
  simp only at h1 h2
  split_ifs <;> constructor <;> intro h <;> omega

/-- distance along a support from its first end -/
theorem along_sub {p : Nat × Nat} {k : Nat} (hc : covers p k) :
    along r p k - along r p p.1 = sPos r k - sPos r p.1 + if k < p.1 then circumference r else 0 := by
  unfold along
  rw [if_neg (by omega : ¬ (p.2 < p.1 ∧ p.1 < p.1))]
  unfold covers at hc
  by_cases hk : k < p.1
  · rw [if_pos hk]
    have : p.2 < p.1 := by split_ifs at hc <;> omega
    rw [if_pos ⟨this, hk⟩]
    ring
  · rw [if_neg hk, if_neg (by tauto)]
    ring

theorem Spec.Restarted.along_sub (h : Restarted n r o r' o') {p : Nat × Nat} (h1 : p.1 < r.length) (h2 : p.2 < r.length) {k : Nat} (hk : k < r.length)
    (hc : covers p k) : along r' (Prod.map (recount r.length n) (recount r.length n) p) (recount r.length n k) -
      along r' (Prod.map (recount r.length n) (recount r.length n) p) (recount r.length n p.1) = along r p k - along r p p.1 := by
  have hn := h.start
  have := PySC.along_sub (r := r') ((covers_recount hn h1 h2 hk).2 hc)
  simp only [Prod.map_fst] at this
  rw [this, PySC.along_sub hc, h.sPos hk, h.sPos h1, h.circumference]
  have key : (if k < n then Spec.circumference r else 0) - (if p.1 < n then Spec.circumference r else 0) +
      (if recount r.length n k < recount r.length n p.1 then Spec.circumference r else 0) = if k < p.1 then Spec.circumference r else 0 := by
    unfold recount
    by_cases a : k < n <;> by_cases b : p.1 < n <;> by_cases c : k < p.1 <;> simp only [a, b, c, if_true, if_false] <;>
      split_ifs <;> first | omega | ring
  linear_combination key

theorem line_shift {xa fa xb fb x ya yb y : K} (h1 : yb - ya = xb - xa) (h2 : y - ya = x - xa) : line ya fa yb fb y = line xa fa xb fb x := by
  unfold line; rw [h1, h2]

theorem Spec.Restarted.ride (h : Restarted n r o r' o') {l l' : List (Nat × Nat)} (hl : l'.Perm (l.map (Prod.map (recount r.length n) (recount r.length n))))
    (hin : ∀ p ∈ l, p.1 < r.length ∧ p.2 < r.length) (hL : Layout r l) (hL' : Layout r' l') {shift base shift' base' : Nat → K}
    (hs : ∀ k < r.length, shift' (recount r.length n k) = shift k) (hb : ∀ k < r.length, base' (recount r.length n k) = base k)
    {k : Nat} (hk : k < r.length) : Spec.ride r' l' shift' base' (recount r.length n k) = Spec.ride r l shift base k := by
  by_cases hc : ∃ p ∈ l, covers p k
  · obtain ⟨p, hp, hc⟩ := hc
    obtain ⟨h1, h2⟩ := hin p hp
    rw [ride_on hL hp hc, ride_on hL' (hl.symm.subset (List.mem_map_of_mem hp)) ((covers_recount h.start h1 h2 hk).2 hc)]
    simp only [Prod.map_fst, Prod.map_snd]
    rw [hb _ h1, hb _ h2, hs _ h1, hs _ h2]
    exact line_shift (h.along_sub h1 h2 h2 (covers_end p)) (h.along_sub h1 h2 hk hc)
  · rw [ride_off (fun p hp hc' => hc ⟨p, hp, hc'⟩), ride_off, hb k hk]
    intro p' hp' hc'
    obtain ⟨p, hp, rfl⟩ := List.mem_map.1 (hl.subset hp')
    obtain ⟨h1, h2⟩ := hin p hp
    exact hc ⟨p, hp, (covers_recount h.start h1 h2 hk).1 hc'⟩

theorem Spec.Restarted.displacement (h : Restarted n r o r' o') (hL : Layouts r o) (hL' : Layouts r' o') (dim : Nat) {k : Nat} (hk : k < r.length) :
    Spec.displacement r' o' dim (recount r.length n k) = Spec.displacement r o dim k := by
  have hi := h.inside
  simp only [List.mem_append] at hi
  unfold Spec.displacement
  refine h.ride h.girder (fun p hp => hi p (Or.inr hp)) hL.girder hL'.girder (fun k hk => by rw [h.vecAt hk]) (fun k hk => ?_) hk
  refine h.ride h.plinth (fun p hp => hi p (Or.inl (Or.inr hp))) hL.plinth hL'.plinth (fun k hk => by rw [h.vecAt hk]) (fun k hk => ?_) hk
  exact h.ride h.section_ (fun p hp => hi p (Or.inl (Or.inl hp))) hL.section_ hL'.section_ (fun k hk => by rw [h.vecAt hk]) (fun _ _ => rfl) hk

theorem supportList_perm (h : Restarted n r o r' o') :
    (supportList o').Perm ((supportList o).map (Prod.map id (Prod.map (recount r.length n) (recount r.length n)))) := by
  unfold supportList
  simp only [List.map_append, List.map_map]
  have e : ∀ (s : String) {l l' : List (Nat × Nat)}, l'.Perm (l.map (Prod.map (recount r.length n) (recount r.length n))) →
      (l'.map (fun p => (s, p))).Perm (l.map (Prod.map id (Prod.map (recount r.length n) (recount r.length n)) ∘ fun p => (s, p))) := by
    intro s l l' hp
    have := hp.map (fun p => (s, p))
    rwa [List.map_map] at this
  exact ((e _ h.section_).append (e _ h.plinth)).append (e _ h.girder)

theorem mem_supportList {x : String × (Nat × Nat)} (hx : x ∈ supportList o) : x.2 ∈ o.Section ++ o.Plinth ++ o.Girder := by
  unfold supportList at hx
  simp only [List.mem_append, List.mem_map] at hx ⊢
  rcases hx with (⟨p, hp, rfl⟩ | ⟨p, hp, rfl⟩) | ⟨p, hp, rfl⟩ <;> simp [hp]

theorem Spec.Restarted.rollAt (h : Restarted n r o r' o') {k : Nat} (hk : k < r.length) :
    Spec.rollAt r' o' (recount r.length n k) = Spec.rollAt r o k := by
  unfold Spec.rollAt
  rw [(((supportList_perm h).filter _).map _).sum_eq, List.filter_map, List.map_map]
  have hin : ∀ x ∈ supportList o, x.2.1 < r.length ∧ x.2.2 < r.length := fun x hx => h.inside _ (mem_supportList hx)
  have e : (supportList o).filter ((fun p => decide (covers p.2 (recount r.length n k))) ∘ Prod.map id (Prod.map (recount r.length n) (recount r.length n))) =
      (supportList o).filter (fun p => decide (covers p.2 k)) := by
    refine List.filter_congr (fun x hx => ?_)
    obtain ⟨h1, h2⟩ := hin x hx
    exact decide_eq_decide.2 (covers_recount h.start h1 h2 hk)
  rw [e]
  congr 1
  refine List.map_congr_left (fun x hx => ?_)
  obtain ⟨h1, -⟩ := hin x (List.mem_of_mem_filter hx)
  simp only [Function.comp_apply, Prod.map_fst, Prod.map_snd, id]
  rw [h.vecAt h1]

/-- the support found from the top -/
theorem find_of_layout {l : List (Nat × Nat)} (hL : Layout r l) {p : Nat × Nat} (hp : p ∈ l) {k : Nat} (hc : covers p k) (s : String) :
    (l.map (fun p => (s, p))).reverse.find? (fun x => decide (covers x.2 k)) = some (s, p) := by
  cases h : (l.map (fun p => (s, p))).reverse.find? (fun x => decide (covers x.2 k)) with
  | none =>
    rw [List.find?_eq_none] at h
    exact absurd (decide_eq_true hc) (h (s, p) (List.mem_reverse.2 (List.mem_map_of_mem hp)))
  | some x =>
    have hq := List.find?_some h
    have hm := List.mem_reverse.1 (List.mem_of_find?_eq_some h)
    obtain ⟨q, hq', rfl⟩ := List.mem_map.1 hm
    by_contra hne
    have hne' : p ≠ q := fun he => hne (by rw [he])
    have : Std.Symm (fun p q : Nat × Nat => ∀ k, ¬ (covers p k ∧ covers q k)) := ⟨fun a b h k hk => h k hk.symm⟩
    exact hL.apart.forall hp hq' hne' k ⟨hc, by simpa using hq⟩

theorem find_none {l : List (Nat × Nat)} {k : Nat} (h : ∀ p ∈ l, ¬ covers p k) (s : String) :
    (l.map (fun p => (s, p))).reverse.find? (fun x => decide (covers x.2 k)) = none := by
  rw [List.find?_eq_none]
  intro x hx
  obtain ⟨q, hm, rfl⟩ := List.mem_map.1 (List.mem_reverse.1 hx)
  simpa using h q hm

theorem Spec.Restarted.find (h : Restarted n r o r' o') {l l' : List (Nat × Nat)} (hl : l'.Perm (l.map (Prod.map (recount r.length n) (recount r.length n))))
    (hin : ∀ p ∈ l, p.1 < r.length ∧ p.2 < r.length) (hL : Layout r l) (hL' : Layout r' l') {k : Nat} (hk : k < r.length) (s : String) :
    (l'.map (fun p => (s, p))).reverse.find? (fun x => decide (covers x.2 (recount r.length n k))) =
      ((l.map (fun p => (s, p))).reverse.find? (fun x => decide (covers x.2 k))).map (Prod.map id (Prod.map (recount r.length n) (recount r.length n))) := by
  by_cases hc : ∃ p ∈ l, covers p k
  · obtain ⟨p, hp, hc⟩ := hc
    obtain ⟨h1, h2⟩ := hin p hp
    rw [find_of_layout hL hp hc, find_of_layout hL' (hl.symm.subset (List.mem_map_of_mem hp)) ((covers_recount h.start h1 h2 hk).2 hc)]
    rfl
  · rw [find_none (fun p hp hc' => hc ⟨p, hp, hc'⟩), find_none, Option.map_none]
    intro p' hp' hc'
    obtain ⟨p, hp, rfl⟩ := List.mem_map.1 (hl.subset hp')
    obtain ⟨h1, h2⟩ := hin p hp
    exact hc ⟨p, hp, (covers_recount h.start h1 h2 hk).1 hc'⟩

theorem Spec.Restarted.slopeAt (h : Restarted n r o r' o') (hL : Layouts r o) (hL' : Layouts r' o') (dim : Nat) {k : Nat} (hk : k < r.length) :
    Spec.slopeAt r' o' dim (recount r.length n k) = Spec.slopeAt r o dim k := by
  have hi := h.inside
  simp only [List.mem_append] at hi
  have e : (supportList o').reverse.find? (fun x => decide (covers x.2 (recount r.length n k))) =
      ((supportList o).reverse.find? (fun x => decide (covers x.2 k))).map (Prod.map id (Prod.map (recount r.length n) (recount r.length n))) := by
    unfold supportList
    simp only [List.reverse_append, List.find?_append]
    rw [h.find h.girder (fun p hp => hi p (Or.inr hp)) hL.girder hL'.girder hk, h.find h.plinth (fun p hp => hi p (Or.inl (Or.inr hp))) hL.plinth hL'.plinth hk,
      h.find h.section_ (fun p hp => hi p (Or.inl (Or.inl hp))) hL.section_ hL'.section_ hk, Option.map_or, Option.map_or]
  unfold Spec.slopeAt
  rw [e]
  cases hx : (supportList o).reverse.find? (fun x => decide (covers x.2 k)) with
  | none => rfl
  | some x =>
    obtain ⟨h1, h2⟩ := h.inside _ (mem_supportList (List.mem_reverse.1 (List.mem_of_find?_eq_some hx)))
    simp only [Option.map_some, Prod.map_fst, Prod.map_snd]
    rw [h.displacement hL hL' dim h1, h.displacement hL hL' dim h2, h.along_sub h1 h2 h2 (covers_end _)]

theorem Spec.Restarted.firstThere (h : Restarted n r o r' o') (hf : Forward r) (hn : 0 < n) (hcut : 0 < Spec.numAt r (n - 1) "Length")
    (hend : 0 < Spec.numAt r (r.length - 1) "Length") {i j : Nat} (hi : i < r.length) (hj : FirstThere r i j) :
    FirstThere r' (recount r.length n i) (recount r.length n j) := by
  obtain ⟨hji, hs, hfirst⟩ := hj
  have hns := h.start
  have s1 : Spec.sPos r (n - 1) < Spec.sPos r n := by
    have := sPos_succ r (n - 1)
    rw [show n - 1 + 1 = n by omega] at this
    linarith
  have s2 : Spec.sPos r (r.length - 1) < Spec.circumference r := by
    have := sPos_succ r (r.length - 1)
    rw [show r.length - 1 + 1 = r.length by omega] at this
    unfold Spec.circumference
    linarith
  have side : j < n ↔ i < n := by
    constructor
    · intro hjn
      by_contra hin
      have a := sPos_mono hf (show n ≤ i by omega)
      have b := sPos_mono hf (show j ≤ n - 1 by omega)
      linarith
    · intro; omega
  refine ⟨?_, ?_, ?_⟩
  · unfold recount; split_ifs <;> omega
  · rw [h.sPos hi, h.sPos (by omega : j < r.length), hs]
    simp only [side]
  · intro j' hj'
    obtain ⟨m, hm, rfl⟩ := recount_surj hns (show j' < r.length from lt_trans hj' (recount_lt hns (by omega)))
    rw [h.sPos hi, h.sPos hm]
    by_cases a : m < n <;> by_cases b : i < n
    · simp only [a, b, if_true]
      have : m < j := by unfold recount at hj'; split_ifs at hj' <;> omega
      intro e; exact hfirst m this (by linarith)
    · exfalso
      have : ¬ j < n := by rw [side]; exact b
      unfold recount at hj'; split_ifs at hj' <;> omega
    · simp only [a, b, if_true, if_false]
      have := sPos_mono hf (show m ≤ r.length - 1 by omega)
      have := sPos_nonneg hf i
      intro e; linarith
    · simp only [a, b, if_false]
      have : m < j := by
        have : ¬ j < n := by rw [side]; exact b
        unfold recount at hj'; split_ifs at hj' <;> omega
      intro e; exact hfirst m this (by linarith)

end

end PySC
