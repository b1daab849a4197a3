import Verif.Lemmas.Bba
import Verif.Lemmas.Fit
set_option linter.unusedSectionVars false
namespace PySC
open Py Spec
variable {K : Type} [Field K] [LinearOrder K] [FloorRing K]

theorem mapM_except_get {α β : Type _} {f : α → Except Err β} {l : List α} {w : List β} (h : l.mapM f = .ok w) {k : Nat} {x : α}
    (hx : l[k]? = some x) : ∃ y, w[k]? = some y ∧ f x = .ok y := by
  obtain ⟨y, h1, h2⟩ := (mapM_except_eq_ok h).2 k x hx
  exact ⟨y, h2, h1⟩

theorem mapM_except_src {α β : Type _} {f : α → Except Err β} {l : List α} {w : List β} (h : l.mapM f = .ok w) {y : β} (hy : y ∈ w) :
    ∃ x ∈ l, f x = .ok y := by
  obtain ⟨k, hk⟩ := List.mem_iff_getElem?.1 hy
  have hl := (mapM_except_eq_ok h).1
  have hlt : k < l.length := hl ▸ (List.getElem?_eq_some_iff.1 hk).1
  obtain ⟨y', h1, h2⟩ := mapM_except_get h (List.getElem?_eq_getElem hlt)
  rw [hk] at h1
  cases h1
  exact ⟨_, List.getElem_mem hlt, h2⟩

theorem cellAt_true_flags {flags : List (List Bool)} {p j : Nat} : cellAt flags p j = some true ↔ (flags.getD p []).getD j false = true := by
  simp only [cellAt, List.getD_eq_getElem?_getD]
  cases h : flags[p]? with
  | none => simp
  | some row =>
    simp only [Option.bind_some, Option.getD_some]
    cases row[j]? <;> simp

theorem filter_zip_range {α : Type} {n : Nat} {g : Nat → α} {flags : List Bool} (hl : flags.length = n) :
    ((((List.range n).map g).zip flags).filter (fun p => !p.2)).map Prod.fst =
      (List.range n).filterMap (fun j => if flags.getD j false = true then none else some (g j)) := by
  subst hl
  induction flags generalizing g with
  | nil => simp
  | cons b bs ih =>
    rw [List.length_cons, List.range_succ_eq_map, List.map_cons, List.map_map, List.zip_cons_cons, List.filterMap_cons,
      List.filterMap_map]
    have ih := ih (g := g ∘ Nat.succ)
    cases b with
    | true =>
      simp only [List.filter_cons, Bool.not_true, Bool.false_eq_true, if_false, List.getD_cons_zero, if_true]
      rw [ih]
      rfl
    | false =>
      simp only [List.filter_cons, Bool.not_false, if_true, List.map_cons, List.getD_cons_zero, Bool.false_eq_true, if_false]
      rw [ih]
      rfl

theorem fakeSizes_ok {S : StatsEnv K} {r : Ring K} {bpmOrds magOrds : List (List Nat)} {flags : List (List Bool)}
    {sizes : List (Option K)} (h : fakeSizes S r bpmOrds magOrds flags = .ok sizes) {p : Nat} {f : Option K} (hp : sizes[p]? = some f) :
    f = if unflaggedOffsets r bpmOrds magOrds flags p = [] then none
      else S.sqrt (((unflaggedOffsets r bpmOrds magOrds flags p).map (fun x => x ^ 2)).sum /
        ((unflaggedOffsets r bpmOrds magOrds flags p).length : K)) := by
  simp only [fakeSizes, Except.bind_eq_ok'] at h
  obtain ⟨offs, ho, h⟩ := h
  by_cases hs : shape flags ≠ shape bpmOrds
  · rw [if_pos hs] at h; cases h
  rw [if_neg hs] at h
  push Not at hs
  cases h
  rw [List.getElem?_zipWith_eq_some] at hp
  obtain ⟨fl, off, hfl, hoff, rfl⟩ := hp
  have hl := mapM_except_length ho
  have hlt : p < offs.length := (List.getElem?_eq_some_iff.1 hoff).1
  have hlt2 : p < (bpmOrds.zip magOrds).length := by rw [hl] at hlt; simpa using hlt
  obtain ⟨y, hy, hy2⟩ := mapM_except_get ho (k := p) (x := ((bpmOrds.zip magOrds)[p], p))
    (by rw [List.getElem?_eq_getElem (by simpa using hlt2)]; simp)
  rw [hoff] at hy
  cases hy
  obtain ⟨e1, e2⟩ := bpmOffsetsFromMag_eq_ok hy2
  rw [List.length_zip] at hlt2
  have hb : bpmOrds[p]? = some bpmOrds[p] := List.getElem?_eq_getElem (by omega)
  have hm : magOrds[p]? = some magOrds[p] := List.getElem?_eq_getElem (by omega)
  simp only [List.getElem_zip] at e1 e2
  have hlen : fl.length = bpmOrds[p].length := by
    have h1 : (shape flags)[p]? = (shape bpmOrds)[p]? := by rw [hs]
    simp only [shape, List.getElem?_map, hfl, hb, Option.map_some, Option.some.injEq] at h1
    exact h1
  have hu : ((off.zip fl).filter (fun p => !p.2)).map Prod.fst = unflaggedOffsets r bpmOrds magOrds flags p := by
    rw [e2, filter_zip_range hlen]
    unfold unflaggedOffsets
    have hb' : bpmOrds.getD p [] = bpmOrds[p] := by rw [List.getD_eq_getElem?_getD, hb]; rfl
    have hm' : magOrds.getD p [] = magOrds[p] := by rw [List.getD_eq_getElem?_getD, hm]; rfl
    rw [hb', hm']
    refine List.filterMap_congr (fun j _ => ?_)
    have : flags.getD p [] = fl := by rw [List.getD_eq_getElem?_getD, hfl]; rfl
    by_cases hj : fl.getD j false = true
    · rw [if_pos hj, if_pos (cellAt_true_flags.2 (by rw [this]; exact hj))]
    · rw [if_neg hj, if_neg (fun h => hj (by have := cellAt_true_flags.1 h; simp_all))]
  unfold rmsUnflagged
  simp only [hu]
  by_cases he : unflaggedOffsets r bpmOrds magOrds flags p = []
  · simp [he]
  · simp [he]

/-! ### evaluation -/

variable [IsStrictOrderedRing K]

theorem slopeAt_exact {err : Option K} {magVec : List K} {y : List (Option K)} {v : K × K} {a b : K}
    (hy : ∀ m w, (m, some w) ∈ magVec.zip y → w = a * m + b) (h : slopeAt err magVec y = .ok (some v)) : v.1 = a := by
  unfold slopeAt at h
  simp only at h
  by_cases hc : ((magVec.zip y).filterMap (fun p => p.2.map (fun v => (p.1, v)))).length < min magVec.length 3
  · rw [if_pos hc] at h; cases h
  rw [if_neg hc] at h
  cases err with
  | none => cases h
  | some e =>
    simp only [Except.bind_eq_ok'] at h
    obtain ⟨w, _, l, hl, h⟩ := h
    cases h
    refine (lineFit_exact hl (a := a) (b := b) (fun t ht => ?_)).1
    rw [List.mem_map] at ht
    obtain ⟨⟨m, v⟩, hp, rfl⟩ := ht
    rw [List.mem_filterMap] at hp
    obtain ⟨⟨m', o⟩, hmem, heq⟩ := hp
    cases o with
    | none => simp at heq
    | some o =>
      simp only [Option.map_some, Option.some.injEq, Prod.mk.injEq] at heq
      obtain ⟨rfl, rfl⟩ := heq
      exact hy _ _ hmem

theorem centreOf_exact {Q : BbaEnv K} {pts : List (K × K × K)} {c : K} {e : Option K} {β c0 : K}
    (hp : ∀ p ∈ pts, p.2.1 = β * (p.1 - c0)) (h : centreOf Q 1 pts = .ok (some (c, e))) : c = c0 := by
  unfold centreOf at h
  by_cases hc : pts.length ≤ 1 + 1
  · rw [if_pos hc] at h; cases h
  rw [if_neg hc] at h
  simp only [Except.bind_eq_ok'] at h
  obtain ⟨pts', hpts, f, hf, h⟩ := h
  unfold bbaFit at hf
  rw [if_pos rfl] at hf
  simp only [Except.bind_eq_ok'] at hf
  obtain ⟨l, hl, hf⟩ := hf
  cases hf
  obtain ⟨e1, e2⟩ := lineFit_exact hl (a := β) (b := -(β * c0)) (fun t ht => by
    obtain ⟨q, hq, hqt⟩ := mapM_except_src hpts ht
    obtain ⟨w, _, hw⟩ := Except.bind_eq_ok'.1 hqt
    cases hw
    simp only
    rw [hp q hq]; ring)
  simp only [e1, e2] at h
  split at h
  · cases h
  · simp only [Except.bind_eq_ok'] at h
    obtain ⟨c', hc', h⟩ := h
    have hcc : c' = c := by
      injection h with h
      injection h with h
      exact congrArg Prod.fst h
    rw [divE_eq_ok] at hc'
    obtain ⟨h0, hc'⟩ := hc'
    rw [← hcc, hc']
    have hβ : β ≠ 0 := by intro hb; apply h0; rw [hb]; simp
    field_simp
    push_cast
    ring

theorem sum_zipWith_const {c : K} : ∀ {data w : List K}, (∀ x ∈ data, x = c) → w.length = data.length →
    (List.zipWith (· * ·) data w).sum = c * w.sum := by
  intro data
  induction data with
  | nil =>
    intro w _ hl
    have : w = [] := List.length_eq_zero_iff.1 (by simpa using hl)
    subst this
    simp
  | cons x xs ih =>
    intro w hd hl
    cases w with
    | nil => simp at hl
    | cons y ys =>
      simp only [List.zipWith_cons_cons, List.sum_cons]
      rw [ih (fun z hz => hd z (by simp [hz])) (by simpa using hl), hd x (by simp)]
      ring

theorem npAverage_const {data : List K} {w : Option (List K)} {a : K × K} {c : K} (hd : ∀ x ∈ data, x = c) (h : npAverage data w = .ok a) :
    a.1 = c := by
  have hd' : data = List.replicate data.length c := List.eq_replicate_of_mem hd
  unfold npAverage at h
  cases w with
  | none =>
    simp only at h
    by_cases hc : data.isEmpty = true
    · rw [if_pos hc] at h; cases h
    · rw [if_neg hc] at h
      cases h
      have hn : (data.length : K) ≠ 0 := by
        have : data.length ≠ 0 := by simpa using hc
        exact_mod_cast this
      have e : data.sum = (data.length : K) * c := by
        conv_lhs => rw [hd']
        simp
      simp only [e]
      field_simp
  | some w =>
    simp only at h
    by_cases hl : w.length ≠ data.length
    · rw [if_pos hl] at h; cases h
    · rw [if_neg hl] at h
      push Not at hl
      by_cases hc : w.sum = 0
      · rw [if_pos hc] at h; cases h
      · rw [if_neg hc] at h
        cases h
        have e : (List.zipWith (· * ·) data w).sum = c * w.sum := sum_zipWith_const hd hl
        simp only [e]
        field_simp

theorem dataEvaluation_exact {Q : BbaEnv K} {r : Ring K} {par : BbaPar K} {data : List (List (Option K × List (Option K)))}
    {magVec : List K} {p mOrd : Nat} {out : K × Option K} {c : K} {α : Nat → Nat → K} {β : Nat → K} (hfit : par.fitOrder = 1)
    (hdata : ∀ i j x, i < par.nSteps → j < par.numDownstream → npMean (posAt data i) = some x →
      ∀ m w, (m, some w) ∈ magVec.zip (trajAt data i j) → w = α i j + β j * (x - c) * m)
    (h : dataEvaluation Q r par data magVec p mOrd = .ok out) :
    ∃ shift, bendingShift r par.dipComp p mOrd = .ok shift ∧ out.1 = c + shift := by
  unfold dataEvaluation at h
  simp only [Except.bind_eq_ok'] at h
  obtain ⟨centres, hcs, off, hoff, e, he, shift, hsh, h⟩ := h
  cases h
  refine ⟨shift, hsh, ?_⟩
  simp only [add_left_inj]
  simp only [weightedMean, Except.bind_eq_ok'] at hoff
  obtain ⟨a, ha, hoff⟩ := hoff
  cases hoff
  refine npAverage_const (fun x hx => ?_) ha
  rw [List.mem_map] at hx
  obtain ⟨⟨x', ex⟩, hx, rfl⟩ := hx
  rw [List.mem_filterMap] at hx
  obtain ⟨o, ho, hid⟩ := hx
  simp only [id] at hid
  subst hid
  obtain ⟨j, hj, hc⟩ := mapM_except_src hcs ho
  rw [List.mem_range] at hj
  unfold centreAt at hc
  simp only [Except.bind_eq_ok'] at hc
  obtain ⟨slopes, hsl, hc⟩ := hc
  rw [hfit] at hc
  refine centreOf_exact (β := β j) (fun q hq => ?_) hc
  rw [List.mem_filterMap] at hq
  obtain ⟨⟨g, s⟩, hmem, heq⟩ := hq
  cases s with
  | none => simp at heq
  | some v =>
    simp only [Option.map_some, Option.some.injEq] at heq
    subst heq
    obtain ⟨k, hk⟩ := List.mem_iff_getElem?.1 hmem
    rw [List.getElem?_zip_eq_some] at hk
    obtain ⟨y, hy1, hy2⟩ := mapM_except_get hsl hk.1
    rw [hk.2] at hy1
    cases hy1
    have hg := List.mem_of_getElem? hk.1
    unfold goodSteps at hg
    rw [List.mem_filterMap] at hg
    obtain ⟨i, hi, hgi⟩ := hg
    rw [Option.map_eq_some_iff] at hgi
    obtain ⟨x, hx, rfl⟩ := hgi
    rw [List.mem_range] at hi
    exact slopeAt_exact (a := β j * (x - c)) (b := α i j) (fun m w hm => by rw [hdata i j x hi hj hx m w hm]; ring) hy2

end PySC
