import Verif.Lemmas.Rels
import Verif.Lemmas.MagnetSetpoints
import Verif.Model.Supports
import Verif.Spec.Supports
import Mathlib.Algebra.Order.BigOperators.Group.List
import Mathlib.Tactic.FieldSimp
import Mathlib.Tactic.Ring
import Mathlib.Tactic.Linarith
/-
The support model agrees with the geometric description in `Verif.Spec.Supports`.
-/
namespace PySC
set_option linter.unusedSectionVars false
variable {K : Type} [Field K] [LinearOrder K]
open Py Spec

/-! ### positions -/

theorem cumsum_eq (l : List K) : ∀ acc : K, cumsum acc l = (List.range (l.length + 1)).map (fun k => acc + (l.take k).sum) := by
  induction l with
  | nil => intro acc; simp [cumsum]
  | cons x xs ih =>
    intro acc
    rw [cumsum, ih, List.length_cons, List.range_succ_eq_map (n := xs.length + 1)]
    simp [Function.comp_def, add_assoc]

theorem lengths_eq (r : Ring K) : lengths r = (List.range r.length).map (fun i => numAt r i "Length") := by
  apply List.ext_getElem
  · simp [lengths]
  · intro i h1 h2
    have hi : i < r.length := by simpa [lengths] using h1
    simp only [lengths, List.getElem_map, List.getElem_range, numAt, Ring.attr, List.getElem?_eq_getElem hi, Option.bind_some]
    cases r[i] "Length" with
    | none => rfl
    | some v => cases v <;> rfl

theorem sum_lengths_take (r : Ring K) {k : Nat} (hk : k ≤ r.length) : ((lengths r).take k).sum = sPos r k := by
  rw [lengths_eq, ← List.map_take, List.take_range, Nat.min_eq_left hk]; rfl

theorem findspos_eq (r : Ring K) : findspos r = (List.range (r.length + 1)).map (sPos r) := by
  unfold findspos
  rw [cumsum_eq]
  have : (lengths r).length = r.length := by simp [lengths]
  rw [this]
  refine List.map_congr_left (fun k hk => ?_)
  rw [zero_add, sum_lengths_take r (by simpa [Nat.lt_succ_iff] using hk)]

theorem length_findspos (r : Ring K) : (findspos r).length = r.length + 1 := by simp [findspos_eq]

theorem findspos_get {r : Ring K} {k : Nat} {x : K} : (findspos r)[k]? = some x ↔ k ≤ r.length ∧ x = sPos r k := by
  rw [findspos_eq, List.getElem?_map]
  by_cases hk : k < r.length + 1
  · rw [List.getElem?_eq_getElem (by simpa using hk)]
    simp only [List.getElem_range, Option.map_some, Option.some.injEq, eq_comm (b := x)]
    exact ⟨fun h => ⟨by omega, h⟩, fun h => h.2⟩
  · rw [List.getElem?_eq_none (by simpa using hk)]
    simp; omega

theorem findspos_last (r : Ring K) : (findspos r).getLastD 0 = circumference r := by
  rw [findspos_eq, List.range_succ]
  simp [circumference]

theorem sPos_succ (r : Ring K) (k : Nat) : sPos r (k + 1) = sPos r k + numAt r k "Length" := by
  unfold sPos; rw [List.range_succ]; simp

theorem sPos_congr {r r' : Ring K} (h : ∀ i, r'.attr i "Length" = r.attr i "Length") (k : Nat) : sPos r' k = sPos r k := by
  unfold sPos numAt
  simp only [h]

section ord
variable [IsStrictOrderedRing K]
theorem sPos_mono {r : Ring K} (hf : Forward r) {a b : Nat} (h : a ≤ b) : sPos r a ≤ sPos r b := by
  induction b with
  | zero => have : a = 0 := by omega
            subst this; exact le_refl _
  | succ n ih =>
    rcases Nat.lt_or_ge n a with hlt | hge
    · have : a = n + 1 := by omega
      subst this; exact le_refl _
    · rw [sPos_succ]
      have := hf n
      linarith [ih hge]

theorem sPos_nonneg {r : Ring K} (hf : Forward r) (k : Nat) : 0 ≤ sPos r k := by
  have := sPos_mono hf (Nat.zero_le k)
  simpa [sPos] using this

/-! ### one support -/

theorem lineInterp_eq {x0 f0 x1 f1 x : K} (h : x0 < x1) (h0 : x0 ≤ x) (h1 : x ≤ x1) :
    lineInterp x0 f0 x1 f1 x = line x0 f0 x1 f1 x := by
  unfold lineInterp line
  have hne : x1 - x0 ≠ 0 := (sub_pos.2 h).ne'
  split
  · have : x = x0 := le_antisymm ‹_› h0
    subst this; simp
  · split
    · field_simp; ring
    · have : x = x1 := le_antisymm h1 (not_lt.1 ‹_›)
      subst this
      field_simp; ring

theorem coef_assignWhere {off s : List K} {P : Nat → Bool} {g : K → K} {k : Nat} (hk : k < off.length)
    (hl : off.length = s.length) :
    coef (assignWhere off s P g) k = if P k then g (coef s k) else coef off k := by
  unfold assignWhere coef
  have hs : k < s.length := hl ▸ hk
  simp only [List.getD_eq_getElem?_getD, List.getElem?_mapIdx, List.getElem?_eq_getElem hk,
    List.getElem?_eq_getElem hs, Option.getD_some]
  rw [List.getElem?_eq_getElem (by simp [hk, hs])]
  simp

theorem length_assignWhere {off s : List K} {P : Nat → Bool} {g : K → K} (hl : off.length = s.length) :
    (assignWhere off s P g).length = off.length := by
  simp [assignWhere, hl]

theorem coef_findspos {r : Ring K} {k : Nat} (hk : k ≤ r.length) : coef (findspos r) k = sPos r k := by
  unfold coef
  rw [List.getD_eq_getElem?_getD, findspos_get.2 ⟨hk, rfl⟩]; rfl

theorem sInterpolation1_eq {r : Ring K} (hf : Forward r) {off off' : List K} {a b : Nat} {f1 f2 : K}
    (hl : off.length = r.length + 1) (hopen : a ≤ b ∨ sPos r b < sPos r a)
    (h : sInterpolation1 (findspos r) ((findspos r).getLastD 0) off a b f1 f2 = .ok off') :
    off'.length = r.length + 1 ∧ ∀ k ≤ r.length, coef off' k =
      if covers (a, b) k then line (along r (a, b) a) f1 (along r (a, b) b) f2 (along r (a, b) k) else coef off k := by
  unfold sInterpolation1 at h
  rw [Except.bind_eq_ok'] at h
  obtain ⟨s1, h1, h⟩ := h
  rw [Except.bind_eq_ok'] at h
  obtain ⟨s2, h2, h⟩ := h
  obtain ⟨ha, rfl⟩ := findspos_get.1 (idx_eq_ok.1 h1)
  obtain ⟨hb, rfl⟩ := findspos_get.1 (idx_eq_ok.1 h2)
  rw [findspos_last] at h
  have hls : off.length = (findspos r).length := by rw [hl, length_findspos]
  split at h
  · rename_i heq
    have hab : a ≤ b := by
      rcases hopen with h | h
      · exact h
      · exact absurd heq (ne_of_gt h)
    split at h
    · cases h
    · rename_i hff
      rw [not_not] at hff
      cases h
      refine ⟨by rw [length_assignWhere hls, hl], fun k hk => ?_⟩
      rw [coef_assignWhere (by omega) hls]
      simp only [covers, hab, if_true, decide_eq_true_eq]
      split
      · simp [line, hff]
      · rfl
  · rename_i hne
    split at h
    · rename_i hlt
      have hab : a ≤ b := by
        rcases hopen with h | h
        · exact h
        · exact absurd hlt (not_lt.2 h.le)
      cases h
      refine ⟨by rw [length_assignWhere hls, hl], fun k hk => ?_⟩
      rw [coef_assignWhere (by omega) hls]
      simp only [covers, hab, if_true, decide_eq_true_eq]
      split
      · rename_i hc
        rw [coef_findspos hk, lineInterp_eq hlt (sPos_mono hf hc.1) (sPos_mono hf hc.2)]
        have : ¬ b < a := by omega
        simp [along, this]
      · rfl
    · rename_i hnlt
      have hlt : sPos r b < sPos r a := lt_of_le_of_ne (not_lt.1 hnlt) (fun h => hne h.symm)
      have hba : b < a := by
        by_contra hh
        exact absurd (sPos_mono hf (not_lt.1 hh)) (not_le.2 hlt)
      have hcirc : ∀ k ≤ r.length, sPos r k ≤ circumference r := fun k hk => sPos_mono hf hk
      have hord : sPos r a < sPos r b + circumference r ∨ (sPos r a = sPos r b + circumference r) := by
        have := hcirc a ha
        have := sPos_nonneg hf b
        rcases lt_or_eq_of_le (show sPos r a ≤ sPos r b + circumference r by linarith) with h | h
        · exact Or.inl h
        · exact Or.inr h
      cases h
      refine ⟨by rw [length_assignWhere, length_assignWhere hls, hl]; rw [length_assignWhere hls]; exact hls, fun k hk => ?_⟩
      rw [coef_assignWhere (by rw [length_assignWhere hls]; omega) (by rw [length_assignWhere hls]; exact hls),
        coef_assignWhere (by omega) hls, coef_findspos hk]
      have hn : ¬ a ≤ b := by omega
      simp only [covers, hn, if_false, decide_eq_true_eq]
      have key : ∀ x, sPos r a ≤ x → x ≤ sPos r b + circumference r →
          lineInterp (sPos r a) f1 (sPos r b + circumference r) f2 x =
          line (sPos r a) f1 (sPos r b + circumference r) f2 x := by
        intro x h0 h1
        rcases hord with h | h
        · exact lineInterp_eq h h0 h1
        · rw [h] at h0 ⊢
          have : x = sPos r b + circumference r := le_antisymm h1 h0
          subst this
          simp [lineInterp, line]
      by_cases hak : a ≤ k
      · rw [if_pos hak, if_pos (Or.inl hak), key _ (sPos_mono hf hak) (by
          have := hcirc k hk; have := sPos_nonneg hf b; linarith)]
        have h1 : ¬ k < a := by omega
        simp [along, hba, h1]
      · rw [if_neg hak]
        by_cases hkb : k ≤ b
        · rw [if_pos hkb, if_pos (Or.inr hkb), add_comm (circumference r), key _ (by
            have := hcirc a ha; have := sPos_nonneg hf k; linarith) (by
            have := sPos_mono hf hkb; linarith)]
          have h1 : k < a := by omega
          simp [along, hba, h1]
        · rw [if_neg hkb, if_neg (by omega)]

/-! ### all supports of a type -/

theorem mapM_except_map {α β : Type _} {f : α → Except Err β} {g : α → β} {l : List α} {w : List β}
    (hg : ∀ x ∈ l, ∀ y, f x = .ok y → y = g x) (h : l.mapM f = .ok w) : w = l.map g := by
  obtain ⟨hl, hw⟩ := mapM_except_eq_ok h
  apply List.ext_getElem
  · simp [hl]
  · intro i h1 h2
    have hi : i < l.length := by omega
    obtain ⟨y, h3, h4⟩ := hw i l[i] (List.getElem?_eq_getElem hi)
    rw [List.getElem?_eq_getElem h1] at h4
    cases h4
    rw [List.getElem_map]
    exact hg _ (List.getElem_mem _) _ h3

theorem foldInterp_eq {r : Ring K} (hf : Forward r) {F : Nat × Nat → K × K} {l : List (Nat × Nat)} (hL : Layout r l) :
    ∀ {off off' : List K}, off.length = r.length + 1 →
    (l.map (fun p => (p, F p))).foldlM (fun off e => sInterpolation1 (findspos r) ((findspos r).getLastD 0) off e.1.1 e.1.2 e.2.1 e.2.2)
      off = .ok off' →
    off'.length = r.length + 1 ∧ ∀ k ≤ r.length, coef off' k = match l.find? (fun p => decide (covers p k)) with
      | none => coef off k
      | some p => line (along r p p.1) (F p).1 (along r p p.2) (F p).2 (along r p k) := by
  induction l with
  | nil => intro off off' hl h; cases h; exact ⟨hl, fun k _ => rfl⟩
  | cons p ps ih =>
    intro off off' hl h
    rw [List.map_cons, List.foldlM_cons, Except.bind_eq_ok'] at h
    obtain ⟨off1, h1, h2⟩ := h
    have hap := List.pairwise_cons.1 hL.apart
    obtain ⟨hl1, hv1⟩ := sInterpolation1_eq hf hl (hL.open_ p (by simp)) h1
    obtain ⟨hl2, hv2⟩ := ih ⟨hap.2, fun q hq => hL.open_ q (by simp [hq])⟩ hl1 h2
    refine ⟨hl2, fun k hk => ?_⟩
    rw [hv2 k hk]
    by_cases hc : covers p k
    · have hnone : ps.find? (fun p => decide (covers p k)) = none := by
        rw [List.find?_eq_none]
        intro q hq
        simpa using fun hq' => hap.1 q hq k ⟨hc, hq'⟩
      rw [hnone, List.find?_cons_of_pos (by simpa using hc)]
      simp only
      rw [hv1 k hk, if_pos hc]
    · rw [List.find?_cons_of_neg (by simpa using hc)]
      cases ps.find? (fun p => decide (covers p k)) with
      | some q => rfl
      | none => simp only; rw [hv1 k hk, if_neg hc]

theorem ride_congr {r : Ring K} {l : List (Nat × Nat)} {shift base base' : Nat → K} {k : Nat} (hk : base k = base' k)
    (hb : ∀ p ∈ l, base p.1 = base' p.1 ∧ base p.2 = base' p.2) : ride r l shift base k = ride r l shift base' k := by
  unfold ride
  cases hp : l.find? (fun p => decide (covers p k)) with
  | none => exact hk
  | some p =>
    have := hb p (List.mem_of_find?_eq_some hp)
    simp only [this.1, this.2]

theorem mapM_except_mem {α β : Type _} {f : α → Except Err β} {l : List α} {w : List β} (h : l.mapM f = .ok w) :
    ∀ x ∈ l, ∃ y, f x = .ok y := by
  obtain ⟨hl, hw⟩ := mapM_except_eq_ok h
  intro x hx
  obtain ⟨i, hi, rfl⟩ := List.mem_iff_getElem.1 hx
  obtain ⟨y, h3, -⟩ := hw i l[i] (List.getElem?_eq_getElem hi)
  exact ⟨y, h3⟩

theorem applySupportType_eq {r : Ring K} (hf : Forward r) {o : Ords} {dim : Nat} {t : String} {off off' : List K}
    (hL : Layout r (o.pairs t)) (hl : off.length = r.length + 1)
    (h : applySupportType r o (findspos r) ((findspos r).getLastD 0) dim t off = .ok off') :
    (off'.length = r.length + 1 ∧ ∀ k ≤ r.length,
      coef off' k = ride r (o.pairs t) (fun i => coef (vecAt r i (t ++ "Offset")) dim) (coef off) k) ∧
    ∀ p ∈ o.pairs t, p.1 ≤ r.length ∧ p.2 ≤ r.length := by
  unfold applySupportType at h
  rw [Except.bind_eq_ok'] at h
  obtain ⟨ends, h1, h2⟩ := h
  have he : ends = (o.pairs t).map (fun p => (p, (coef off p.1 + coef (vecAt r p.1 (t ++ "Offset")) dim,
      coef off p.2 + coef (vecAt r p.2 (t ++ "Offset")) dim))) := by
    refine mapM_except_map (fun p _ y hy => ?_) h1
    simp only [Except.bind_eq_ok', idx_eq_ok, supportValue, Ring.getVecAt_eq_ok, Except.ok.injEq] at hy
    obtain ⟨x1, e1, x2, ⟨v2, e2, e2'⟩, x3, e3, x4, ⟨v4, e4, e4'⟩, rfl⟩ := hy
    simp [coef, List.getD_eq_getElem?_getD, vecAt, e1, e2, e2', e3, e4, e4']
  refine ⟨?_, fun p hp => ?_⟩
  · rw [he] at h2
    obtain ⟨hl', hv⟩ := foldInterp_eq hf hL hl h2
    refine ⟨hl', fun k hk => ?_⟩
    rw [hv k hk]
    rfl
  · obtain ⟨y, hy⟩ := mapM_except_mem h1 p hp
    simp only [Except.bind_eq_ok', idx_eq_ok, supportValue, Ring.getVecAt_eq_ok, Except.ok.injEq] at hy
    obtain ⟨x1, e1, x2, -, x3, e3, -⟩ := hy
    have g1 := (List.getElem?_eq_some_iff.1 e1).1
    have g3 := (List.getElem?_eq_some_iff.1 e3).1
    omega

theorem offsetRow_eq {r : Ring K} (hf : Forward r) {o : Ords} {dim : Nat} {row : List K}
    (hL : Layouts r o) (h : offsetRow r o dim = .ok row) :
    (row.length = r.length + 1 ∧ ∀ k ≤ r.length, coef row k = displacement r o dim k) ∧
    ∀ tp ∈ typedPairs o, tp.2.1 ≤ r.length ∧ tp.2.2 ≤ r.length := by
  unfold offsetRow supportTypes at h
  simp only [List.foldlM_cons, List.foldlM_nil, Except.bind_eq_ok'] at h
  obtain ⟨o1, h1, o2, h2, o3, h3, h4⟩ := h
  cases h4
  obtain ⟨⟨l1, v1⟩, e1⟩ := applySupportType_eq hf (show Layout r (o.pairs "Section") from hL.section_)
    (by simp [length_findspos, zeros]) h1
  obtain ⟨⟨l2, v2⟩, e2⟩ := applySupportType_eq hf (show Layout r (o.pairs "Plinth") from hL.plinth) l1 h2
  obtain ⟨⟨l3, v3⟩, e3⟩ := applySupportType_eq hf (show Layout r (o.pairs "Girder") from hL.girder) l2 h3
  refine ⟨⟨l3, fun k hk => ?_⟩, fun tp htp => ?_⟩
  swap
  · simp only [typedPairs, supportTypes, List.flatMap_cons, List.flatMap_nil, List.mem_append, List.mem_map, List.not_mem_nil,
      or_false] at htp
    rcases htp with ⟨p, hp, rfl⟩ | ⟨p, hp, rfl⟩ | ⟨p, hp, rfl⟩
    · exact e1 p hp
    · exact e2 p hp
    · exact e3 p hp
  have hz : ∀ k, coef (zeros (findspos r).length : List K) k = 0 := by
    intro k; simp [coef, zeros, List.getD_eq_getElem?_getD, List.getElem?_replicate]; split <;> rfl
  have hb1 : ∀ k ≤ r.length, coef o1 k =
      ride r o.Section (fun i => coef (vecAt r i "SectionOffset") dim) (fun _ => 0) k := by
    intro k hk
    rw [v1 k hk]
    exact ride_congr (hz k) (fun p _ => ⟨hz _, hz _⟩)
  have hb2 : ∀ k ≤ r.length, coef o2 k = ride r o.Plinth (fun i => coef (vecAt r i "PlinthOffset") dim)
      (ride r o.Section (fun i => coef (vecAt r i "SectionOffset") dim) (fun _ => 0)) k := by
    intro k hk
    rw [v2 k hk]
    exact ride_congr (hb1 k hk) (fun p hp => ⟨hb1 _ (e2 p hp).1, hb1 _ (e2 p hp).2⟩)
  rw [v3 k hk]
  exact ride_congr (hb2 k hk) (fun p hp => ⟨hb2 _ (e3 p hp).1, hb2 _ (e3 p hp).2⟩)

/-! ### rolls -/

theorem supportMask_eq {p : Nat × Nat} (h : p.1 ≤ p.2) (k : Nat) : supportMask p.1 p.2 k = decide (covers p k) := by
  unfold supportMask
  rw [if_neg (by omega), decide_eq_decide, covers, if_pos h]
  constructor <;> intro hh <;> omega

/-- a support across the origin selects the whole ring -/
theorem supportMask_wrap {a b : Nat} (h : b < a) (k : Nat) : supportMask a b k = true := by
  unfold supportMask
  rw [if_pos h]
  have : ¬ (a ≤ k ∧ k < b) := by omega
  simp [this]

theorem coef_mapIdx {l : List K} {f : Nat → K → K} {k : Nat} (hk : k < l.length) :
    coef (l.mapIdx f) k = f k (coef l k) := by
  simp [coef, List.getD_eq_getElem?_getD, List.getElem?_eq_getElem hk]

theorem addRolls_eq {r : Ring K} {l : List (String × (Nat × Nat))} : ∀ {row row' : List K},
    l.foldlM (fun row tp => addRoll r tp.1 row tp.2) row = .ok row' →
    row'.length = row.length ∧ ∀ k < row.length, coef row' k = coef row k +
      ((l.filter (fun tp => supportMask tp.2.1 tp.2.2 k)).map (fun tp => coef (vecAt r tp.2.1 (tp.1 ++ "Roll")) 0)).sum := by
  induction l with
  | nil => intro row row' h; cases h; exact ⟨rfl, fun k _ => by simp⟩
  | cons tp l ih =>
    intro row row' h
    rw [List.foldlM_cons, Except.bind_eq_ok'] at h
    obtain ⟨row1, h1, h2⟩ := h
    unfold addRoll at h1
    simp only [Except.bind_eq_ok', Ring.getVecAt_eq_ok, Except.ok.injEq] at h1
    obtain ⟨x, ⟨v, hv, hx⟩, rfl⟩ := h1
    obtain ⟨hl, hc⟩ := ih h2
    rw [List.length_mapIdx] at hl hc
    refine ⟨hl, fun k hk => ?_⟩
    rw [hc k hk, coef_mapIdx hk]
    have hxx : coef (vecAt r tp.2.1 (tp.1 ++ "Roll")) 0 = x := by
      simp [coef, vecAt, hv, List.getD_eq_getElem?_getD, hx]
    by_cases hm : supportMask tp.2.1 tp.2.2 k = true
    · rw [if_pos hm, List.filter_cons_of_pos (by simpa using hm), List.map_cons, List.sum_cons, hxx]; ring
    · rw [if_neg hm, List.filter_cons_of_neg (by simpa using hm)]

theorem setTilts_eq {s off : List K} {C : K} {l : List (String × (Nat × Nat))} : ∀ {row row' : List K},
    l.foldlM (fun row tp => setTilt s C off row tp.2) row = .ok row' →
    row'.length = row.length ∧ ∀ k < row.length, coef row' k =
      match l.reverse.find? (fun tp => supportMask tp.2.1 tp.2.2 k) with
      | none => coef row k
      | some tp => (coef off tp.2.2 - coef off tp.2.1) /
          (if tp.2.2 < tp.2.1 then C + (coef s tp.2.2 - coef s tp.2.1) else coef s tp.2.2 - coef s tp.2.1) := by
  induction l with
  | nil => intro row row' h; cases h; exact ⟨rfl, fun k _ => by simp⟩
  | cons tp l ih =>
    intro row row' h
    rw [List.foldlM_cons, Except.bind_eq_ok'] at h
    obtain ⟨row1, h1, h2⟩ := h
    unfold setTilt supportLength at h1
    simp only [Except.bind_eq_ok', idx_eq_ok, Except.ok.injEq, divE_eq_ok] at h1
    obtain ⟨o1, e1, o0, e0, len, ⟨s1, g1, s2, g2, rfl⟩, x, ⟨-, rfl⟩, rfl⟩ := h1
    obtain ⟨hl, hc⟩ := ih h2
    rw [List.length_mapIdx] at hl hc
    refine ⟨hl, fun k hk => ?_⟩
    rw [hc k hk, coef_mapIdx hk, List.reverse_cons, List.find?_append]
    cases l.reverse.find? (fun tp => supportMask tp.2.1 tp.2.2 k) with
    | some q => rfl
    | none =>
      simp only [Option.none_or, List.find?_singleton]
      by_cases hm : supportMask tp.2.1 tp.2.2 k = true
      · simp [hm, coef, List.getD_eq_getElem?_getD, e1, e0, g1, g2]
      · simp [hm]

theorem coef_zeros (n k : Nat) : coef (zeros n : List K) k = 0 := by
  simp [coef, zeros, List.getD_eq_getElem?_getD, List.getElem?_replicate]; split <;> rfl

theorem typedPairs_supportList (o : Ords) :
    (typedPairs o).map (fun tp => (tp.1 ++ "Roll", tp.2)) = supportList o := by
  simp [typedPairs, supportTypes, supportList, Ords.pairs, Function.comp_def]

theorem typedPairs_noWrap {o : Ords} (h : NoWrap o) {tp : String × (Nat × Nat)} (htp : tp ∈ typedPairs o) :
    tp.2.1 ≤ tp.2.2 := by
  simp only [typedPairs, supportTypes, List.flatMap_cons, List.flatMap_nil, List.mem_append, List.mem_map, List.not_mem_nil,
    or_false] at htp
  apply h
  simp only [List.mem_append]
  rcases htp with ⟨p, hp, rfl⟩ | ⟨p, hp, rfl⟩ | ⟨p, hp, rfl⟩
  · exact Or.inl (Or.inl hp)
  · exact Or.inl (Or.inr hp)
  · exact Or.inr hp

theorem rollRows_eq {r : Ring K} (hf : Forward r) {o : Ords} (hL : Layouts r o) (hn : NoWrap o) {x y : List K}
    {rows : List (List K)} (hx : offsetRow r o 0 = .ok x) (hy : offsetRow r o 1 = .ok y) (h : rollRows r o x y = .ok rows) :
    ∃ roll pitch yaw, rows = [roll, pitch, yaw] ∧ roll.length = r.length + 1 ∧ pitch.length = r.length + 1 ∧
      yaw.length = r.length + 1 ∧ ∀ k ≤ r.length, coef roll k = rollAt r o k ∧ coef pitch k = slopeAt r o 1 k ∧
      coef yaw k = slopeAt r o 0 k := by
  unfold rollRows at h
  simp only [Except.bind_eq_ok', Except.ok.injEq] at h
  obtain ⟨roll, h1, pitch, h2, yaw, h3, rfl⟩ := h
  obtain ⟨l1, v1⟩ := addRolls_eq h1
  obtain ⟨l2, v2⟩ := setTilts_eq h2
  obtain ⟨l3, v3⟩ := setTilts_eq h3
  have hz : (zeros (findspos r).length : List K).length = r.length + 1 := by simp [zeros, length_findspos]
  rw [hz] at l1 v1 l2 v2 l3 v3
  have hcov : ∀ k, ∀ tp ∈ typedPairs o, supportMask tp.2.1 tp.2.2 k = decide (covers tp.2 k) :=
    fun k tp htp => supportMask_eq (typedPairs_noWrap hn htp) k
  have hslope : ∀ (dim : Nat) (row off : List K), offsetRow r o dim = .ok off → (∀ k < r.length + 1, coef row k =
      match (typedPairs o).reverse.find? (fun tp => supportMask tp.2.1 tp.2.2 k) with
      | none => coef (zeros (findspos r).length : List K) k
      | some tp => (coef off tp.2.2 - coef off tp.2.1) /
          (if tp.2.2 < tp.2.1 then (findspos r).getLastD 0 + (coef (findspos r) tp.2.2 - coef (findspos r) tp.2.1)
            else coef (findspos r) tp.2.2 - coef (findspos r) tp.2.1)) →
      ∀ k ≤ r.length, coef row k = slopeAt r o dim k := by
    intro dim row off hoff hv k hk
    obtain ⟨⟨-, hd⟩, he⟩ := offsetRow_eq hf hL hoff
    rw [hv k (by omega), slopeAt, ← typedPairs_supportList, ← List.map_reverse, List.find?_map]
    have hfc : (typedPairs o).reverse.find? (fun tp => supportMask tp.2.1 tp.2.2 k) =
        (typedPairs o).reverse.find? ((fun p => decide (covers p.2 k)) ∘ fun tp : String × (Nat × Nat) => (tp.1 ++ "Roll", tp.2)) := by
      have : ∀ l : List (String × (Nat × Nat)), (∀ tp ∈ l, tp ∈ typedPairs o) →
          l.find? (fun tp => supportMask tp.2.1 tp.2.2 k) =
          l.find? ((fun p => decide (covers p.2 k)) ∘ fun tp : String × (Nat × Nat) => (tp.1 ++ "Roll", tp.2)) := by
        intro l
        induction l with
        | nil => intro _; rfl
        | cons a l ih =>
          intro hl
          simp only [List.find?_cons, Function.comp_apply]
          rw [hcov k a (hl a (by simp)), ih (fun tp htp => hl tp (by simp [htp]))]
      exact this _ (fun tp htp => by simpa using htp)
    rw [hfc]
    cases hq : (typedPairs o).reverse.find? ((fun p => decide (covers p.2 k)) ∘ fun tp : String × (Nat × Nat) => (tp.1 ++ "Roll", tp.2)) with
    | none => simp [coef_zeros]
    | some tp =>
      have htp : tp ∈ typedPairs o := by simpa using List.mem_of_find?_eq_some hq
      have hle := typedPairs_noWrap hn htp
      obtain ⟨b1, b2⟩ := he tp htp
      have hnl : ¬ tp.2.2 < tp.2.1 := by omega
      simp only [Option.map_some, along, hnl, false_and, if_false]
      rw [hd _ b1, hd _ b2, coef_findspos b1, coef_findspos b2]
  refine ⟨roll, pitch, yaw, rfl, l1, l2, l3, fun k hk => ⟨?_, hslope 1 _ _ hy v2 k hk, hslope 0 _ _ hx v3 k hk⟩⟩
  rw [v1 k (by omega), coef_zeros, zero_add, rollAt, ← typedPairs_supportList, List.filter_map, List.map_map]
  rw [List.filter_congr (fun tp htp => hcov k tp htp)]
  rfl

/-! ### positions shared by several elements -/

/-- `j` is the first element at position `y` -/
def FirstAt (s : List K) (y : K) (j : Nat) : Prop := s[j]? = some y ∧ ∀ i < j, s[i]? ≠ some y

theorem mem_insertPos {x : K} {k : Nat} {l : List (K × Nat)} (hl : l.Pairwise (fun a b => a.1 < b.1)) {q : K × Nat} :
    q ∈ insertPos x k l ↔ q ∈ l ∨ (q = (x, k) ∧ ∀ j, (x, j) ∉ l) := by
  induction l with
  | nil => simp [insertPos]
  | cons p l ih =>
    obtain ⟨y, j⟩ := p
    rw [List.pairwise_cons] at hl
    rw [insertPos]
    split
    · rename_i hlt
      have : ∀ j', (x, j') ∉ (y, j) :: l := by
        intro j' hm
        rcases List.mem_cons.1 hm with h | h
        · simp only [Prod.mk.injEq] at h; exact absurd h.1 (ne_of_lt hlt)
        · exact absurd (lt_trans hlt (hl.1 _ h)) (lt_irrefl _)
      rw [List.mem_cons]
      constructor
      · rintro (h | h)
        · exact Or.inr ⟨h, this⟩
        · exact Or.inl h
      · rintro (h | ⟨h, -⟩)
        · exact Or.inr h
        · exact Or.inl h
    · split
      · rename_i heq
        constructor
        · intro h; exact Or.inl h
        · rintro (h | ⟨-, h⟩)
          · exact h
          · exact absurd (by rw [heq]; simp) (h j)
      · rename_i hn1 hn2
        rw [List.mem_cons, ih hl.2, List.mem_cons]
        have : (∀ j', (x, j') ∉ (y, j) :: l) ↔ ∀ j', (x, j') ∉ l := by
          simp only [List.mem_cons, Prod.mk.injEq, hn2, false_and, false_or]
        rw [this]
        tauto

theorem insertPos_sorted {x : K} {k : Nat} {l : List (K × Nat)} (hl : l.Pairwise (fun a b => a.1 < b.1)) :
    (insertPos x k l).Pairwise (fun a b => a.1 < b.1) := by
  induction l with
  | nil => simp [insertPos]
  | cons p l ih =>
    obtain ⟨y, j⟩ := p
    have hl' := List.pairwise_cons.1 hl
    rw [insertPos]
    split
    · rename_i hlt
      rw [List.pairwise_cons]
      refine ⟨fun q hq => ?_, hl⟩
      rcases List.mem_cons.1 hq with rfl | hq
      · exact hlt
      · exact lt_trans hlt (hl'.1 q hq)
    · split
      · exact hl
      · rename_i hn1 hn2
        rw [List.pairwise_cons]
        refine ⟨fun q hq => ?_, ih hl'.2⟩
        rcases (mem_insertPos hl'.2).1 hq with h | ⟨rfl, -⟩
        · exact hl'.1 q h
        · exact lt_of_le_of_ne (not_lt.1 hn1) (fun h => hn2 h.symm)

theorem uniquePos_spec (s : List K) : (uniquePos s).Pairwise (fun a b => a.1 < b.1) ∧
    ∀ y j, (y, j) ∈ uniquePos s ↔ FirstAt s y j := by
  unfold uniquePos
  induction s using List.reverseRecOn with
  | nil => simp [FirstAt]
  | append_singleton l x ih =>
    rw [List.zipIdx_append, List.foldl_append]
    simp only [List.zipIdx_cons, List.zipIdx_nil, List.foldl_cons, List.foldl_nil, Nat.zero_add]
    obtain ⟨h1, h2⟩ := ih
    refine ⟨insertPos_sorted h1, fun y j => ?_⟩
    rw [mem_insertPos h1, h2]
    simp only [h2]
    unfold FirstAt
    have hget : ∀ i, i < l.length → (l ++ [x])[i]? = l[i]? := fun i hi => List.getElem?_append_left hi
    have hlast : (l ++ [x])[l.length]? = some x := by simp
    constructor
    · rintro (⟨g1, g2⟩ | ⟨he, hno⟩)
      · have hj := (List.getElem?_eq_some_iff.1 g1).1
        exact ⟨by rw [hget j hj]; exact g1, fun i hi => by rw [hget i (by omega)]; exact g2 i hi⟩
      · cases he
        refine ⟨hlast, fun i hi => ?_⟩
        rw [hget i hi]
        intro hix
        -- then there is a first occurrence
        obtain ⟨m, hm1, hm2⟩ : ∃ m, l[m]? = some x ∧ ∀ i < m, l[i]? ≠ some x := by
          classical
          have hex : ∃ m, l[m]? = some x := ⟨i, hix⟩
          exact ⟨Nat.find hex, Nat.find_spec hex, fun i' hi' => Nat.find_min hex hi'⟩
        exact hno m ⟨hm1, hm2⟩
    · rintro ⟨g1, g2⟩
      have hj := (List.getElem?_eq_some_iff.1 g1).1
      simp only [List.length_append, List.length_singleton] at hj
      rcases Nat.lt_or_ge j l.length with hlt | hge
      · left
        exact ⟨by rw [← hget j hlt]; exact g1, fun i hi => by rw [← hget i (by omega)]; exact g2 i hi⟩
      · have : j = l.length := by omega
        subst this
        rw [hlast] at g1; cases g1
        right
        refine ⟨rfl, fun i ⟨hi, _⟩ => ?_⟩
        have := (List.getElem?_eq_some_iff.1 hi).1
        exact g2 i this (by rw [hget i this]; exact hi)

/-- interpolation at a sample point gives the sample -/
theorem npInterp_sample {pts : List (K × K)} (hs : pts.Pairwise (fun a b => a.1 < b.1)) {x f : K} (h : (x, f) ∈ pts) :
    npInterp pts x = .ok f := by
  fun_induction npInterp pts x with
  | case1 => simp at h
  | case2 x0 f0 =>
    simp only [List.mem_singleton, Prod.mk.injEq] at h
    rw [h.2]
  | case3 x0 f0 x1 f1 r x hle =>
    rw [List.pairwise_cons] at hs
    rcases List.mem_cons.1 h with h | h
    · simp only [Prod.mk.injEq] at h; rw [h.2]
    · exact absurd (hs.1 _ h) (not_lt.2 hle)
  | case4 x0 f0 x1 f1 r x h0 h1 =>
    rw [List.pairwise_cons] at hs
    rcases List.mem_cons.1 h with h | h
    · simp only [Prod.mk.injEq] at h; exact absurd (le_of_eq h.1) h0
    · rw [List.pairwise_cons] at hs
      rcases List.mem_cons.1 h with h | h
      · simp only [Prod.mk.injEq] at h; exact absurd h.1 (ne_of_lt h1)
      · exact absurd (hs.2.1 _ h) (not_lt.2 h1.le)
  | case5 x0 f0 x1 f1 r x h0 h1 ih =>
    rw [List.pairwise_cons] at hs
    refine ih hs.2 ?_
    rcases List.mem_cons.1 h with h | h
    · simp only [Prod.mk.injEq] at h; exact absurd (le_of_eq h.1) h0
    · exact h

theorem interpRow_eq {s row locs vals : List K} (h : interpRow s row locs = .ok vals) :
    vals.length = locs.length ∧ ∀ (m : Nat) y j, locs[m]? = some y → FirstAt s y j → vals[m]? = some (coef row j) := by
  unfold interpRow at h
  rw [Except.bind_eq_ok'] at h
  obtain ⟨pts, h1, h2⟩ := h
  have hp : pts = (uniquePos s).map (fun p => (p.1, coef row p.2)) := by
    refine mapM_except_map (fun p _ y hy => ?_) h1
    simp only [Except.bind_eq_ok', idx_eq_ok, Except.ok.injEq] at hy
    obtain ⟨f, hf, rfl⟩ := hy
    simp [coef, List.getD_eq_getElem?_getD, hf]
  obtain ⟨hlen, hv⟩ := mapM_except_eq_ok h2
  refine ⟨hlen, fun m y j hy hj => ?_⟩
  obtain ⟨v, hv1, hv2⟩ := hv m y hy
  obtain ⟨hs, hm⟩ := uniquePos_spec s
  rw [npInterp_sample (f := coef row j)] at hv1
  · cases hv1; exact hv2
  · rw [hp, List.pairwise_map]; exact hs
  · rw [hp, List.mem_map]; exact ⟨(y, j), (hm y j).2 hj, rfl⟩

theorem firstAt_findspos {r : Ring K} {i j : Nat} (hi : i ≤ r.length) (h : FirstThere r i j) :
    FirstAt (findspos r) (sPos r i) j := by
  refine ⟨findspos_get.2 ⟨by have := h.1; omega, h.2.1.symm⟩, fun i' hi' hh => ?_⟩
  exact h.2.2 i' hi' (findspos_get.1 hh).2.symm

theorem firstThere_exists (r : Ring K) (i : Nat) : ∃ j, FirstThere r i j := by
  classical
  have : ∃ j, sPos r j = sPos r i := ⟨i, rfl⟩
  exact ⟨Nat.find this, Nat.find_min' this rfl, Nat.find_spec this, fun j' hj' => Nat.find_min this hj'⟩

end ord
end PySC
