import Verif.Spec.PlotSupport
import Verif.Lemmas.Supports
import Verif.Lemmas.ApplicableUpdate
import Mathlib.Tactic.FieldSimp
/-
Lines drawn for supports.
-/
namespace PySC
set_option linter.unusedSectionVars false
variable {K : Type} [Field K] [LinearOrder K] [FloorRing K] [IsStrictOrderedRing K]
open Py Spec

theorem dictValue_eq_ok {r : Ring K} {i : Nat} {a : String} {k : Nat} {x : K} : dictValue r i a k = .ok x ↔ ∃ v, r.attr i a = some (.vec v) ∧ v[k]? = some x := by
  rw [← Ring.getVecAt_eq_ok]
  unfold dictValue
  split
  · rename_i h; rw [h]; simp
  · rfl

theorem dictValue_coef {r : Ring K} {i : Nat} {a : String} {k : Nat} {x : K} (h : dictValue r i a k = .ok x) : x = coef (vecAt r i a) k := by
  obtain ⟨v, h1, h2⟩ := dictValue_eq_ok.1 h
  simp [vecAt, h1, coef, h2]

/-- data of one support -/
def dataOf (r : Ring K) (t : String) (dim : Nat) (p : Nat × Nat) : K × K × K :=
  (coef (vecAt r p.1 (t ++ "Offset")) dim, coef (vecAt r p.2 (t ++ "Offset")) dim, coef (vecAt r p.1 (t ++ "Roll")) dim)

theorem supportData_eq {r : Ring K} {t : String} {dim : Nat} {p : Nat × Nat} {d : K × K × K} (h : supportData r t dim p = .ok d) : d = dataOf r t dim p := by
  unfold supportData at h
  simp only [Except.bind_eq_ok', Except.ok.injEq] at h
  obtain ⟨a, ha, b, hb, c, hc, rfl⟩ := h
  rw [dictValue_coef ha, dictValue_coef hb, dictValue_coef hc]
  rfl

theorem supportData_total {r : Ring K} {t : String} {dim : Nat} (hd : dim < 3) {p : Nat × Nat} (h : HasData r t p) : supportData r t dim p = .ok (dataOf r t dim p) := by
  have tot : ∀ {i a}, HasVec3 r i a → ∃ x, dictValue r i a dim = .ok x := by
    intro i a h
    obtain ⟨x, hx⟩ := HasVec3.getVecAt h hd
    exact ⟨x, dictValue_eq_ok.2 (Ring.getVecAt_eq_ok.1 hx)⟩
  obtain ⟨a, ha⟩ := tot h.1
  obtain ⟨b, hb⟩ := tot h.2.1
  obtain ⟨c, hc⟩ := tot h.2.2
  have : ∃ d, supportData r t dim p = .ok d := by
    unfold supportData
    simp only [Except.bind_eq_ok']
    exact ⟨_, a, ha, b, hb, c, hc, rfl⟩
  obtain ⟨d, hd⟩ := this
  rw [hd, supportData_eq hd]

theorem hasVec3_lt {r : Ring K} {i : Nat} {a : String} (h : HasVec3 r i a) : i < r.length := by
  obtain ⟨x, y, z, h⟩ := h
  by_contra hn
  have : r[i]? = none := List.getElem?_eq_none (not_lt.1 hn)
  simp [Ring.attr, this] at h

instance (r : Ring K) (lim : K × K) (p : Nat × Nat) : Decidable (Touches r lim p) := by unfold Touches; infer_instance

theorem idx_findspos {r : Ring K} {k : Nat} (h : k ≤ r.length) : idx (findspos r) k = .ok (sPos r k) := idx_eq_ok.2 (findspos_get.2 ⟨h, rfl⟩)

theorem idx_findspos_ok {r : Ring K} {k : Nat} {x : K} (h : idx (findspos r) k = .ok x) : k ≤ r.length ∧ x = sPos r k := findspos_get.1 (idx_eq_ok.1 h)

/-- what has been collected -/
theorem collectSupports_eq {r : Ring K} {t : String} {dim : Nat} {lim : K × K} : ∀ {ps : List (Nat × Nat)} {ds : List (K × K × K)},
    collectSupports r t dim lim ps = .ok ds → ds = (ps.filter (fun p => decide (Touches r lim p))).map (dataOf r t dim) := by
  intro ps
  induction ps with
  | nil => intro ds h; simp only [collectSupports, Except.ok.injEq] at h; subst h; rfl
  | cons p ps ih =>
    intro ds h
    unfold collectSupports at h
    simp only [Except.bind_eq_ok'] at h
    obtain ⟨s0, h0, s1, h1, h⟩ := h
    obtain ⟨-, rfl⟩ := idx_findspos_ok h0
    obtain ⟨-, rfl⟩ := idx_findspos_ok h1
    by_cases ht : Touches r lim p
    · have ht' := ht
      unfold Touches at ht'
      rw [if_pos ht'] at h
      simp only [Except.bind_eq_ok', Except.ok.injEq] at h
      obtain ⟨d, hd, ds', hds, rfl⟩ := h
      rw [List.filter_cons, if_pos (by simpa using ht), List.map_cons, ← ih hds, supportData_eq hd]
    · have ht' := ht
      unfold Touches at ht'
      rw [if_neg ht'] at h
      rw [List.filter_cons, if_neg (by simpa using ht)]
      exact ih h

theorem collectSupports_total {r : Ring K} {t : String} {dim : Nat} (hd : dim < 3) {lim : K × K} {ps : List (Nat × Nat)} (h : ∀ p ∈ ps, HasData r t p) :
    ∃ ds, collectSupports r t dim lim ps = .ok ds := by
  induction ps with
  | nil => exact ⟨_, rfl⟩
  | cons p ps ih =>
    obtain ⟨ds, e⟩ := ih (fun q hq => h q (List.mem_cons_of_mem _ hq))
    have hp := h p (List.mem_cons_self ..)
    unfold collectSupports
    rw [idx_findspos (hasVec3_lt hp.1).le, idx_findspos (hasVec3_lt hp.2.1).le]
    simp only [Except.bind_eq_ok', Except.ok.injEq]
    by_cases ht : Touches r lim p
    · have ht' := ht
      unfold Touches at ht'
      exact ⟨_, _, rfl, _, rfl, by rw [if_pos ht', supportData_total hd hp, e]; rfl⟩
    · have ht' := ht
      unfold Touches at ht'
      exact ⟨_, _, rfl, _, rfl, by rw [if_neg ht']; exact e⟩

/-- the drawing of one support -/
structure DrawingOf (r : Ring K) (p : Nat × Nat) (v0 v1 : K) (l : List (Seg K)) : Prop where
  drawn : plotSupport1 (sPos r p.1) (sPos r p.2) v0 v1 (circumference r) = .ok l

theorem drawSupports_eq {r : Ring K} {data : List (K × K × K)} : ∀ {ps : List (Nat × Nat)} {i : Nat} {out : List (List (Seg K) × List (Seg K))},
    drawSupports r data i ps = .ok out → out.length = ps.length ∧ i + ps.length ≤ data.length + (if ps = [] then i else 0) ∧
    ∀ j p, ps[j]? = some p → ∃ d g, data[i + j]? = some d ∧ out[j]? = some g ∧ p.1 ≤ r.length ∧ p.2 ≤ r.length ∧
      DrawingOf r p (10 ^ 6 * d.1) (10 ^ 6 * d.2.1) g.1 ∧ DrawingOf r p (10 ^ 6 * d.2.2) (10 ^ 6 * d.2.2) g.2 := by
  intro ps
  induction ps with
  | nil => intro i out h; simp only [drawSupports, Except.ok.injEq] at h; subst h; simp
  | cons p ps ih =>
    intro i out h
    unfold drawSupports at h
    simp only [Except.bind_eq_ok', Except.ok.injEq, findspos_last] at h
    obtain ⟨s0, h0, s1, h1, d, hd, off, ho, roll, hr, rest, hrest, rfl⟩ := h
    obtain ⟨l0, rfl⟩ := idx_findspos_ok h0
    obtain ⟨l1, rfl⟩ := idx_findspos_ok h1
    rw [idx_eq_ok] at hd
    obtain ⟨e1, e2, e3⟩ := ih hrest
    refine ⟨by simp [e1], ?_, ?_⟩
    · have hlt := (List.getElem?_eq_some_iff.1 hd).1
      rw [if_neg (by simp)]
      by_cases hps : ps = []
      · subst hps; simp; omega
      · rw [if_neg hps] at e2
        simp only [List.length_cons]; omega
    · intro j q hq
      cases j with
      | zero =>
        simp only [List.getElem?_cons_zero, Option.some.injEq] at hq
        subst hq
        exact ⟨d, (off, roll), by simpa using hd, rfl, l0, l1, ⟨ho⟩, ⟨hr⟩⟩
      | succ j =>
        simp only [List.getElem?_cons_succ] at hq
        obtain ⟨d', g', a, b, c⟩ := e3 j q hq
        exact ⟨d', g', by rw [← a]; congr 1; omega, by simpa using b, c⟩

/-- the lines are where the support is -/
theorem DrawingOf.shows {r : Ring K} (hf : Forward r) {p : Nat × Nat} (ho : p.1 ≤ p.2 ∨ sPos r p.2 < sPos r p.1) (h1 : p.1 ≤ r.length) {v0 v1 : K} {l : List (Seg K)}
    (h : DrawingOf r p v0 v1 l) {k : Nat} (hk : k ≤ r.length) (hc : covers p k) :
    Drawn l (sPos r k) (line (along r p p.1) v0 (along r p p.2) v1 (along r p k)) := by
  have hd := h.drawn
  unfold plotSupport1 at hd
  by_cases hab : p.1 ≤ p.2
  · have hs := sPos_mono hf hab
    rw [if_pos hs] at hd
    cases hd
    have al : ∀ j, along r p j = sPos r j := by intro j; unfold along; rw [if_neg (by omega)]
    simp only [covers, if_pos hab] at hc
    have k0 := sPos_mono hf hc.1
    have k1 := sPos_mono hf hc.2
    refine ⟨_, List.mem_cons_self .., (sPos r k - sPos r p.1) / (sPos r p.2 - sPos r p.1), ?_, ?_, ?_, ?_⟩
    · exact div_nonneg (by linarith) (by linarith)
    · exact div_le_one_of_le₀ (by linarith) (by linarith)
    · by_cases e : sPos r p.2 = sPos r p.1
      · simp only [e, sub_self, mul_zero, add_zero]; linarith
      · have : sPos r p.2 - sPos r p.1 ≠ 0 := sub_ne_zero.2 e
        field_simp; ring
    · simp only [al, line]; ring
  · have hlt : sPos r p.2 < sPos r p.1 := by
      rcases ho with h | h
      · exact absurd h hab
      · exact h
    have hba : p.2 < p.1 := not_le.1 hab
    rw [if_neg (not_le.2 hlt)] at hd
    simp only [Except.bind_eq_ok', divE_eq_ok, Except.ok.injEq] at hd
    obtain ⟨q, ⟨hne, rfl⟩, rfl⟩ := hd
    have al0 : along r p p.1 = sPos r p.1 := by unfold along; rw [if_neg (by omega)]
    have al1 : along r p p.2 = sPos r p.2 + circumference r := by unfold along; rw [if_pos ⟨hba, hba⟩]
    have hne' : sPos r p.2 + circumference r - sPos r p.1 ≠ 0 := by intro e; apply hne; linarith
    have b0 := sPos_nonneg hf p.2
    simp only [covers, if_neg hab] at hc
    rw [al0, al1]
    by_cases hk1 : p.1 ≤ k
    · have alk : along r p k = sPos r k := by unfold along; rw [if_neg (by omega)]
      rw [alk]
      have k0 := sPos_mono hf hk1
      have k1 : sPos r k ≤ circumference r := sPos_mono hf hk
      refine ⟨_, List.mem_cons_self .., (sPos r k - sPos r p.1) / (circumference r - sPos r p.1), ?_, ?_, ?_, ?_⟩
      · exact div_nonneg (by linarith) (by linarith)
      · exact div_le_one_of_le₀ (by linarith) (by linarith)
      · by_cases e : circumference r = sPos r p.1
        · simp only [e, sub_self, mul_zero, add_zero]; rw [e] at k1; linarith
        · have : circumference r - sPos r p.1 ≠ 0 := sub_ne_zero.2 e
          field_simp; ring
      · unfold line
        by_cases e : circumference r = sPos r p.1
        · have : sPos r k = sPos r p.1 := by rw [e] at k1; linarith
          simp only [this, sub_self, zero_div, mul_zero, zero_mul]
        · have : circumference r - sPos r p.1 ≠ 0 := sub_ne_zero.2 e
          have h2 : sPos r p.2 - sPos r p.1 + circumference r ≠ 0 := hne
          rw [show sPos r p.2 + circumference r - sPos r p.1 = sPos r p.2 - sPos r p.1 + circumference r by ring]
          field_simp; ring
    · have hkb : k ≤ p.2 := by rcases hc with h | h; exact absurd h hk1; exact h
      have alk : along r p k = sPos r k + circumference r := by unfold along; rw [if_pos ⟨hba, not_le.1 hk1⟩]
      rw [alk]
      have k0 := sPos_nonneg hf k
      have k1 := sPos_mono hf hkb
      refine ⟨_, List.mem_cons_of_mem _ (List.mem_cons_self ..), sPos r k / sPos r p.2, ?_, ?_, ?_, ?_⟩
      · exact div_nonneg k0 b0
      · exact div_le_one_of_le₀ k1 b0
      · by_cases e : sPos r p.2 = 0
        · simp only [e, sub_self, mul_zero, add_zero]; linarith
        · simp only [sub_zero, zero_add]; field_simp
      · have h2 : sPos r p.2 - sPos r p.1 + circumference r ≠ 0 := hne
        unfold line
        rw [show sPos r p.2 + circumference r - sPos r p.1 = sPos r p.2 - sPos r p.1 + circumference r by ring]
        by_cases e : sPos r p.2 = 0
        · have hk0 : sPos r k = 0 := by linarith
          rw [e] at h2 ⊢
          rw [hk0]
          simp only [zero_mul, zero_div, sub_zero, add_zero, zero_add]
          rw [show 0 - sPos r p.1 + circumference r = circumference r - sPos r p.1 by ring] at h2 ⊢
          rw [div_self h2]; ring
        · field_simp; ring

theorem plotSupport1_total {s0 s1 v0 v1 C : K} (h : s0 ≤ s1 ∨ s1 - s0 + C ≠ 0) : ∃ l, plotSupport1 s0 s1 v0 v1 C = .ok l := by
  unfold plotSupport1
  by_cases e : s0 ≤ s1
  · rw [if_pos e]; exact ⟨_, rfl⟩
  · rw [if_neg e]
    have hne : s1 - s0 + C ≠ 0 := by rcases h with h | h; exact absurd h e; exact h
    simp only [divE, if_neg hne]
    exact ⟨_, rfl⟩

theorem drawSupports_total {r : Ring K} {data : List (K × K × K)} : ∀ {ps : List (Nat × Nat)} {i : Nat}, i + ps.length ≤ data.length →
    (∀ p ∈ ps, p.1 ≤ r.length ∧ p.2 ≤ r.length ∧ (sPos r p.1 ≤ sPos r p.2 ∨ sPos r p.2 - sPos r p.1 + circumference r ≠ 0)) →
    ∃ out, drawSupports r data i ps = .ok out := by
  intro ps
  induction ps with
  | nil => intro i _ _; exact ⟨_, rfl⟩
  | cons p ps ih =>
    intro i hi hp
    obtain ⟨a, b, c⟩ := hp p (List.mem_cons_self ..)
    simp only [List.length_cons] at hi
    obtain ⟨rest, hr⟩ := ih (i := i + 1) (by omega) (fun q hq => hp q (List.mem_cons_of_mem _ hq))
    obtain ⟨d, hd⟩ := idx_total (v := data) (i := i) (by omega)
    obtain ⟨off, ho⟩ := plotSupport1_total (v0 := 10 ^ 6 * d.1) (v1 := 10 ^ 6 * d.2.1) c
    obtain ⟨roll, hro⟩ := plotSupport1_total (v0 := 10 ^ 6 * d.2.2) (v1 := 10 ^ 6 * d.2.2) c
    unfold drawSupports
    simp only [Except.bind_eq_ok', Except.ok.injEq, findspos_last]
    exact ⟨_, _, idx_findspos a, _, idx_findspos b, d, hd, off, ho, roll, hro, rest, hr, rfl⟩

theorem drawSupports_short {r : Ring K} {data : List (K × K × K)} : ∀ {ps : List (Nat × Nat)} {i : Nat}, i ≤ data.length → data.length < i + ps.length →
    (∀ p ∈ ps, p.1 ≤ r.length ∧ p.2 ≤ r.length ∧ (sPos r p.1 ≤ sPos r p.2 ∨ sPos r p.2 - sPos r p.1 + circumference r ≠ 0)) →
    drawSupports r data i ps = .error .indexError := by
  intro ps
  induction ps with
  | nil => intro i h1 h2; simp at h2; omega
  | cons p ps ih =>
    intro i h1 h2 hp
    obtain ⟨a, b, c⟩ := hp p (List.mem_cons_self ..)
    unfold drawSupports
    rw [idx_findspos a, idx_findspos b]
    by_cases e : i = data.length
    · have : idx data i = .error .indexError := by unfold idx; rw [List.getElem?_eq_none (by omega)]
      rw [this]
      rfl
    · obtain ⟨d, hd⟩ := idx_total (v := data) (i := i) (by omega)
      rw [findspos_last]
      obtain ⟨off, ho⟩ := plotSupport1_total (v0 := 10 ^ 6 * d.1) (v1 := 10 ^ 6 * d.2.1) c
      obtain ⟨roll, hro⟩ := plotSupport1_total (v0 := 10 ^ 6 * d.2.2) (v1 := 10 ^ 6 * d.2.2) c
      have := ih (i := i + 1) (by omega) (by simp only [List.length_cons] at h2; omega) (fun q hq => hp q (List.mem_cons_of_mem _ hq))
      rw [hd]
      simp only [bind, Except.bind]
      rw [ho]
      simp only
      rw [hro]
      simp only
      rw [this]

theorem Spec.Extended.plotted {r : Ring K} (hf : Forward r) {p : Nat × Nat} (h : Extended r p) :
    sPos r p.1 ≤ sPos r p.2 ∨ sPos r p.2 - sPos r p.1 + circumference r ≠ 0 := by
  by_cases hab : p.1 ≤ p.2
  · exact Or.inl (sPos_mono hf hab)
  · right
    have hba := not_le.1 hab
    unfold Extended along at h
    rw [if_neg (by omega), if_pos ⟨hba, hba⟩] at h
    intro e
    apply h
    linarith

end PySC
