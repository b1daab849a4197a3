import Verif.Lemmas.Writes
import Verif.Spec.Fields
import Mathlib.Tactic.Ring
import Mathlib.Tactic.Linarith
import Mathlib.Tactic.FieldSimp
namespace PySC
open Spec
set_option linter.unusedSectionVars false
variable {K : Type _} [Field K] [LinearOrder K]
open Py

theorem coef_nil (k : Nat) : coef ([] : List K) k = 0 := by simp [coef]

theorem coef_addPadded (v w : List K) (k : Nat) : coef (addPadded v w) k = coef v k + coef w k := by
  induction v generalizing w k with
  | nil => simp [addPadded, coef]
  | cons x v ih =>
    cases w with
    | nil => simp [addPadded, coef]
    | cons y w =>
      cases k with
      | zero => simp [addPadded, coef]
      | succ k => simpa [addPadded, coef] using ih w k

theorem coef_map_mul (c : K) (v : List K) (k : Nat) : coef (v.map (fun y => c * y)) k = c * coef v k := by
  unfold coef
  by_cases h : k < v.length
  · simp [h]
  · simp [h]

theorem coef_zipWith_mul (v w : List K) (k : Nat) : coef (List.zipWith (· * ·) v w) k = coef v k * coef w k := by
  unfold coef
  by_cases h : k < v.length <;> by_cases h' : k < w.length <;> simp [h, h', List.getD_eq_getElem?_getD]

theorem length_addPadded (v w : List K) : (addPadded v w).length = max v.length w.length := by
  induction v generalizing w with
  | nil => simp [addPadded]
  | cons x v ih =>
    cases w with
    | nil => simp [addPadded]
    | cons y w => simp [addPadded, ih]

theorem coef_replicate_one (n k : Nat) : coef (List.replicate n (1 : K)) k = if k < n then 1 else 0 := by
  unfold coef
  by_cases h : k < n <;> simp [h, List.getD_eq_getElem?_getD]

theorem coef_eq_zero_of_le {v : List K} {k : Nat} (h : v.length ≤ k) : coef v k = 0 := by
  simp [coef, List.getD_eq_getElem?_getD, List.getElem?_eq_none h]

theorem coef_of_getElem? {v : List K} {k : Nat} {x : K} (h : v[k]? = some x) : coef v k = x := by
  simp [coef, List.getD_eq_getElem?_getD, h]

theorem coef_set (v : List K) (n : Nat) (x : K) (k : Nat) (hn : n < v.length) :
    coef (v.set n x) k = if k = n then x else coef v k := by
  unfold coef
  simp only [List.getD_eq_getElem?_getD, List.getElem?_set]
  by_cases h : n = k
  · subst h; simp [hn]
  · simp [h, Ne.symm h]

theorem scaledSetpoints_coef {sp c : List K} {cal : Attr K} {v : List K} (hc : cal = .vec c)
    (hlen : c.length ≤ sp.length) (h : scaledSetpoints sp cal = .ok v) (k : Nat) :
    coef v k = coef sp k * (1 + coef c k) := by
  subst hc
  simp only [scaledSetpoints, Attr.asVec, Except.ok_bind'] at h
  unfold bmul at h
  have hl : sp.length = (addPadded (List.replicate sp.length 1) c).length := by
    rw [length_addPadded]; simp [hlen]
  rw [if_pos hl] at h
  simp at h; subst h
  rw [coef_zipWith_mul, coef_addPadded, coef_replicate_one]
  split
  · rfl
  · rename_i hk; rw [coef_eq_zero_of_le (v := sp) (by omega)]; ring

theorem vecAt_of_attr {r : Ring K} {i : Nat} {a : String} {v : List K} (h : r.attr i a = some (.vec v)) :
    vecAt r i a = v := by simp [vecAt, h]
theorem numAt_of_attr {r : Ring K} {i : Nat} {a : String} {v : K} (h : r.attr i a = some (.num v)) :
    numAt r i a = v := by simp [numAt, h]

theorem asVec_eq_ok {x : Attr K} {v : List K} : x.asVec = .ok v ↔ x = .vec v := by
  cases x <;> simp [Attr.asVec]

theorem scaledSetpoints_vec {sp : List K} {cal : Attr K} {v : List K} (h : scaledSetpoints sp cal = .ok v) :
    ∃ c, cal = .vec c := by
  simp only [scaledSetpoints, Except.bind_eq_ok'] at h
  obtain ⟨c, hc, -⟩ := h
  exact ⟨c, asVec_eq_ok.1 hc⟩

theorem polynoms_coef {r : Ring K} {src : Nat} {p : List K × List K} (hfit : CalFits r src)
    (h : polynoms r src = .ok p) {ab : String} (hab : ab = "A" ∨ ab = "B") (k : Nat) :
    coef (pick p ab) k = mainField r src ab k := by
  simp only [polynoms, Except.bind_eq_ok', Ring.getVec_eq_ok, Ring.getA_eq_ok] at h
  obtain ⟨spA, hA, spB, hB, calA, hcA, pA, hpA, calB, hcB, pB, hpB, hp⟩ := h
  simp at hp; subst hp
  obtain ⟨cA, rfl⟩ := scaledSetpoints_vec hpA
  obtain ⟨cB, rfl⟩ := scaledSetpoints_vec hpB
  unfold mainField
  rcases hab with rfl | rfl
  · have := hfit "A" (by simp)
    simp only [String.reduceAppend, vecAt_of_attr hA, vecAt_of_attr hcA] at this ⊢
    simp only [pick, if_true]
    exact scaledSetpoints_coef rfl this hpA k
  · have := hfit "B" (by simp)
    simp only [String.reduceAppend, vecAt_of_attr hB, vecAt_of_attr hcB] at this ⊢
    simp only [pick]
    exact scaledSetpoints_coef rfl this hpB k

theorem addSystematic_coef {r : Ring K} {src tgt : Nat} {p : List K × List K} (hfit : CalFits r src)
    (hp : polynoms r src = .ok p) {ab source : String} (hs : source = "A" ∨ source = "B") {v w : List K}
    (h : addSystematic r tgt p ab source v = .ok w) (k : Nat) :
    coef w k = coef v k + systematicFrom r src tgt ab source k := by
  simp only [addSystematic, Except.bind_eq_ok', Ring.hasA_eq_ok, Except.ite_eq_ok, Ring.getA_eq_ok] at h
  unfold systematicFrom tableAt
  obtain ⟨b, ⟨-, rfl⟩, ⟨-, d, hd, errs, herrs, h⟩ | ⟨hno, h⟩⟩ := h
  · cases d <;> simp [Attr.toMultip] at herrs
    subst herrs
    rw [hd]
    rename_i errs
    simp only
    clear hd
    induction errs generalizing v with
    | nil => simp [pure, Except.pure] at h; simp [h]
    | cons e errs ih =>
      rw [List.foldlM_cons, Except.bind_eq_ok'] at h
      obtain ⟨v1, h1, h2⟩ := h
      rw [Except.bind_eq_ok'] at h1
      obtain ⟨x, hx, h1⟩ := h1
      simp at h1; subst h1
      rw [ih h2, coef_addPadded, coef_map_mul]
      rw [idx_eq_ok] at hx
      rw [← coef_of_getElem? hx, polynoms_coef hfit hp hs]
      simp; ring
  · simp at hno
    simp at h; subst h
    simp [hno]

theorem newPolynom_coef {r : Ring K} {src tgt : Nat} {p : List K × List K} (hfit : CalFits r src)
    (hp : polynoms r src = .ok p) {ab : String} (hab : ab = "A" ∨ ab = "B") {w : List K}
    (h : newPolynom r tgt p ab = .ok w) (k : Nat) :
    coef w k = multipole r src tgt ab k := by
  simp only [newPolynom, Except.bind_eq_ok', Ring.hasA_eq_ok, Except.ite_eq_ok, Ring.getA_eq_ok] at h
  obtain ⟨b, ⟨-, rfl⟩, h⟩ := h
  unfold multipole
  have hoff : ∃ v1 v2, coef v1 k = mainField r src ab k + coef (vecAt r tgt ("Polynom" ++ ab ++ "Offset")) k ∧
      addSystematic r tgt p ab "A" v1 = .ok v2 ∧ addSystematic r tgt p ab "B" v2 = .ok w := by
    rcases h with ⟨-, o, ho, o', ho', v1, hv1, v2, h2, h3⟩ | ⟨hno, v1, hv1, v2, h2, h3⟩
    · rw [asVec_eq_ok] at ho'; subst ho'
      simp at hv1; subst hv1
      refine ⟨_, v2, ?_, h2, h3⟩
      rw [coef_addPadded, polynoms_coef hfit hp hab, vecAt_of_attr ho]
    · simp at hv1; subst hv1
      refine ⟨_, v2, ?_, h2, h3⟩
      simp at hno
      rw [polynoms_coef hfit hp hab]; simp [vecAt, hno, coef]
  obtain ⟨v1, v2, h1, h2, h3⟩ := hoff
  rw [addSystematic_coef hfit hp (Or.inr rfl) h3, addSystematic_coef hfit hp (Or.inl rfl) h2, h1]

theorem addHead_coef {v w : List K} {x : Option K} (h : addHead v x = .ok w) (k : Nat) :
    coef w k = coef v k + if k = 0 then x.getD 0 else 0 := by
  cases x with
  | none => simp [addHead] at h; simp [h]
  | some x =>
    simp only [addHead, Except.bind_eq_ok', idx_eq_ok] at h
    obtain ⟨a, ha, h⟩ := h
    simp at h; subst h
    rw [coef_set _ _ _ _ (List.getElem?_eq_some_iff.1 ha).1]
    split
    · rename_i hk; subst hk; rw [coef_of_getElem? ha]; simp
    · simp

theorem bendingErrorTerm_spec {r : Ring K} {src tgt : Nat} {x : Option K} (h : bendingErrorTerm r src tgt = .ok x) :
    x.getD 0 = bendTerm r src tgt := by
  simp only [bendingErrorTerm, Except.bind_eq_ok', Ring.hasA_eq_ok, Except.ite_eq_ok, Ring.getNum_eq_ok, divE_eq_ok] at h
  unfold bendTerm
  obtain ⟨b, ⟨-, rfl⟩, ⟨-, bae, h1, ba, h2, len, h3, y, ⟨-, h4⟩, h⟩ | ⟨hno, h⟩⟩ := h
  · simp at h; subst h
    simp [numAt_of_attr h1, numAt_of_attr h2, numAt_of_attr h3, h4]
  · simp at hno h; subst h
    simp [numAt, hno]

theorem combinedFunctionTerm_spec {r : Ring K} {src tgt : Nat} {x : Option K}
    (h : combinedFunctionTerm r src tgt = .ok x) : x.getD 0 = combinedTerm r src tgt := by
  simp only [combinedFunctionTerm, isCombinedFunction, Except.bind_eq_ok', Ring.hasA_eq_ok, Except.ite_eq_ok,
    Ring.getNum_eq_ok, divE_eq_ok, Ring.getVecAt_eq_ok, Ring.getA_eq_ok] at h
  unfold combinedTerm
  obtain ⟨b, ⟨-, rfl⟩, ⟨hba, cf, ⟨c, ⟨-, rfl⟩, hcf⟩, h⟩ | ⟨hno, h⟩⟩ := h
  · have hflag : flagAt r src "CombinedFunction" = cf := by
      rcases hcf with ⟨-, v, hv, hv'⟩ | ⟨hno, hcf⟩
      · cases v <;> simp [Attr.toFlag] at hv'
        simp [flagAt, hv, hv']
      · simp at hno hcf; simp [flagAt, hno, hcf]
    rcases h with ⟨rfl, sp1, ⟨v1, e1, f1⟩, cal1, ⟨v2, e2, f2⟩, nom1, ⟨v3, e3, f3⟩, al, ⟨-, rfl⟩, ba, hb, len, hl, y, ⟨-, rfl⟩, h⟩ | ⟨hcf', h⟩
    · simp at h; subst h
      simp only [hba, hflag, Bool.and_self, if_true, Option.getD_some, mainField, String.reduceAppend]
      rw [vecAt_of_attr e1, vecAt_of_attr e2, vecAt_of_attr e3, coef_of_getElem? f1, coef_of_getElem? f2,
        coef_of_getElem? f3, numAt_of_attr hb, numAt_of_attr hl]
      ring
    · simp at h hcf'; subst h
      simp [hflag, hcf']
  · simp at h hno; subst h
    simp [hno]

/-- all assignments to `(j, b)` have the same value -/
theorem lastWrite_unique {W : Writes K} {j : Nat} {b : String} {v : Attr K} (hm : (j, b, v) ∈ W)
    (hu : ∀ v', (j, b, v') ∈ W → v' = v) : lastWrite W j b = some v := by
  cases h : lastWrite W j b with
  | some v' => rw [hu v' (lastWrite_isSome_mem h)]
  | none =>
    exfalso
    induction W using List.reverseRecOn with
    | nil => simp at hm
    | append_singleton W p ih =>
      rw [lastWrite_append_single] at h
      split at h
      · simp at h
      · rename_i hne
        rw [List.mem_append] at hm
        rcases hm with hm | hm
        · exact ih hm (fun v' hv' => hu v' (by simp [hv'])) h
        · simp at hm; subst hm; exact hne ⟨rfl, rfl⟩

theorem mem_loopWrites {α : Type _} {g : α → Ring K → Except Err (Writes K)} {l : List α} {r : Ring K} {W : Writes K}
    (h : loopWrites g l r = .ok W) (p : Nat × String × Attr K) :
    p ∈ W ↔ ∃ x ∈ l, ∃ Wx, g x r = .ok Wx ∧ p ∈ Wx := by
  induction l generalizing W with
  | nil => simp [loopWrites] at h; subst h; simp
  | cons x xs ih =>
    simp only [loopWrites, Except.bind_eq_ok'] at h
    obtain ⟨W1, h1, W2, h2, h⟩ := h
    simp at h; subst h
    rw [List.mem_append, ih h2]
    constructor
    · rintro (h | ⟨y, hy, Wy, hWy, hp⟩)
      · exact ⟨x, by simp, W1, h1, h⟩
      · exact ⟨y, by simp [hy], Wy, hWy, hp⟩
    · rintro ⟨y, hy, Wy, hWy, hp⟩
      rcases List.mem_cons.1 hy with rfl | hy
      · left; rw [h1] at hWy; cases hWy; exact hp
      · right; exact ⟨y, hy, Wy, hWy, hp⟩

theorem loopWrites_ok_of_mem {α : Type _} {g : α → Ring K → Except Err (Writes K)} {l : List α} {r : Ring K} {W : Writes K}
    (h : loopWrites g l r = .ok W) {x : α} (hx : x ∈ l) : ∃ Wx, g x r = .ok Wx := by
  induction l generalizing W with
  | nil => simp at hx
  | cons y ys ih =>
    simp only [loopWrites, Except.bind_eq_ok'] at h
    obtain ⟨W1, h1, W2, h2, h⟩ := h
    rcases List.mem_cons.1 hx with rfl | hx
    · exact ⟨W1, h1⟩
    · exact ih h2 hx

theorem childrenOf_spec {r : Ring K} {i : Nat} {ch : List Nat} (h : childrenOf r i = .ok ch) (t : Nat) :
    t ∈ ch ↔ ∃ l, r.attr i "MasterOf" = some (.ords l) ∧ t ∈ l := by
  unfold childrenOf at h
  simp only [Except.bind_eq_ok', Ring.hasA_eq_ok, Except.ite_eq_ok, Ring.getA_eq_ok] at h
  obtain ⟨b, ⟨-, rfl⟩, ⟨-, v, hv, hv'⟩ | ⟨hno, h⟩⟩ := h
  · cases v <;> simp [Attr.toOrds] at hv'
    subst hv'; simp [hv]
  · simp at hno h; subst h; simp [hno]

/-- which assignments `update_magnets` makes to an element -/
theorem mem_magnetWrites {l : List Nat} {r : Ring K} {W : Writes K}
    (h : loopWrites magnetFamilyWrites l r = .ok W) (t : Nat) (a : String) (v : Attr K) :
    (t, a, v) ∈ W ↔ ∃ i ∈ l, Affects r i t ∧ ∃ L, magnetValues r i t = .ok L ∧ (a, v) ∈ L := by
  have hone : ∀ {src tgt : Nat} {W0}, oneMagnetWrites src tgt r = .ok W0 →
      ((t, a, v) ∈ W0 ↔ t = tgt ∧ ∃ L, magnetValues r src tgt = .ok L ∧ (a, v) ∈ L) := by
    intro src tgt W0 h0
    simp only [oneMagnetWrites, Except.bind_eq_ok'] at h0
    obtain ⟨-, -, L, hL, h0⟩ := h0
    simp at h0; subst h0
    simp only [List.mem_map, Prod.mk.injEq, hL, Except.ok.injEq]
    constructor
    · rintro ⟨⟨b, w⟩, hb, rfl, rfl, rfl⟩; exact ⟨rfl, L, rfl, hb⟩
    · rintro ⟨rfl, L', rfl, hb⟩; exact ⟨(a, v), hb, rfl, rfl⟩
  rw [mem_loopWrites h]
  constructor
  · rintro ⟨i, hi, Wi, hWi, hp⟩
    refine ⟨i, hi, ?_⟩
    simp only [magnetFamilyWrites, Except.bind_eq_ok'] at hWi
    obtain ⟨W1, h1, W2, ⟨ch, hch, h2⟩, hWi⟩ := hWi
    simp at hWi; subst hWi
    rcases List.mem_append.1 hp with hp | hp
    · obtain ⟨rfl, hL⟩ := (hone h1).1 hp
      exact ⟨Or.inl rfl, hL⟩
    · obtain ⟨c, hc, Wc, hWc, hp⟩ := (mem_loopWrites h2 _).1 hp
      obtain ⟨rfl, hL⟩ := (hone hWc).1 hp
      exact ⟨Or.inr ((childrenOf_spec hch t).1 hc), hL⟩
  · rintro ⟨i, hi, haff, L, hL, hp⟩
    obtain ⟨Wi, hWi⟩ := loopWrites_ok_of_mem h hi
    refine ⟨i, hi, Wi, hWi, ?_⟩
    simp only [magnetFamilyWrites, Except.bind_eq_ok'] at hWi
    obtain ⟨W1, h1, W2, ⟨ch, hch, h2⟩, hWi⟩ := hWi
    simp at hWi; subst hWi
    rw [List.mem_append]
    rcases haff with rfl | haff
    · left; exact (hone h1).2 ⟨rfl, L, hL, hp⟩
    · right
      have hc := (childrenOf_spec hch t).2 haff
      obtain ⟨Wc, hWc⟩ := loopWrites_ok_of_mem h2 hc
      exact (mem_loopWrites h2 _).2 ⟨t, hc, Wc, hWc, (hone hWc).2 ⟨rfl, L, hL, hp⟩⟩

theorem updateMagnets_hasField {l : List Nat} {s s' : SC K} {u : Unit}
    (h : updateMagnets (some l) s = .ok u s') {src tgt : Nat} (hsrc : src ∈ l) (haff : Affects s.RING src tgt)
    (honly : ∀ j ∈ l, Affects s.RING j tgt → j = src) (hfit : CalFits s.RING src) :
    HasField s.RING src tgt s'.RING := by
  obtain ⟨W, hW, rfl⟩ := ((updateMagnets_writer l).ok _ _ _).1 h
  have hmem := mem_magnetWrites hW tgt
  -- the assignments to `tgt`
  have hL : ∃ L, magnetValues s.RING src tgt = .ok L := by
    obtain ⟨Wi, hWi⟩ := loopWrites_ok_of_mem hW hsrc
    simp only [magnetFamilyWrites, Except.bind_eq_ok'] at hWi
    obtain ⟨W1, h1, W2, ⟨ch, hch, h2⟩, hWi⟩ := hWi
    have hone : ∀ {W0}, oneMagnetWrites src tgt s.RING = .ok W0 → ∃ L, magnetValues s.RING src tgt = .ok L := by
      intro W0 h0
      simp only [oneMagnetWrites, Except.bind_eq_ok'] at h0
      obtain ⟨-, -, L, hL, h0⟩ := h0
      exact ⟨L, hL⟩
    rcases haff with rfl | haff
    · exact hone h1
    · obtain ⟨Wc, hWc⟩ := loopWrites_ok_of_mem h2 ((childrenOf_spec hch tgt).2 haff)
      exact hone hWc
  obtain ⟨L, hL⟩ := hL
  have hmem' : ∀ a v, (tgt, a, v) ∈ W ↔ (a, v) ∈ L := by
    intro a v
    rw [hmem]
    constructor
    · rintro ⟨i, hi, hi', L', hL', hm⟩
      obtain rfl := honly i hi hi'
      rw [hL] at hL'; cases hL'; exact hm
    · intro hm; exact ⟨src, hsrc, haff, L, hL, hm⟩
  have htgt : tgt < s.RING.length := by
    obtain ⟨Wi, hWi⟩ := loopWrites_ok_of_mem hW hsrc
    simp only [magnetFamilyWrites, Except.bind_eq_ok'] at hWi
    obtain ⟨W1, h1, W2, ⟨ch, hch, h2⟩, hWi⟩ := hWi
    have hone : ∀ {W0}, oneMagnetWrites src tgt s.RING = .ok W0 → tgt < s.RING.length := by
      intro W0 h0
      simp only [oneMagnetWrites, Except.bind_eq_ok', Ring.valid_eq_ok] at h0
      obtain ⟨-, hv, -⟩ := h0
      exact hv
    rcases haff with rfl | haff
    · exact hone h1
    · obtain ⟨Wc, hWc⟩ := loopWrites_ok_of_mem h2 ((childrenOf_spec hch tgt).2 haff)
      exact hone hWc
  have hattr : ∀ a v, (a, v) ∈ L → (∀ v', (a, v') ∈ L → v' = v) → (s.write W).RING.attr tgt a = some v := by
    intro a v hm hu
    rw [SC.write_RING, Ring.attr_write, lastWrite_unique ((hmem' a v).2 hm) (fun v' hv' => hu v' ((hmem' a v').1 hv'))]
    simp [htgt]
  simp only [magnetValues, Except.bind_eq_ok'] at hL
  obtain ⟨p, hp, vA, hA, vB, hB, x, hx, vB1, h4, y, hy, vB2, h5, pass, hpass, lk, hlk, hL⟩ := hL
  simp at hL; subst hL
  have hkeys := kickValues_keys hlk
  have eA : (s.write W).RING.attr tgt "PolynomA" = some (.vec vA) := by
    refine hattr _ _ (by simp) (fun v' hv' => ?_)
    simp at hv'
    rcases hv' with hv' | hv'
    · exact hv'
    · exact absurd (hkeys _ hv') (by simp)
  have eB : (s.write W).RING.attr tgt "PolynomB" = some (.vec vB2) := by
    refine hattr _ _ (by simp) (fun v' hv' => ?_)
    simp at hv'
    rcases hv' with hv' | hv'
    · exact hv'
    · exact absurd (hkeys _ hv') (by simp)
  refine ⟨⟨vA, eA, newPolynom_coef hfit hp (Or.inl rfl) hA⟩, ⟨vB2, eB, fun k => ?_, ?_⟩, fun hpm => ?_⟩
  · rw [addHead_coef h5, addHead_coef h4, newPolynom_coef hfit hp (Or.inr rfl) hB, bendingErrorTerm_spec hx,
      combinedFunctionTerm_spec hy]
    split <;> ring
  · refine hattr _ _ (by simp) (fun v' hv' => ?_)
    simp at hv'
    rcases hv' with hv' | hv'
    · exact absurd (hkeys _ hv') (by simp)
    · exact hv'
  · rw [Ring.getStr_eq_ok, hpm] at hpass
    simp at hpass; subst hpass
    unfold kickValues at hlk
    simp only [if_true, Except.bind_eq_ok', idx_eq_ok] at hlk
    obtain ⟨b0, hb0, a0, ha0, hlk⟩ := hlk
    simp at hlk; subst hlk
    rw [vecAt_of_attr eA, vecAt_of_attr eB, coef_of_getElem? hb0, coef_of_getElem? ha0]
    refine hattr _ _ (by simp) (fun v' hv' => ?_)
    simpa using hv'

end PySC
