import Verif.Lemmas.SupportUpdate
import Verif.Lemmas.Fields
import Verif.Spec.Multipoles
/-
Random and systematic multipole errors.
-/
namespace PySC
set_option linter.unusedSectionVars false
open Py Spec
variable {K : Type} [Field K] [LinearOrder K] [FloorRing K]

/-! ### random errors -/

theorem length_pairUp (n : Nat) : ∀ {z : List K}, z.length = n * 2 → (pairUp z).length = n := by
  induction n with
  | zero => intro z hz; have : z = [] := List.length_eq_zero_iff.1 (by omega)
            subst this; rfl
  | succ n ih =>
    intro z hz
    match z, hz with
    | [], hz => simp at hz
    | [_], hz => simp only [List.length_cons, List.length_nil] at hz; omega
    | x :: y :: r, hz => simp only [pairUp, List.length_cons] at hz ⊢; rw [ih (by omega)]

theorem mem_pairUp (n : Nat) : ∀ {z : List K}, z.length = n * 2 → ∀ p ∈ pairUp z, p.1 ∈ z ∧ p.2 ∈ z := by
  induction n with
  | zero => intro z hz; have : z = [] := List.length_eq_zero_iff.1 (by omega)
            subst this; simp [pairUp]
  | succ n ih =>
    intro z hz p hp
    match z, hz with
    | [], hz => simp at hz
    | [_], hz => simp only [List.length_cons, List.length_nil] at hz; omega
    | x :: y :: r, hz =>
      simp only [pairUp, List.mem_cons] at hp
      rcases hp with rfl | hp
      · simp
      · have := ih (z := r) (by simp only [List.length_cons] at hz; omega) p hp
        simp [this]

theorem addToOffset_ok {i : Nat} {ab : String} {col : List K} {s s' : SC K} (h : addToOffset i ab col s = .ok () s') :
    i < s.RING.length ∧
    ∃ v, s'.RING.attr i ("Polynom" ++ ab ++ "Offset") = some (.vec v) ∧
      (∀ k, coef v k = coef (vecAt s.RING i ("Polynom" ++ ab ++ "Offset")) k + coef col k) ∧
      v.length = max (vecAt s.RING i ("Polynom" ++ ab ++ "Offset")).length col.length := by
  unfold addToOffset at h
  simp only [bind_eq_ok, rd_eq_ok, Ring.hasA_eq_ok] at h
  obtain ⟨b, s1, ⟨⟨hlt, rfl⟩, rfl⟩, h⟩ := h
  refine ⟨hlt, ?_⟩
  split at h
  · simp only [bind_eq_ok, rd_eq_ok, Ring.getA_eq_ok, lift_eq_ok, asVec_eq_ok, setAttr_eq_ok] at h
    obtain ⟨a, s2, ⟨ha, rfl⟩, v, s3, ⟨rfl, rfl⟩, hl, rfl⟩ := h
    rw [vecAt_of_attr ha]
    exact ⟨_, Ring.attr_setAttr_same hl, fun k => coef_addPadded _ _ _, length_addPadded _ _⟩
  · rename_i hno
    rw [setAttr_eq_ok] at h
    obtain ⟨hl, rfl⟩ := h
    have : s1.RING.attr i ("Polynom" ++ ab ++ "Offset") = none := by simpa using hno
    refine ⟨_, Ring.attr_setAttr_same hl, fun k => ?_, ?_⟩ <;> simp [vecAt, this, coef]

theorem addToOffset_rel {W : Nat → String → Prop} {i : Nat} {ab : String} {col : List K} (h : W i ("Polynom" ++ ab ++ "Offset")) :
    Rel (DrawFrame (K := K) W) (addToOffset i ab col) := by
  unfold addToOffset
  refine Rels.bind (Rels.rd _) (fun b => Rels.ite ?_ (Rels.setAttr (fun _ => DrawFrame.setAttr h)))
  exact Rels.bind (Rels.rd _) (fun _ => Rels.bind (Rels.lift _) (fun _ => Rels.setAttr (fun _ => DrawFrame.setAttr h)))

/-- the attributes with random multipole errors -/
def offsetAttrs : List String := ["PolynomAOffset", "PolynomBOffset"]

theorem randomMultipole1_rel {E : Env K} {BA : List (K × K)} (i : Nat) :
    Rel (DrawFrame (K := K) (fun j a => j = i ∧ a ∈ offsetAttrs)) (randomMultipole1 E BA i) := by
  unfold randomMultipole1
  refine Rels.bind (randnc_rel (fun _ _ => ⟨rfl, rfl, rfl, rfl, rfl, fun _ _ _ => rfl⟩) _ _ _) (fun z => ?_)
  exact Rels.bind (addToOffset_rel ⟨rfl, by decide +kernel⟩) (fun _ => addToOffset_rel ⟨rfl, by decide +kernel⟩)

section ord
variable [IsStrictOrderedRing K]

theorem entry_zip {BA : List (K × K)} {z : List (K × K)} (hl : z.length = BA.length) (hz : ∀ p ∈ z, |p.1| ≤ 2 ∧ |p.2| ≤ 2) :
    Within2 BA (List.zipWith (fun (b zz : K × K) => (zz.1 * b.1, zz.2 * b.2)) BA z) := by
  refine ⟨by simp [hl], fun ab _ k => ?_⟩
  unfold entry
  rw [List.getElem?_zipWith]
  by_cases hk : k < BA.length
  · have hk' : k < z.length := hl ▸ hk
    rw [List.getElem?_eq_getElem hk, List.getElem?_eq_getElem hk']
    have := hz _ (List.getElem_mem hk')
    simp only
    split
    · rw [abs_mul]; exact mul_le_mul_of_nonneg_right this.1 (abs_nonneg _)
    · rw [abs_mul]; exact mul_le_mul_of_nonneg_right this.2 (abs_nonneg _)
  · rw [List.getElem?_eq_none (not_lt.1 hk)]
    simp

omit [IsStrictOrderedRing K] in
theorem coef_fst (t : List (K × K)) (k : Nat) : coef (t.map Prod.fst) k = entry t "B" k := by
  unfold coef entry
  rw [List.getD_eq_getElem?_getD, List.getElem?_map]
  cases t[k]? <;> rfl

omit [IsStrictOrderedRing K] in
theorem coef_snd (t : List (K × K)) (k : Nat) : coef (t.map Prod.snd) k = entry t "A" k := by
  unfold coef entry
  rw [List.getD_eq_getElem?_getD, List.getElem?_map]
  cases t[k]? <;> simp

theorem randomMultipole1_ok {E : Env K} {BA : List (K × K)} {i : Nat} {s s' : SC K} (h : randomMultipole1 E BA i s = .ok () s') :
    ∃ t, Within2 BA t ∧ ∀ ab ∈ ["A", "B"], ∃ v, s'.RING.attr i ("Polynom" ++ ab ++ "Offset") = some (.vec v) ∧
      (∀ k, coef v k = coef (vecAt s.RING i ("Polynom" ++ ab ++ "Offset")) k + entry t ab k) ∧
      v.length = max (vecAt s.RING i ("Polynom" ++ ab ++ "Offset")).length BA.length := by
  unfold randomMultipole1 at h
  simp only [bind_eq_ok, randnc_eq_ok] at h
  obtain ⟨z, s1, ⟨pos, hz, rfl⟩, ⟨⟩, s2, h1, h2⟩ := h
  obtain ⟨g1, g2, -⟩ := randncFrom_eq_ok hz
  have hl := length_pairUp BA.length g2
  have h2' : |(2 : K)| = 2 := abs_of_nonneg (by norm_num)
  have hw := entry_zip (BA := BA) hl (fun p hp => by
    obtain ⟨m1, m2⟩ := mem_pairUp BA.length g2 p hp
    exact ⟨h2' ▸ g1 _ m1, h2' ▸ g1 _ m2⟩)
  refine ⟨_, hw, ?_⟩
  obtain ⟨-, vB, b1, b2, b3⟩ := addToOffset_ok h1
  obtain ⟨-, vA, a1, a2, a3⟩ := addToOffset_ok h2
  have f1 := (addToOffset_rel (W := fun j a => j = i ∧ a = "PolynomBOffset") ⟨rfl, by decide +kernel⟩).ok h1
  have f2 := (addToOffset_rel (W := fun j a => j = i ∧ a = "PolynomAOffset") ⟨rfl, by decide +kernel⟩).ok h2
  intro ab hab
  simp only [List.mem_cons, List.not_mem_nil, or_false] at hab
  rcases hab with rfl | rfl
  · refine ⟨vA, a1, fun k => ?_, ?_⟩
    · rw [a2 k, coef_snd, vecAt_congr (f1.attr i _ (fun hh => absurd hh.2 (by decide +kernel)))]
    · rw [a3, vecAt_congr (f1.attr i _ (fun hh => absurd hh.2 (by decide +kernel))), List.length_map, hw.1]
  · refine ⟨vB, ?_, fun k => ?_, ?_⟩
    · rw [f2.attr i _ (fun hh => absurd hh.2 (by decide +kernel))]; exact b1
    · rw [b2 k, coef_fst]
    · rw [b3, List.length_map, hw.1]

theorem setRandomMultipoles_ok {E : Env K} {BA : List (K × K)} {ords : List Nat} {s s' : SC K}
    (h : setRandomMultipoles E ords BA s = .ok () s') :
    ∃ ts : List (List (K × K)), ts.length = ords.length ∧ (∀ t ∈ ts, Within2 BA t) ∧
      ∀ i, ∀ ab ∈ ["A", "B"], ∀ k, coef (vecAt s'.RING i ("Polynom" ++ ab ++ "Offset")) k =
        coef (vecAt s.RING i ("Polynom" ++ ab ++ "Offset")) k +
          ((ords.zip ts).map (fun p => if p.1 = i then entry p.2 ab k else 0)).sum := by
  unfold setRandomMultipoles at h
  induction ords generalizing s with
  | nil => cases h; exact ⟨[], rfl, by simp, by simp⟩
  | cons j js ih =>
    rw [forEach_cons, bind_eq_ok] at h
    obtain ⟨⟨⟩, s1, h1, h2⟩ := h
    obtain ⟨ts, l1, w1, e1⟩ := ih h2
    obtain ⟨t, w2, e2⟩ := randomMultipole1_ok h1
    have fr := (randomMultipole1_rel j).ok h1
    refine ⟨t :: ts, by simp [l1], by simpa using ⟨w2, w1⟩, fun i ab hab k => ?_⟩
    rw [e1 i ab hab k, List.zip_cons_cons, List.map_cons, List.sum_cons]
    by_cases hji : j = i
    · subst hji
      obtain ⟨v, g1, g2, -⟩ := e2 ab hab
      rw [if_pos rfl, vecAt_of_attr g1, g2 k]; ring
    · rw [if_neg hji, vecAt_congr (fr.attr i _ (fun hh => hji hh.1.symm))]; ring

end ord

/-! ### systematic errors -/

theorem setSysPol_ok {i : Nat} {a : String} {order : Nat} {v : List K} {s s' : SC K} (h : setSysPol i a order v s = .ok () s') :
    s'.RING.attr i a = some (.multip (Dict.set (tableAt s.RING i a) order v)) := by
  unfold setSysPol at h
  simp only [bind_eq_ok, rd_eq_ok, Ring.hasA_eq_ok] at h
  obtain ⟨b, s1, ⟨⟨hlt, rfl⟩, rfl⟩, h⟩ := h
  split at h
  · simp only [bind_eq_ok, rd_eq_ok, Ring.getA_eq_ok, lift_eq_ok, setAttr_eq_ok] at h
    obtain ⟨x, s2, ⟨hx, rfl⟩, d, s3, ⟨hd, rfl⟩, hl, rfl⟩ := h
    cases x <;> simp [Attr.toMultip] at hd
    subst hd
    rw [Ring.attr_setAttr_same hl]
    simp [tableAt, hx]
  · rename_i hno
    rw [setAttr_eq_ok] at h
    obtain ⟨hl, rfl⟩ := h
    have : s1.RING.attr i a = none := by simpa using hno
    rw [Ring.attr_setAttr_same hl]
    simp [tableAt, this, Dict.set]

theorem setSysPol_rel {W : Nat → String → Prop} {i : Nat} {a : String} {order : Nat} {v : List K} (h : W i a) :
    Rel (Frame (K := K) W) (setSysPol i a order v) := by
  unfold setSysPol
  refine Rels.bind (Rels.rd _) (fun b => Rels.ite ?_ (Rels.setAttr (fun _ => Frame.setAttr h)))
  exact Rels.bind (Rels.rd _) (fun _ => Rels.bind (Rels.lift _) (fun _ => Rels.setAttr (fun _ => Frame.setAttr h)))

/-- the table of letter `target` driven by the fields of letter `source` -/
def sysAttr (target source : String) : String := "SysPol" ++ target ++ "From" ++ source

/-- one column of the table with the main component removed -/
def reducedColumn (BA : List (K × K)) (order : Nat) (skew : Bool) : List K :=
  (clearEntry BA order skew).map (fun p => if skew then p.2 else p.1)

theorem coef_reducedColumn (BA : List (K × K)) (order : Nat) (skew : Bool) (k : Nat) :
    coef (reducedColumn BA order skew) k = if k = order then 0 else entry BA (if skew then "A" else "B") k := by
  unfold coef reducedColumn clearEntry entry
  rw [List.getD_eq_getElem?_getD, List.getElem?_map, List.getElem?_modify]
  cases hk : BA[k]? with
  | none => simp
  | some p =>
    by_cases ho : order = k
    · subst ho; cases skew <;> simp
    · cases skew <;> simp [ho, Ne.symm ho]

/-- what is written -/
def sysWrites (ords : List Nat) (source : String) (i : Nat) (a : String) : Prop :=
  i ∈ ords ∧ ∃ target ∈ ["A", "B"], a = sysAttr target source

theorem sysBody_rel {ords : List Nat} {i : Nat} (hi : i ∈ ords) (source : String) (order : Nat) (v : List K) :
    Rel (Frame (K := K) (sysWrites ords source))
      (forEach ["A", "B"] (fun target => setSysPol i ("SysPol" ++ target ++ "From" ++ source) order v)) :=
  Rels.forEach (fun target ht => setSysPol_rel ⟨hi, target, ht, rfl⟩)

theorem sysAttr_inj {a b source : String} (hs : source ∈ ["A", "B"]) (ha : a ∈ ["A", "B"]) (hb : b ∈ ["A", "B"])
    (h : sysAttr a source = sysAttr b source) : a = b := by
  have : ∀ s ∈ ["A", "B"], ∀ a ∈ ["A", "B"], ∀ b ∈ ["A", "B"], sysAttr a s = sysAttr b s → a = b := by decide +kernel
  exact this _ hs _ ha _ hb h

theorem sysBody_ok {i : Nat} {source : String} (hs : source ∈ ["A", "B"]) {order : Nat} {v : List K} {s s' : SC K}
    (h : forEach ["A", "B"] (fun target => setSysPol i ("SysPol" ++ target ++ "From" ++ source) order v) s = .ok () s') :
    ∀ target ∈ ["A", "B"], s'.RING.attr i (sysAttr target source) =
      some (.multip (Dict.set (tableAt s.RING i (sysAttr target source)) order v)) := by
  refine forEach_post_fresh (I := fun _ => True)
    (Q := fun target (t : SC K) => t.RING.attr i (sysAttr target source) = s.RING.attr i (sysAttr target source))
    (P := fun target (t : SC K) => t.RING.attr i (sysAttr target source) =
      some (.multip (Dict.set (tableAt s.RING i (sysAttr target source)) order v)))
    (by decide) (fun _ _ _ _ _ _ => trivial) ?_ ?_ ?_ h trivial (fun _ _ => rfl)
  · intro x hx t t' _ hQ hf
    have := setSysPol_ok hf
    rw [show tableAt t.RING i ("SysPol" ++ x ++ "From" ++ source) = tableAt s.RING i (sysAttr x source) by
      change tableAt t.RING i (sysAttr x source) = _; unfold tableAt; rw [show t.RING.attr i _ = _ from hQ]] at this
    exact this
  · intro x hx y hy t t' _ hne hQ hf
    have fr := (setSysPol_rel (W := fun j a => j = i ∧ a = sysAttr x source) ⟨rfl, rfl⟩).ok hf
    rw [fr.attr i _ (fun hh => hne (sysAttr_inj hs hy hx hh.2).symm)]; exact hQ
  · intro x hx y hy t t' _ hne hQ hf
    have fr := (setSysPol_rel (W := fun j a => j = i ∧ a = sysAttr x source) ⟨rfl, rfl⟩).ok hf
    rw [fr.attr i _ (fun hh => hne (sysAttr_inj hs hy hx hh.2).symm)]; exact hQ

theorem Dict.set_set {κ v : Type _} [DecidableEq κ] (d : Dict κ v) (k : κ) (x : v) : (d.set k x).set k x = d.set k x := by
  induction d with
  | nil => simp [Dict.set]
  | cons p d ih =>
    obtain ⟨k', y⟩ := p
    by_cases h : k' = k
    · simp [Dict.set, h]
    · simp [Dict.set, h, ih]

theorem setSystematicMultipoles_rel (ords : List Nat) (BA : List (K × K)) (order : Nat) (skew : Bool) :
    Rel (Frame (K := K) (sysWrites ords (if skew then "A" else "B"))) (setSystematicMultipoles ords BA order skew) := by
  unfold setSystematicMultipoles
  exact Rels.bind (Rels.lift _) (fun _ => Rels.bind (Rels.forEach (fun i hi => sysBody_rel hi _ _ _)) (fun _ => Rels.pure' _))

theorem setSystematicMultipoles_ok {ords : List Nat} {BA newBA : List (K × K)} {order : Nat} {skew : Bool} {s s' : SC K}
    (h : setSystematicMultipoles ords BA order skew s = .ok newBA s') :
    newBA = clearEntry BA order skew ∧ order < BA.length ∧
    ∀ i ∈ ords, ∀ target ∈ ["A", "B"], s'.RING.attr i (sysAttr target (if skew then "A" else "B")) =
      some (.multip (Dict.set (tableAt s.RING i (sysAttr target (if skew then "A" else "B"))) order (reducedColumn BA order skew))) := by
  have hsrc : (if skew then "A" else "B") ∈ ["A", "B"] := by cases skew <;> decide
  unfold setSystematicMultipoles at h
  simp only [bind_eq_ok, lift_eq_ok, idx_eq_ok] at h
  obtain ⟨p, s1, ⟨hp, hs1⟩, ⟨⟩, s2, h1, h2⟩ := h
  subst hs1
  cases h2
  refine ⟨rfl, (List.getElem?_eq_some_iff.1 hp).1, ?_⟩
  generalize (if skew then "A" else "B") = source at hsrc h1 ⊢
  change forEach ords (fun i => forEach ["A", "B"] (fun target => setSysPol i ("SysPol" ++ target ++ "From" ++ source) order
    (reducedColumn BA order skew))) s1 = .ok () s' at h1
  generalize reducedColumn BA order skew = v at h1 ⊢
  let Done : Nat → SC K → Prop := fun i t => ∀ target ∈ ["A", "B"], t.RING.attr i (sysAttr target source) =
      some (.multip (Dict.set (tableAt s1.RING i (sysAttr target source)) order v))
  let I : SC K → Prop := fun t => ∀ i, (∀ target ∈ ["A", "B"], t.RING.attr i (sysAttr target source) = s1.RING.attr i (sysAttr target source)) ∨
    Done i t
  have body : ∀ (i : Nat) (t t' : SC K), I t → forEach ["A", "B"] (fun target => setSysPol i ("SysPol" ++ target ++ "From" ++ source) order v) t
      = .ok () t' → Done i t' := by
    intro i t t' hI hf target ht
    rw [sysBody_ok hsrc hf target ht]
    rcases hI i with hh | hh
    · unfold tableAt; rw [hh target ht]
    · have := hh target ht
      rw [show tableAt t.RING i (sysAttr target source) = Dict.set (tableAt s1.RING i (sysAttr target source)) order v by
        rw [tableAt, this], Dict.set_set]
  have other : ∀ (i j : Nat) (t t' : SC K), i ≠ j → forEach ["A", "B"] (fun target => setSysPol i ("SysPol" ++ target ++ "From" ++ source) order v) t
      = .ok () t' → ∀ a, t'.RING.attr j a = t.RING.attr j a := fun i j t t' hne hf a =>
    ((sysBody_rel (ords := [i]) (by simp) source order v).ok hf).attr j a (fun hh => hne (by simpa [eq_comm] using hh.1))
  refine forEach_post (I := I) (P := Done) ?_ ?_ ?_ h1 (fun i => Or.inl (fun _ _ => rfl))
  · intro i t t' hI hf j
    by_cases hij : i = j
    · subst hij; exact Or.inr (body i t t' hI hf)
    · rcases hI j with hh | hh
      · exact Or.inl (fun target ht => (other i j t t' hij hf _).trans (hh target ht))
      · exact Or.inr (fun target ht => (other i j t t' hij hf _).trans (hh target ht))
  · exact fun i _ t t' hI hf => body i t t' hI hf
  · intro i _ j _ t t' hI hne hP hf target ht
    rw [other i j t t' hne hf]; exact hP target ht

end PySC
