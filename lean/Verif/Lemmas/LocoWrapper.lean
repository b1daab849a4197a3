import Verif.Model.LocoWrapper
import Verif.Spec.LocoWrapper
import Verif.Lemmas.Restore
import Verif.Lemmas.BbaTrace
/-
Lemmas about the corrections with the result of LOCO.
-/
set_option linter.unusedSectionVars false
namespace PySC
open Py Spec
variable {K : Type} [Field K] [LinearOrder K]

theorem forEach_flatMap {σ α β : Type _} (l : List α) (g : α → List β) (f : β → Py σ Unit) :
    forEach l (fun a => forEach (g a) f) = forEach (l.flatMap g) f := by
  induction l with
  | nil => rfl
  | cons a l ih => rw [List.flatMap_cons, forEach_append, forEach_cons, ih]

theorem forEach_map {σ α β : Type _} (l : List α) (g : α → β) (f : β → Py σ Unit) :
    forEach (l.map g) f = forEach l (fun a => f (g a)) := by
  induction l with
  | nil => rfl
  | cons a l ih => rw [List.map_cons, forEach_cons, forEach_cons, ih]

/-- elements with the number of their group -/
def flatParams (params : List (List (Nat × String))) : List ((Nat × String) × Nat) :=
  params.zipIdx.flatMap (fun g => g.1.map (fun p => (p, g.2)))

def stepGroups (l : List ((Nat × String) × Nat)) (skew : Bool) (o : Nat) : List Nat :=
  (l.filter (fun p => decide (p.1 = (o, "SetPoint" ++ plane skew)))).map Prod.snd

theorem groupsFor_eq (params : List (List (Nat × String))) (skew : Bool) (o : Nat) :
    groupsFor params skew o = stepGroups (flatParams params) skew o := by
  unfold groupsFor stepGroups flatParams
  induction params.zipIdx with
  | nil => rfl
  | cons g l ih =>
    rw [List.flatMap_cons, List.flatMap_cons, List.filter_append, List.map_append, ← ih, List.filter_map, List.map_map]
    rfl

section
variable [FloorRing K]

theorem latticeCorrection_flat (fp : FitParameters K) (comp : Bool) (damping : K) :
    forEach fp.params.zipIdx (fun g => forEach g.1 (fun p => correctElement fp comp damping g.2 p)) =
      forEach (flatParams fp.params) (fun q => correctElement fp comp damping q.2 q.1) := by
  unfold flatParams
  rw [← forEach_flatMap]
  congr 1
  funext g
  rw [forEach_map]

theorem correctElement_eq_ok {fp : FitParameters K} {comp : Bool} {damping : K} {n : Nat} {p : Nat × String} {s s' : SC K} {u : Unit}
    (h : correctElement fp comp damping n p s = .ok u s') :
    (p.2 = "SetPointB" ∧ setMagnetSetpoints [p.1] ⟨false, [correctedValue fp.orig fp.ideal fp.values damping n]⟩ false 1 "abs" comp s = .ok () s') ∨
    (p.2 = "SetPointA" ∧ setMagnetSetpoints [p.1] ⟨false, [correctedValue fp.orig fp.ideal fp.values damping n]⟩ true 1 "abs" false s = .ok () s') ∨
    (p.2 ≠ "SetPointB" ∧ p.2 ≠ "SetPointA" ∧ s' = s) := by
  unfold correctElement at h
  rw [bindLift_eq_ok] at h; obtain ⟨o, ho, h⟩ := h
  rw [bindLift_eq_ok] at h; obtain ⟨i, hi, h⟩ := h
  rw [bindLift_eq_ok] at h; obtain ⟨v, hv, h⟩ := h
  rw [idx_eq_ok] at ho hi hv
  have e : correctedValue fp.orig fp.ideal fp.values damping n = o + damping * (i - v) := by
    unfold correctedValue
    rw [coef_of_getElem? ho, coef_of_getElem? hi, coef_of_getElem? hv]
  rw [e]
  by_cases h1 : p.2 = "SetPointB"
  · rw [if_pos h1] at h
    exact Or.inl ⟨h1, h⟩
  · rw [if_neg h1] at h
    by_cases h2 : p.2 = "SetPointA"
    · rw [if_pos h2] at h
      exact Or.inr (Or.inl ⟨h2, h⟩)
    · rw [if_neg h2] at h
      cases h
      exact Or.inr (Or.inr ⟨h1, h2, rfl⟩)

/-- the element of one step, if it is a quadrupole component of the given kind -/
theorem correctElement_skew {fp : FitParameters K} {comp : Bool} {damping : K} {n : Nat} {p : Nat × String} {s s' : SC K} {u : Unit}
    (h : correctElement fp comp damping n p s = .ok u s') :
    (∃ sk, p.2 = "SetPoint" ++ plane sk ∧ setMagnetSetpoints [p.1] ⟨false, [correctedValue fp.orig fp.ideal fp.values damping n]⟩ sk 1 "abs"
        (comp && !sk) s = .ok () s') ∨
    ((∀ sk, p.2 ≠ "SetPoint" ++ plane sk) ∧ s' = s) := by
  rcases correctElement_eq_ok h with ⟨h1, h2⟩ | ⟨h1, h2⟩ | ⟨h1, h2, h3⟩
  · exact Or.inl ⟨false, h1, by simpa using h2⟩
  · exact Or.inl ⟨true, h1, by simpa using h2⟩
  · exact Or.inr ⟨fun sk => by cases sk <;> assumption, h3⟩

theorem setpointName_inj {a b : Bool} (h : "SetPoint" ++ plane a = "SetPoint" ++ plane b) : a = b := by
  cases a <;> cases b <;> first | rfl | exact absurd h (by decide)

structure Corrected (fp : FitParameters K) (comp : Bool) (damping : K) (l : List ((Nat × String) × Nat)) (s s' : SC K) : Prop where
  last : ∀ o sk n, (stepGroups l sk o).getLast? = some n → setpoint s'.RING o sk 1 =
    if sk = true then skewClipped false (skewLimit s.RING o) (correctedValue fp.orig fp.ideal fp.values damping n)
    else correctedValue fp.orig fp.ideal fp.values damping n
  rest : ∀ o sk k, (k ≠ 1 ∨ stepGroups l sk o = []) → (k ≠ 0 ∨ sk = true ∨ comp = false ∨ stepGroups l false o = []) →
    setpoint s'.RING o sk k = setpoint s.RING o sk k
  frame : Frame (fun i a => ((∃ p ∈ l, p.1.1 = i) ∧ a ∈ ["SetPointA", "SetPointB"]) ∨ a ∈ magnetWrites) s s'
  len : ∀ i sk, (vecAt s'.RING i ("SetPoint" ++ plane sk)).length = (vecAt s.RING i ("SetPoint" ++ plane sk)).length

theorem correctElements {fp : FitParameters K} {comp : Bool} {damping : K} [IsStrictOrderedRing K] :
    ∀ (l : List ((Nat × String) × Nat)) (s s' : SC K), forEach l (fun q => correctElement fp comp damping q.2 q.1) s = .ok () s' →
      Corrected fp comp damping l s s' := by
  intro l
  induction l with
  | nil =>
    intro s s' h
    simp at h
    subst h
    exact ⟨by simp [stepGroups], fun _ _ _ _ _ => rfl, Frame.refl _, fun _ _ => rfl⟩
  | cons q l ih =>
    intro s s' h
    rw [forEach_cons, bind_eq_ok] at h
    obtain ⟨⟨⟩, s1, h1, h2⟩ := h
    have c := ih s1 s' h2
    rcases correctElement_skew h1 with ⟨sk0, hname, hset⟩ | ⟨hno, rfl⟩
    · have hg : ∀ sk o, stepGroups (q :: l) sk o = (if q.1.1 = o ∧ sk0 = sk then [q.2] else []) ++ stepGroups l sk o := by
        intro sk o
        unfold stepGroups
        rw [List.filter_cons]
        by_cases hc : q.1.1 = o ∧ sk0 = sk
        · obtain ⟨rfl, rfl⟩ := hc
          have : q.1 = (q.1.1, "SetPoint" ++ plane sk0) := Prod.ext rfl hname
          rw [if_pos (by simpa using this), if_pos ⟨rfl, rfl⟩]
          rfl
        · have : ¬ q.1 = (o, "SetPoint" ++ plane sk) := by
            intro hq
            rw [Prod.ext_iff] at hq
            exact hc ⟨hq.1, setpointName_inj (hname.symm.trans hq.2)⟩
          rw [if_neg (by simpa using this), if_neg hc]
          rfl
      have hf := (setMagnetSetpoints_modifies _ _ _ _ _ _).ok hset
      have hsl : ∀ o, skewLimit s1.RING o = skewLimit s.RING o := fun o => skewLimit_congr (hf.attr _ _ (by
        rintro (⟨-, h | ⟨-, h⟩⟩ | h)
        · cases sk0 <;> exact absurd h (by decide)
        · exact absurd h (by decide)
        · exact absurd h (by decide)))
      refine ⟨fun o sk n hn => ?_, fun o sk k hk1 hk2 => ?_, ?_, fun i sk => ?_⟩
      · rw [hg] at hn
        cases ht : (stepGroups l sk o).getLast? with
        | some m =>
          rw [List.getLast?_append, ht] at hn
          obtain rfl : m = n := by simpa using hn
          rw [c.last o sk m ht, hsl]
        | none =>
          rw [List.getLast?_append, ht] at hn
          by_cases hc : q.1.1 = o ∧ sk0 = sk
          · rw [if_pos hc] at hn
            obtain rfl : q.2 = n := by simpa using hn
            obtain ⟨rfl, rfl⟩ := hc
            rw [c.rest _ _ _ (Or.inr (by simpa using ht)) (Or.inl (by decide))]
            rw [setMagnetSetpoints_setpoint hset (k := 0) (o := q.1.1) ⟨rfl, fun j hj => by obtain ⟨m, rfl⟩ := Nat.exists_eq_succ_of_ne_zero (Nat.pos_iff_ne_zero.1 hj); simp⟩]
            simp [magnetAsked, asked, valueFor, coef]
          · rw [if_neg hc] at hn
            simp at hn
      · have e := c.rest o sk k (by
          rcases hk1 with h | h
          · exact Or.inl h
          · rw [hg] at h; exact Or.inr (List.append_eq_nil_iff.1 h).2) (by
          rcases hk2 with h | h | h | h
          · exact Or.inl h
          · exact Or.inr (Or.inl h)
          · exact Or.inr (Or.inr (Or.inl h))
          · rw [hg] at h; exact Or.inr (Or.inr (Or.inr (List.append_eq_nil_iff.1 h).2)))
        rw [e]
        refine setMagnetSetpoints_rest hset o sk k ?_ ?_
        · rintro ⟨ho, rfl, rfl⟩
          rcases hk1 with h | h
          · exact h rfl
          · rw [hg, if_pos ⟨by simpa using (List.mem_singleton.1 ho).symm, rfl⟩] at h
            simp at h
        · rintro ⟨hcomp, -, ho, -, rfl, rfl⟩
          rw [Bool.and_eq_true] at hcomp
          rcases hk2 with h | h | h | h
          · exact h rfl
          · cases h
          · rw [h] at hcomp; exact absurd hcomp.1 (by decide)
          · rw [hg, if_pos ⟨by simpa using (List.mem_singleton.1 ho).symm, by simpa using hcomp.2⟩] at h
            simp at h
      · refine Frame.trans _ _ _ (hf.mono ?_) (c.frame.mono ?_)
        · rintro i a (⟨hi, h⟩ | h)
          · refine Or.inl ⟨⟨q, List.mem_cons_self, by simpa using (List.mem_singleton.1 hi).symm⟩, ?_⟩
            rcases h with rfl | ⟨-, rfl⟩
            · cases sk0 <;> decide
            · decide
          · exact Or.inr h
        · rintro i a (⟨⟨p, hp, hi⟩, h⟩ | h)
          · exact Or.inl ⟨⟨p, List.mem_cons_of_mem _ hp, hi⟩, h⟩
          · exact Or.inr h
      · rw [c.len]
        obtain ⟨-, -, hlen⟩ := setMagnetSetpoints_settled hset
        rcases hlen i sk with h | ⟨v, v', h, h', hl⟩
        · simp only [vecAt, h]
        · simp only [vecAt, h, h', hl]
    · have hg : ∀ sk o, stepGroups (q :: l) sk o = stepGroups l sk o := by
        intro sk o
        unfold stepGroups
        rw [List.filter_cons, if_neg]
        simp only [decide_eq_true_eq]
        intro hq
        exact hno sk (congrArg Prod.snd hq)
      refine ⟨fun o sk n hn => c.last o sk n (by rwa [hg] at hn), fun o sk k hk1 hk2 => c.rest o sk k (by rwa [hg] at hk1) (by rwa [hg] at hk2),
        c.frame.mono ?_, c.len⟩
      rintro i a (⟨⟨p, hp, hi⟩, h⟩ | h)
      · exact Or.inl ⟨⟨p, List.mem_cons_of_mem _ hp, hi⟩, h⟩
      · exact Or.inr h

end

/-! ### Diagnostics -/

theorem addCalError_ok {o p : Nat} {d : K} {s s' : SC K} (h : addCalError o p d s = .ok () s') (i q : Nat) :
    calError s'.RING i q = calError s.RING i q + if i = o ∧ q = p then d else 0 := by
  unfold addCalError at h
  rw [bindRd_eq_ok] at h; obtain ⟨v, hv, h⟩ := h
  rw [bindLift_eq_ok] at h; obtain ⟨x, hx, h⟩ := h
  rw [setAttr_eq_ok] at h
  obtain ⟨hlt, rfl⟩ := h
  rw [Ring.getVec_eq_ok] at hv
  rw [idx_eq_ok] at hx
  unfold calError
  by_cases hi : i = o
  · subst hi
    have e : vecAt (s.RING.setAttr i "CalError" (.vec (v.set p (x + d)))) i "CalError" = v.set p (x + d) :=
      vecAt_of_attr (Ring.attr_setAttr_same hlt)
    have e' : vecAt s.RING i "CalError" = v := vecAt_of_attr hv
    show coef (vecAt (s.RING.setAttr i "CalError" (.vec (v.set p (x + d)))) i "CalError") q = _
    rw [e, e']
    by_cases hq : q = p
    · subst hq
      rw [if_pos ⟨rfl, rfl⟩, coef_of_getElem? hx]
      unfold coef
      rw [List.getD_eq_getElem?_getD, List.getElem?_set_self (List.getElem?_eq_some_iff.1 hx).1]
      rfl
    · rw [if_neg (fun hh => hq hh.2), add_zero]
      unfold coef
      rw [List.getD_eq_getElem?_getD, List.getElem?_set_ne (fun hh => hq hh.symm), List.getD_eq_getElem?_getD]
  · rw [if_neg (fun hh => hi hh.1), add_zero]
    unfold vecAt
    rw [show (s.RING.setAttr o "CalError" (.vec (v.set p (x + d)))).attr i "CalError" = s.RING.attr i "CalError" from
      Ring.attr_setAttr_ne' hi]

theorem addCalError_writes (o p : Nat) (d : K) : Rel (Frame (fun i a => i = o ∧ a = "CalError")) (addCalError (K := K) o p d) := by
  unfold addCalError
  refine Rels.bind (Rels.rd _) (fun off => Rels.bind (Rels.lift _) (fun x => Rels.setAttr (fun _ => Frame.setAttr ⟨rfl, rfl⟩)))

theorem sumFor_cons (o : Nat) (ords : List Nat) (x : K) (vals : List K) (i : Nat) :
    sumFor (o :: ords) (x :: vals) i = (if o = i then x else 0) + sumFor ords vals i := by
  simp [sumFor]

theorem gainLoop {g : List K} {p : Nat} : ∀ (ords : List Nat) (n : Nat) (s s' : SC K),
    forEach (ords.zipIdx n) (fun o => do
      let x ← lift (idx g o.2)
      addCalError o.1 p (1 - x)) s = .ok () s' →
    n + ords.length ≤ g.length + (if ords = [] then n else 0) ∧
    ∀ i q, calError s'.RING i q = calError s.RING i q + if q = p then sumFor ords ((g.drop n).map (fun x => 1 - x)) i else 0 := by
  intro ords
  induction ords with
  | nil =>
    intro n s s' h
    simp at h
    subst h
    refine ⟨by simp, fun i q => by simp [sumFor]⟩
  | cons o ords ih =>
    intro n s s' h
    rw [List.zipIdx_cons, forEach_cons, bind_eq_ok] at h
    obtain ⟨⟨⟩, s1, h1, h2⟩ := h
    rw [bindLift_eq_ok] at h1
    obtain ⟨x, hx, h1⟩ := h1
    rw [idx_eq_ok] at hx
    obtain ⟨hlt, hx'⟩ := List.getElem?_eq_some_iff.1 hx
    simp only at hlt hx'
    obtain ⟨hl, ih⟩ := ih (n + 1) s1 s' h2
    refine ⟨?_, fun i q => ?_⟩
    · rw [if_neg (by simp)]
      split at hl
      · rename_i he; subst he; simp; omega
      · simp; omega
    · rw [ih, addCalError_ok h1, List.drop_eq_getElem_cons hlt, List.map_cons, sumFor_cons, hx']
      by_cases hq : q = p
      · simp only [hq, if_true, and_true]
        by_cases hi : i = o
        · subst hi; simp [add_assoc]
        · rw [if_neg hi, if_neg (fun h => hi h.symm)]; ring
      · simp [hq]

theorem rollLoop {a b : List K} : ∀ (ords : List Nat) (n : Nat) (s s' : SC K), a.length = b.length →
    forEach (ords.zipIdx n) (fun o => do
      let v ← lift (idx a o.2)
      let h ← lift (idx b o.2)
      let x ← rd (fun r => r.getNum o.1 "Roll")
      setAttr o.1 "Roll" (.num (x - (v - h) / 2))) s = .ok () s' →
    ∀ i, numAt s'.RING i "Roll" = numAt s.RING i "Roll" - sumFor ords (((a.zip b).drop n).map (fun x => (x.1 - x.2) / 2)) i := by
  intro ords
  induction ords with
  | nil =>
    intro n s s' hab h i
    simp at h
    subst h
    simp [sumFor]
  | cons o ords ih =>
    intro n s s' hab h i
    rw [List.zipIdx_cons, forEach_cons, bind_eq_ok] at h
    obtain ⟨⟨⟩, s1, h1, h2⟩ := h
    rw [bindLift_eq_ok] at h1; obtain ⟨v, hv, h1⟩ := h1
    rw [bindLift_eq_ok] at h1; obtain ⟨w, hw, h1⟩ := h1
    rw [bindRd_eq_ok] at h1; obtain ⟨x, hx, h1⟩ := h1
    rw [setAttr_eq_ok] at h1
    obtain ⟨hlt, rfl⟩ := h1
    rw [idx_eq_ok] at hv hw
    rw [Ring.getNum_eq_ok] at hx
    simp only at hv hw hx
    obtain ⟨hn, hv'⟩ := List.getElem?_eq_some_iff.1 hv
    obtain ⟨hn', hw'⟩ := List.getElem?_eq_some_iff.1 hw
    have hz : n < (a.zip b).length := by simp; omega
    rw [ih (n + 1) _ s' hab h2, List.drop_eq_getElem_cons hz, List.map_cons, sumFor_cons]
    have e : (a.zip b)[n] = (v, w) := by simp [hv', hw']
    rw [e]
    have hnum : numAt (s.RING.setAttr o "Roll" (.num (x - (v - w) / 2))) i "Roll" =
        numAt s.RING i "Roll" - if o = i then (v - w) / 2 else 0 := by
      by_cases hi : o = i
      · subst hi
        rw [if_pos rfl, numAt_of_attr (Ring.attr_setAttr_same hlt), numAt_of_attr hx]
      · rw [if_neg hi, sub_zero]
        unfold numAt
        rw [show (s.RING.setAttr o "Roll" (.num (x - (v - w) / 2))).attr i "Roll" = s.RING.attr i "Roll" from
          Ring.attr_setAttr_ne' (fun h => hi h.symm)]
    show numAt (s.RING.setAttr o "Roll" (.num (x - (v - w) / 2))) i "Roll" - _ = _
    rw [hnum]
    ring

theorem sumFor_of_not_mem {ords : List Nat} {vals : List K} {o : Nat} (h : o ∉ ords) : sumFor ords vals o = 0 := by
  induction ords generalizing vals with
  | nil => simp [sumFor]
  | cons a ords ih =>
    cases vals with
    | nil => simp [sumFor]
    | cons x vals =>
      rw [sumFor_cons, if_neg (by rintro rfl; exact h List.mem_cons_self), ih (fun hh => h (List.mem_cons_of_mem _ hh)), zero_add]

theorem sumFor_nodup {ords : List Nat} {vals : List K} {o k : Nat} {x : K} (hnd : ords.Nodup) (hk : ords[k]? = some o)
    (hx : vals[k]? = some x) : sumFor ords vals o = x := by
  induction ords generalizing vals k with
  | nil => simp at hk
  | cons a ords ih =>
    cases vals with
    | nil => simp at hx
    | cons y vals =>
      rw [List.nodup_cons] at hnd
      rw [sumFor_cons]
      cases k with
      | zero =>
        simp at hk hx
        subst hk hx
        rw [if_pos rfl, sumFor_of_not_mem hnd.1, add_zero]
      | succ k =>
        simp at hk hx
        rw [if_neg (by rintro rfl; exact hnd.1 (List.mem_iff_getElem?.2 ⟨k, hk⟩)), zero_add]
        exact ih hnd.2 hk hx

theorem sum_sumFor {ords : List Nat} {vals : List K} (hnd : ords.Nodup) (hl : ords.length = vals.length) :
    (ords.map (sumFor ords vals)).sum = vals.sum := by
  congr 1
  refine List.ext_getElem? (fun k => ?_)
  rw [List.getElem?_map]
  cases ho : ords[k]? with
  | none =>
    rw [List.getElem?_eq_none_iff] at ho
    rw [Option.map_none, eq_comm, List.getElem?_eq_none_iff]
    omega
  | some o =>
    have hk := (List.getElem?_eq_some_iff.1 ho).1
    have hx : vals[k]? = some (vals[k]'(by omega)) := List.getElem?_eq_getElem _
    rw [Option.map_some, hx, sumFor_nodup hnd ho hx]

end PySC
