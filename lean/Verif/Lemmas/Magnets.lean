import Verif.Lemmas.Ring
/-
Characterisation of `update_magnets` and `update_cavities`: a successful call is a list of assignments whose values
depend only on attributes that the call does not write.
-/
namespace PySC
set_option linter.unusedSectionVars false
variable {K : Type _} [Field K] [LinearOrder K]
open Py

/-- attributes written by `_update_magnets` -/
def magnetWrites : List String := ["PolynomA", "PolynomB", "KickAngle", "MaxOrder"]

theorem Modifies.addTerm {W : Nat → String → Prop} {tgt : Nat} {x : Option K}
    (h : W tgt "PolynomB") : Modifies W (addTerm tgt x) := by
  cases x
  · exact Modifies.pure' ()
  · unfold PySC.addTerm addToPolynomB0
    frames

theorem Modifies.updateMagnet {W : Nat → String → Prop} {src tgt : Nat}
    (h : ∀ a ∈ magnetWrites, W tgt a) : Modifies (K := K) W (updateMagnet src tgt) := by
  unfold PySC.updateMagnet
  have hA : W tgt ("Polynom" ++ "A") := h _ (by simp [magnetWrites])
  have hB : W tgt ("Polynom" ++ "B") := h _ (by simp [magnetWrites])
  have hB' : W tgt "PolynomB" := hB
  have hK : W tgt "KickAngle" := h _ (by simp [magnetWrites])
  have hM : W tgt "MaxOrder" := h _ (by simp [magnetWrites])
  frames
  · rename_i x hx _
    simp at hx
    rcases hx with rfl | rfl <;> assumption
  · exact Modifies.addTerm hB'
  · exact Modifies.addTerm hB'

theorem childrenOf_eq_ok {r : Ring K} {ind : Nat} {l : List Nat} (h : childrenOf r ind = .ok l) :
    l = [] ∨ r.attr ind "MasterOf" = some (.ords l) := by
  unfold childrenOf at h
  simp only [Except.bind_eq_ok', Ring.hasA_eq_ok, Except.ite_eq_ok, Ring.getA_eq_ok] at h
  obtain ⟨b, ⟨-, rfl⟩, ⟨-, v, hv, hv'⟩ | ⟨-, h⟩⟩ := h
  · right
    cases v <;> simp [Attr.toOrds] at hv'
    rw [hv, hv']
  · left; simpa [eq_comm] using h

theorem updateMagnetAndChildren_frame (ind : Nat) (s : SC K) :
    Frame (fun t a => Affects s.RING ind t ∧ a ∈ magnetWrites) s (updateMagnetAndChildren ind s).state := by
  have h1 : Modifies (K := K) (fun t a => t = ind ∧ a ∈ magnetWrites) (updateMagnet ind ind) :=
    Modifies.updateMagnet (fun a ha => ⟨rfl, ha⟩)
  have hmono : ∀ t a, (t = ind ∧ a ∈ magnetWrites) → (Affects s.RING ind t ∧ a ∈ magnetWrites) :=
    fun t a h => ⟨Or.inl h.1, h.2⟩
  unfold updateMagnetAndChildren
  rw [bind_apply]
  cases h : updateMagnet ind ind s with
  | error e s1 => exact Frame.mono hmono (h1.error h)
  | ok u s1 =>
    have f1 := Frame.mono hmono (h1.ok h)
    have hm : s1.RING.attr ind "MasterOf" = s.RING.attr ind "MasterOf" :=
      (h1.ok h).attr _ _ (by simp [magnetWrites])
    refine Frame.trans _ _ _ f1 ?_
    simp only
    rw [bind_apply]
    cases hh : rd (fun r => childrenOf r ind) s1 with
    | error e s2 => exact (Modifies.rd _).error hh
    | ok l s2 =>
      rw [rd_eq_ok] at hh
      obtain ⟨hh, rfl⟩ := hh
      rcases childrenOf_eq_ok hh with rfl | hl
      · exact Frame.refl _
      · refine Modifies.forEach (fun c hc => ?_) s2
        exact Modifies.updateMagnet (fun a ha => ⟨Or.inr ⟨_, by rw [← hm, hl], hc⟩, ha⟩)

/-- `update_magnets(ords)` writes only multipoles, kick angle and order of the given magnets and their children. -/
theorem updateMagnets_frame_aux (l : List Nat) (s : SC K) :
    Frame (fun t a => (∃ i ∈ l, Affects s.RING i t) ∧ a ∈ magnetWrites) s
      (forEach l updateMagnetAndChildren s).state := by
  induction l generalizing s with
  | nil => exact Frame.refl _
  | cons x xs ih =>
    rw [forEach_cons, bind_apply]
    have f1 := updateMagnetAndChildren_frame x s
    have f1' : Frame (fun t a => (∃ i ∈ x :: xs, Affects s.RING i t) ∧ a ∈ magnetWrites) s
        (updateMagnetAndChildren x s).state := Frame.mono (fun t a h => ⟨⟨x, by simp, h.1⟩, h.2⟩) f1
    cases h : updateMagnetAndChildren x s with
    | error e s1 => rw [h] at f1'; exact f1'
    | ok u s1 =>
      rw [h] at f1' f1
      refine Frame.trans _ _ _ f1' ?_
      refine Frame.mono ?_ (ih s1)
      rintro t a ⟨⟨i, hi, ht⟩, ha⟩
      refine ⟨⟨i, by simp [hi], ?_⟩, ha⟩
      rcases ht with rfl | ⟨l, hl, hl'⟩
      · exact Or.inl rfl
      · refine Or.inr ⟨l, ?_, hl'⟩
        rw [← hl]; exact (f1.attr _ _ (by simp [magnetWrites])).symm

theorem updateMagnets_frame (ords : Option (List Nat)) (s : SC K) :
    Frame (fun t a => (∃ i ∈ ords.getD s.ORD.Magnet, Affects s.RING i t) ∧ a ∈ magnetWrites) s
      (updateMagnets ords s).state := by
  unfold updateMagnets
  exact updateMagnets_frame_aux _ s

theorem updateMagnets_modifies (ords : Option (List Nat)) :
    Modifies (K := K) (fun _ a => a ∈ magnetWrites) (updateMagnets ords) :=
  fun s => Frame.mono (fun _ _ h => h.2) (updateMagnets_frame ords s)

/-! ### What a successful `_update_magnets` assigns -/

/-- `setattr(ring[i], a, v)` for all `(a, v)` in order -/
def Ring.assign (r : Ring K) (i : Nat) (l : List (String × Attr K)) : Ring K :=
  l.foldl (fun r p => r.setAttr i p.1 p.2) r

/-- add an optional term to the first entry -/
def addHead (v : List K) : Option K → Except Err (List K)
  | none => .ok v
  | some x => do
    let v0 ← idx v 0
    .ok (v.set 0 (v0 + x))

/-- the kick angle assigned to a `CorrectorPass` element -/
def kickValues (pass : String) (vA vB : List K) : Except Err (List (String × Attr K)) :=
  if pass = "CorrectorPass" then do
    let b0 ← idx vB 0
    let a0 ← idx vA 0
    .ok [("KickAngle", Attr.vec [b0, a0])]
  else .ok []

/-- the values assigned by `_update_magnets`, computed from the ring before the call -/
def magnetValues (r : Ring K) (src tgt : Nat) : Except Err (List (String × Attr K)) := do
  let p ← polynoms r src
  let vA ← newPolynom r tgt p "A"
  let vB ← newPolynom r tgt p "B"
  let x ← bendingErrorTerm r src tgt
  let vB1 ← addHead vB x
  let y ← combinedFunctionTerm r src tgt
  let vB2 ← addHead vB1 y
  let pass ← r.getStr src "PassMethod"
  let kick ← kickValues pass vA vB2
  .ok ([("PolynomA", .vec vA), ("PolynomB", .vec vB2)] ++ kick ++
    [("MaxOrder", .int ((vB2.length : Int) - 1))])

section congr
/-- agreement outside the attributes written by `_update_magnets` -/
def Agree (r r' : Ring K) : Prop :=
  r.length = r'.length ∧ ∀ i a, a ∉ magnetWrites → r.attr i a = r'.attr i a

theorem Agree.getA {r r' : Ring K} (h : Agree r r') {i : Nat} {a : String} (ha : a ∉ magnetWrites) :
    r.getA i a = r'.getA i a := Ring.getA_congr h.1 (h.2 i a ha)
theorem Agree.hasA {r r' : Ring K} (h : Agree r r') {i : Nat} {a : String} (ha : a ∉ magnetWrites) :
    r.hasA i a = r'.hasA i a := Ring.hasA_congr h.1 (h.2 i a ha)
theorem Agree.symm {r r' : Ring K} (h : Agree r r') : Agree r' r :=
  ⟨h.1.symm, fun i a ha => (h.2 i a ha).symm⟩
theorem Agree.trans {r r' r'' : Ring K} (h : Agree r r') (h' : Agree r' r'') : Agree r r'' :=
  ⟨h.1.trans h'.1, fun i a ha => (h.2 i a ha).trans (h'.2 i a ha)⟩
theorem Agree.refl (r : Ring K) : Agree r r := ⟨rfl, fun _ _ _ => rfl⟩
theorem Agree.setAttr (r : Ring K) {i : Nat} {a : String} {v : Attr K} (ha : a ∈ magnetWrites) :
    Agree (r.setAttr i a v) r := by
  refine ⟨by simp, fun j b hb => ?_⟩
  rw [Ring.attr_setAttr, if_neg]
  rintro ⟨-, rfl⟩; exact hb ha

variable {r r' : Ring K}
theorem Agree.polynoms (h : Agree r r') (src : Nat) : polynoms r src = polynoms r' src := by
  have h1 := fun i => h.getA (i := i) (a := "SetPointA") (by simp [magnetWrites])
  have h2 := fun i => h.getA (i := i) (a := "SetPointB") (by simp [magnetWrites])
  have h3 := fun i => h.getA (i := i) (a := "CalErrorA") (by simp [magnetWrites])
  have h4 := fun i => h.getA (i := i) (a := "CalErrorB") (by simp [magnetWrites])
  simp only [PySC.polynoms, Ring.getVec, h1, h2, h3, h4]

theorem Agree.newPolynom (h : Agree r r') (tgt : Nat) (p : List K × List K) {t : String}
    (ht : t = "A" ∨ t = "B") : newPolynom r tgt p t = newPolynom r' tgt p t := by
  have h1 := fun i => h.getA (i := i) (a := "Polynom" ++ t ++ "Offset") (by
    rcases ht with rfl | rfl <;> simp [magnetWrites])
  have h1' := fun i => h.hasA (i := i) (a := "Polynom" ++ t ++ "Offset") (by
    rcases ht with rfl | rfl <;> simp [magnetWrites])
  have h2 := fun i => h.getA (i := i) (a := "SysPol" ++ t ++ "From" ++ "A") (by
    rcases ht with rfl | rfl <;> simp [magnetWrites])
  have h2' := fun i => h.hasA (i := i) (a := "SysPol" ++ t ++ "From" ++ "A") (by
    rcases ht with rfl | rfl <;> simp [magnetWrites])
  have h3 := fun i => h.getA (i := i) (a := "SysPol" ++ t ++ "From" ++ "B") (by
    rcases ht with rfl | rfl <;> simp [magnetWrites])
  have h3' := fun i => h.hasA (i := i) (a := "SysPol" ++ t ++ "From" ++ "B") (by
    rcases ht with rfl | rfl <;> simp [magnetWrites])
  simp only [PySC.newPolynom, addSystematic, h1, h1', h2, h2', h3, h3']

theorem Agree.bendingErrorTerm (h : Agree r r') (src tgt : Nat) :
    bendingErrorTerm r src tgt = bendingErrorTerm r' src tgt := by
  have h1 := fun i => h.getA (i := i) (a := "BendingAngleError") (by simp [magnetWrites])
  have h1' := fun i => h.hasA (i := i) (a := "BendingAngleError") (by simp [magnetWrites])
  have h2 := fun i => h.getA (i := i) (a := "BendingAngle") (by simp [magnetWrites])
  have h3 := fun i => h.getA (i := i) (a := "Length") (by simp [magnetWrites])
  simp only [PySC.bendingErrorTerm, Ring.getNum, h1, h1', h2, h3]

theorem Agree.combinedFunctionTerm (h : Agree r r') (src tgt : Nat) :
    combinedFunctionTerm r src tgt = combinedFunctionTerm r' src tgt := by
  have h1 := fun i => h.getA (i := i) (a := "CombinedFunction") (by simp [magnetWrites])
  have h1' := fun i => h.hasA (i := i) (a := "CombinedFunction") (by simp [magnetWrites])
  have h2 := fun i => h.getA (i := i) (a := "BendingAngle") (by simp [magnetWrites])
  have h2' := fun i => h.hasA (i := i) (a := "BendingAngle") (by simp [magnetWrites])
  have h3 := fun i => h.getA (i := i) (a := "Length") (by simp [magnetWrites])
  have h4 := fun i => h.getA (i := i) (a := "SetPointB") (by simp [magnetWrites])
  have h5 := fun i => h.getA (i := i) (a := "CalErrorB") (by simp [magnetWrites])
  have h6 := fun i => h.getA (i := i) (a := "NomPolynomB") (by simp [magnetWrites])
  simp only [PySC.combinedFunctionTerm, isCombinedFunction, Ring.getVecAt, Ring.getVec, Ring.getNum,
    h1, h1', h2, h2', h3, h4, h5, h6]

theorem Agree.passMethod (h : Agree r r') (src : Nat) :
    r.getStr src "PassMethod" = r'.getStr src "PassMethod" := by
  have h1 := fun i => h.getA (i := i) (a := "PassMethod") (by simp [magnetWrites])
  simp only [Ring.getStr, h1]

theorem Agree.childrenOf (h : Agree r r') (ind : Nat) : childrenOf r ind = childrenOf r' ind := by
  have h1 := fun i => h.getA (i := i) (a := "MasterOf") (by simp [magnetWrites])
  have h1' := fun i => h.hasA (i := i) (a := "MasterOf") (by simp [magnetWrites])
  simp only [PySC.childrenOf, h1, h1']

theorem Agree.magnetValues (h : Agree r r') (src tgt : Nat) :
    magnetValues r src tgt = magnetValues r' src tgt := by
  simp only [PySC.magnetValues, h.polynoms, h.newPolynom tgt _ (Or.inl rfl), h.newPolynom tgt _ (Or.inr rfl),
    h.bendingErrorTerm, h.combinedFunctionTerm, h.passMethod]
end congr

theorem addTerm_eq_ok {tgt : Nat} {x : Option K} {u : Unit} {s s' : SC K} {v : List K}
    (hv : s.RING.attr tgt "PolynomB" = some (.vec v)) :
    addTerm tgt x s = .ok u s' ↔ ∃ w, addHead v x = .ok w ∧
      s' = { s with RING := s.RING.setAttr tgt "PolynomB" (.vec w) } := by
  cases x with
  | none => simp [addTerm, addHead, Ring.setAttr_eq_self hv]; exact eq_comm
  | some x =>
    have hlt := Ring.attr_some_lt hv
    simp only [addTerm, addToPolynomB0, bind_eq_ok, rd_eq_ok, Ring.getVec_eq_ok, hv, lift_eq_ok, setAttr_eq_ok,
      addHead, Except.bind_eq_ok']
    constructor
    · rintro ⟨p, s1, ⟨hp, rfl⟩, p0, s2, ⟨hp0, rfl⟩, -, rfl⟩
      simp at hp; subst hp
      exact ⟨_, ⟨p0, hp0, rfl⟩, rfl⟩
    · rintro ⟨w, ⟨p0, hp0, hw⟩, rfl⟩
      simp at hw; subst hw
      exact ⟨v, s, ⟨rfl, rfl⟩, p0, s, ⟨hp0, rfl⟩, hlt, rfl⟩

/-- `assign` looks up the last assignment -/
theorem Ring.length_assign (r : Ring K) (i : Nat) (l : List (String × Attr K)) :
    (r.assign i l).length = r.length := by
  induction l generalizing r with
  | nil => rfl
  | cons p l ih => simp [Ring.assign] at ih ⊢; rw [ih]; simp

theorem Ring.attr_assign_other (r : Ring K) (i j : Nat) (a : String) (l : List (String × Attr K))
    (h : j = i → a ∉ l.map Prod.fst) : (r.assign i l).attr j a = r.attr j a := by
  induction l generalizing r with
  | nil => rfl
  | cons p l ih =>
    have := ih (r.setAttr i p.1 p.2) (fun hj => by have := h hj; simp at this ⊢; exact this.2)
    simp only [Ring.assign, List.foldl_cons] at this ⊢
    rw [this, Ring.attr_setAttr, if_neg]
    rintro ⟨hj, rfl⟩
    exact h hj (by simp)

theorem addHead_length {v w : List K} {x : Option K} (h : addHead v x = .ok w) : w.length = v.length := by
  cases x with
  | none => simp [addHead] at h; rw [h]
  | some x =>
    simp only [addHead, Except.bind_eq_ok'] at h
    obtain ⟨a, -, h⟩ := h
    simp at h; rw [← h]; simp

/-- the kick angle part -/
theorem kickPart_eq_ok {tgt : Nat} {pass : String} {u : Unit} {s s' : SC K} {vA vB : List K}
    (hA : s.RING.attr tgt "PolynomA" = some (.vec vA)) (hB : s.RING.attr tgt "PolynomB" = some (.vec vB)) :
    when (decide (pass = "CorrectorPass")) (do
      let k ← rd (fun r => kickAngle r tgt)
      setAttr tgt "KickAngle" (.vec k)) s = .ok u s' ↔
    ∃ l, kickValues pass vA vB = .ok l ∧ s' = { s with RING := s.RING.assign tgt l } := by
  have hlt := Ring.attr_some_lt hA
  unfold kickValues
  by_cases hp : pass = "CorrectorPass"
  · simp only [hp, decide_true, when_true, bind_eq_ok, rd_eq_ok, kickAngle, Ring.getVecAt, Except.bind_eq_ok',
      Ring.getVec_eq_ok, hA, hB, setAttr_eq_ok, if_true]
    constructor
    · rintro ⟨k, s1, ⟨⟨b0, ⟨v, hv, hb⟩, a0, ⟨w, hw, ha⟩, hk⟩, rfl⟩, -, rfl⟩
      simp at hv hw hk
      subst hv hw hk
      exact ⟨_, ⟨b0, hb, a0, ha, rfl⟩, rfl⟩
    · rintro ⟨l, ⟨b0, hb, a0, ha, hl⟩, rfl⟩
      simp at hl; subst hl
      exact ⟨_, s, ⟨⟨b0, ⟨_, rfl, hb⟩, a0, ⟨_, rfl, ha⟩, rfl⟩, rfl⟩, hlt, rfl⟩
  · simp [hp, Ring.assign]; exact eq_comm

theorem updateMagnet_eq_ok {src tgt : Nat} {u : Unit} {s s' : SC K} :
    updateMagnet src tgt s = .ok u s' ↔ tgt < s.RING.length ∧
      ∃ L, magnetValues s.RING src tgt = .ok L ∧ s' = { s with RING := s.RING.assign tgt L } := by
  have aA : ∀ (r : Ring K) v, Agree (r.setAttr tgt "PolynomA" v) r := fun r v => Agree.setAttr r (by simp [magnetWrites])
  have aB : ∀ (r : Ring K) v, Agree (r.setAttr tgt "PolynomB" v) r := fun r v => Agree.setAttr r (by simp [magnetWrites])
  have key : ∀ (hlt : tgt < s.RING.length) (vA vB vB1 vB2 : List K),
      (((s.RING.setAttr tgt "PolynomA" (.vec vA)).setAttr tgt "PolynomB" (.vec vB)).setAttr tgt "PolynomB"
        (.vec vB1)).setAttr tgt "PolynomB" (.vec vB2) =
      s.RING.assign tgt [("PolynomA", .vec vA), ("PolynomB", .vec vB2)] := by
    intro hlt vA vB vB1 vB2
    simp only [Ring.setAttr_setAttr_same, Ring.assign, List.foldl_cons, List.foldl_nil]
  simp only [updateMagnet, forEach_cons, forEach_nil, bind_eq_ok, rd_eq_ok, setAttr_eq_ok, pure_apply', Res.ok.injEq,
    magnetValues, Except.bind_eq_ok', String.reduceAppend]
  constructor
  · rintro ⟨p, _, ⟨hp, rfl⟩, _, s1, ⟨_, s2, ⟨vA, _, ⟨hA, rfl⟩, hlt, rfl⟩, _, s3, ⟨vB, _, ⟨hB, rfl⟩, -, rfl⟩, -, rfl⟩,
      x, _, ⟨hx, rfl⟩, _, s4, h4, y, _, ⟨hy, rfl⟩, _, s5, h5, pass, _, ⟨hpass, rfl⟩, _, s6, h6,
      pb, _, ⟨hpb, rfl⟩, -, rfl⟩
    rw [addTerm_eq_ok (v := vB) (Ring.attr_setAttr_same (by simpa using hlt))] at h4
    obtain ⟨vB1, h4, rfl⟩ := h4
    rw [addTerm_eq_ok (v := vB1) (Ring.attr_setAttr_same (by simpa using hlt))] at h5
    obtain ⟨vB2, h5, rfl⟩ := h5
    rw [kickPart_eq_ok (vA := vA) (vB := vB2) (by
      simp only [Ring.attr_setAttr]; simp [hlt]) (by simp only [Ring.attr_setAttr]; simp [hlt])] at h6
    obtain ⟨l, hl, rfl⟩ := h6
    simp only at hB hx hy hpass hpb
    rw [(aA _ _).newPolynom tgt p (Or.inr rfl)] at hB
    rw [(((aB _ _).trans (aA _ _))).bendingErrorTerm] at hx
    rw [((aB _ _).trans ((aB _ _).trans (aA _ _))).combinedFunctionTerm] at hy
    rw [((aB _ _).trans ((aB _ _).trans ((aB _ _).trans (aA _ _)))).passMethod] at hpass
    rw [Ring.getVec_eq_ok, Ring.attr_assign_other, Ring.attr_setAttr_same (by simpa using hlt)] at hpb
    · simp at hpb; subst hpb
      refine ⟨hlt, _, ⟨p, hp, vA, hA, vB, hB, x, hx, vB1, h4, y, hy, vB2, h5, pass, hpass, l, hl, rfl⟩, ?_⟩
      simp only
      rw [key hlt]
      simp only [Ring.assign, List.foldl_append, List.foldl_cons, List.foldl_nil]
    · intro _
      unfold kickValues at hl
      split at hl
      · simp only [Except.bind_eq_ok'] at hl
        obtain ⟨_, _, _, _, hl⟩ := hl
        simp at hl; subst hl; simp
      · simp at hl; subst hl; simp
  · rintro ⟨hlt, L, ⟨p, hp, vA, hA, vB, hB, x, hx, vB1, h4, y, hy, vB2, h5, pass, hpass, l, hl, hL⟩, rfl⟩
    simp at hL; subst hL
    refine ⟨p, s, ⟨hp, rfl⟩, (), _, ⟨(), _, ⟨vA, s, ⟨hA, rfl⟩, hlt, rfl⟩, (), _, ⟨vB, _, ⟨?_, rfl⟩, by simpa using hlt, rfl⟩, trivial, rfl⟩,
      x, _, ⟨?_, rfl⟩, (), _, (addTerm_eq_ok (v := vB) (Ring.attr_setAttr_same (by simpa using hlt))).2 ⟨vB1, h4, rfl⟩,
      y, _, ⟨?_, rfl⟩, (), _, (addTerm_eq_ok (v := vB1) (Ring.attr_setAttr_same (by simpa using hlt))).2 ⟨vB2, h5, rfl⟩,
      pass, _, ⟨?_, rfl⟩, (), _, (kickPart_eq_ok (vA := vA) (vB := vB2) ?_ ?_).2 ⟨l, hl, rfl⟩, vB2, _, ⟨?_, rfl⟩, ?_, ?_⟩
    · simp only; rw [(aA _ _).newPolynom tgt p (Or.inr rfl)]; exact hB
    · simp only; rw [(((aB _ _).trans (aA _ _))).bendingErrorTerm]; exact hx
    · simp only; rw [((aB _ _).trans ((aB _ _).trans (aA _ _))).combinedFunctionTerm]; exact hy
    · simp only; rw [((aB _ _).trans ((aB _ _).trans ((aB _ _).trans (aA _ _)))).passMethod]; exact hpass
    · simp only [Ring.attr_setAttr]; simp [hlt]
    · simp only [Ring.attr_setAttr]; simp [hlt]
    · simp only
      rw [Ring.getVec_eq_ok, Ring.attr_assign_other, Ring.attr_setAttr_same (by simpa using hlt)]
      intro _
      unfold kickValues at hl
      split at hl
      · simp only [Except.bind_eq_ok'] at hl
        obtain ⟨_, _, _, _, hl⟩ := hl
        simp at hl; subst hl; simp
      · simp at hl; subst hl; simp
    · simpa [Ring.length_assign] using hlt
    · simp only
      rw [key hlt]
      simp only [Ring.assign, List.foldl_append, List.foldl_cons, List.foldl_nil]

end PySC
