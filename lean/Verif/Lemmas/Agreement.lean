import Verif.Spec.Agreement
import Verif.Lemmas.ResponseColumns
import Verif.Lemmas.Register
import Verif.Lemmas.CommuteSwap
import Verif.Lemmas.ResponseModel
/-
Measured and model responses of a machine without errors.
-/
set_option linter.unusedSectionVars false
namespace PySC
open Py Spec
variable {K : Type} [Field K] [LinearOrder K] [FloorRing K] [IsStrictOrderedRing K]

/-! ### what a corrector does -/

theorem scaledSetpoints_set {sp c v : List K} (hl : c.length ≤ sp.length) (h0 : coef c 0 = 0) (hsp : 0 < sp.length) {x : K}
    (h : scaledSetpoints sp (.vec c) = .ok v) : scaledSetpoints (sp.set 0 x) (.vec c) = .ok (v.set 0 x) ∧ v.length = sp.length ∧ coef v 0 = coef sp 0 := by
  cases sp with
  | nil => simp at hsp
  | cons a sp =>
    have hone : ∀ (n : Nat) (c : List K), c.length ≤ n → (addPadded (List.replicate n (1 : K)) c).length = n := by
      intro n
      induction n with
      | zero => intro c hc; cases c <;> simp_all [addPadded]
      | succ n ih =>
        intro c hc
        cases c with
        | nil => simp [addPadded]
        | cons b c => simp only [List.replicate_succ, addPadded, List.length_cons]; rw [ih c (by simpa using hc)]
    have hhead : ∃ w, addPadded (List.replicate (sp.length + 1) (1 : K)) c = 1 :: w ∧ w.length = sp.length := by
      have hlen := hone (sp.length + 1) c (by simpa using hl)
      cases c with
      | nil => exact ⟨List.replicate sp.length 1, by simp [addPadded, List.replicate_succ], by simp⟩
      | cons b c =>
        have hb : b = 0 := by simpa [coef] using h0
        refine ⟨addPadded (List.replicate sp.length 1) c, by simp [List.replicate_succ, addPadded, hb], ?_⟩
        simpa [List.replicate_succ, addPadded] using hlen
    obtain ⟨w, hw, hwl⟩ := hhead
    simp only [scaledSetpoints, Attr.asVec, Except.ok_bind', List.length_cons, List.set_cons_zero, hw] at h ⊢
    unfold bmul at h ⊢
    rw [if_pos (by simp [hwl])] at h ⊢
    cases h
    simp [hwl, coef]

/-- a magnet which drives nothing else -/
theorem updateMagnets_single {c : Nat} {s s' : SC K} {u : Unit} (hm : s.RING.attr c "MasterOf" = none)
    (h : updateMagnets (some [c]) s = .ok u s') : c < s.RING.length ∧ ∃ L, magnetValues s.RING c c = .ok L ∧
      s' = { s with RING := s.RING.assign c L } := by
  unfold updateMagnets at h
  rw [bindGet_eq_ok] at h
  simp only [Option.getD_some, forEach_cons, forEach_nil, bind_eq_ok] at h
  obtain ⟨_, s1, h1, h2⟩ := h
  cases h2
  unfold updateMagnetAndChildren at h1
  rw [bind_eq_ok] at h1
  obtain ⟨_, s2, h1, h2⟩ := h1
  obtain ⟨hlt, L, hL, rfl⟩ := updateMagnet_eq_ok.1 h1
  rw [bindRd_eq_ok] at h2
  obtain ⟨ch, hch, h2⟩ := h2
  have hk : ∀ p ∈ L, p.1 ∈ magnetWrites := by
    simp only [magnetValues, Except.bind_eq_ok'] at hL
    obtain ⟨-, -, vA, -, -, -, -, -, -, -, -, -, vB, -, pass, -, kick, hkick, hL⟩ := hL
    cases hL
    have := kickValues_keys hkick
    intro p hp
    simp only [List.mem_append, List.mem_cons, List.not_mem_nil, or_false] at hp
    rcases hp with ((rfl | rfl) | hp) | rfl
    · simp [magnetWrites]
    · simp [magnetWrites]
    · rw [this p hp]; simp [magnetWrites]
    · simp [magnetWrites]
  have hno : (s.RING.assign c L).attr c "MasterOf" = none := by
    rw [Ring.attr_assign_other, hm]
    intro _ hmem
    obtain ⟨p, hp, he⟩ := List.mem_map.1 hmem
    have := hk p hp
    rw [he] at this
    simp [magnetWrites] at this
  have : ch = [] := by
    rw [List.eq_nil_iff_forall_not_mem]
    intro t ht
    obtain ⟨l, hl, -⟩ := (childrenOf_spec hch t).1 ht
    rw [hno] at hl; cases hl
  subst this
  rw [forEach_nil] at h2
  cases h2
  exact ⟨hlt, L, hL, rfl⟩

theorem newPolynom_plain {r : Ring K} {i : Nat} {p : List K × List K} (hi : i < r.length)
    (hc : ∀ a ∈ ["PolynomAOffset", "PolynomBOffset", "SysPolAFromA", "SysPolAFromB", "SysPolBFromA", "SysPolBFromB", "MasterOf"],
      r.attr i a = none) {t : String} (ht : t ∈ ["A", "B"]) : newPolynom r i p t = .ok (pick p t) := by
  have hs : ∀ v so, so ∈ ["A", "B"] → addSystematic r i p t so v = .ok v := by
    intro v so hso
    unfold addSystematic
    rw [Ring.hasA_of_lt hi]
    rw [hc _ (by
      simp only [List.mem_cons, List.not_mem_nil, or_false] at ht hso
      rcases ht with rfl | rfl <;> rcases hso with rfl | rfl <;> simp)]
    simp
  unfold newPolynom
  rw [Ring.hasA_of_lt hi, hc _ (by
      simp only [List.mem_cons, List.not_mem_nil, or_false] at ht
      rcases ht with rfl | rfl <;> simp)]
  simp [hs]

/-- the values assigned to a magnet without multipole errors -/
theorem magnetValues_plain {r : Ring K} {i : Nat} (hi : i < r.length)
    (hc : ∀ a ∈ ["PolynomAOffset", "PolynomBOffset", "SysPolAFromA", "SysPolAFromB", "SysPolBFromA", "SysPolBFromB", "MasterOf"],
      r.attr i a = none) {L : List (String × Attr K)} (h : magnetValues r i i = .ok L) :
    ∃ p x vB1 y vB pass l, polynoms r i = .ok p ∧ bendingErrorTerm r i i = .ok x ∧ addHead p.2 x = .ok vB1 ∧
      combinedFunctionTerm r i i = .ok y ∧ addHead vB1 y = .ok vB ∧ r.getStr i "PassMethod" = .ok pass ∧ kickValues pass p.1 vB = .ok l ∧
      L = [("PolynomA", .vec p.1), ("PolynomB", .vec vB)] ++ l ++ [("MaxOrder", .int ((vB.length : Int) - 1))] := by
  simp only [magnetValues, Except.bind_eq_ok'] at h
  obtain ⟨p, hp, vA, hA, vB, hB, x, hx, vB1, h1, y, hy, vB2, h2, pass, hpass, l, hl, h⟩ := h
  rw [newPolynom_plain hi hc (by simp)] at hA hB
  cases hA; cases hB
  cases h
  exact ⟨p, x, vB1, y, vB2, pass, l, hp, hx, h1, hy, h2, hpass, hl, rfl⟩

theorem addHead_set {v w : List K} {x : Option K} {z : K} (hv : 0 < v.length) (h : addHead v x = .ok w) :
    addHead (v.set 0 z) x = .ok (w.set 0 (coef w 0 + (z - coef v 0))) ∧ w.length = v.length := by
  cases v with
  | nil => simp at hv
  | cons a v =>
    cases x with
    | none => cases h; simp [addHead, coef]
    | some x =>
      simp only [addHead, idx, List.set_cons_zero] at h ⊢
      cases h
      have : a + x + (z - a) = z + x := by ring
      simp [coef, this]

/-- the attributes of a magnet after the assignment -/
theorem attr_assigned {r : Ring K} {i : Nat} (hi : i < r.length) {vA vB : List K} {pass : String} {l : List (String × Attr K)}
    (hl : kickValues pass vA vB = .ok l) :
    let r' := r.assign i ([("PolynomA", .vec vA), ("PolynomB", .vec vB)] ++ l ++ [("MaxOrder", .int ((vB.length : Int) - 1))])
    r'.attr i "PolynomA" = some (.vec vA) ∧ r'.attr i "PolynomB" = some (.vec vB) ∧
    r'.attr i "MaxOrder" = some (.int ((vB.length : Int) - 1)) ∧
    (pass = "CorrectorPass" → 0 < vA.length ∧ 0 < vB.length ∧ r'.attr i "KickAngle" = some (.vec [coef vB 0, coef vA 0])) ∧
    ∀ j a, (j ≠ i ∨ a ∉ ["PolynomA", "PolynomB", "MaxOrder"] ∧ (pass = "CorrectorPass" → a ≠ "KickAngle")) → r'.attr j a = r.attr j a := by
  unfold kickValues at hl
  by_cases hp : pass = "CorrectorPass"
  · rw [if_pos hp] at hl
    simp only [Except.bind_eq_ok', idx_eq_ok] at hl
    obtain ⟨b0, hb, a0, ha, hl⟩ := hl
    cases hl
    simp only [Ring.assign, List.cons_append, List.nil_append, List.foldl_cons, List.foldl_nil]
    refine ⟨by simp [Ring.attr_setAttr, hi], by simp [Ring.attr_setAttr, hi], by simp [Ring.attr_setAttr, hi], fun _ => ⟨?_, ?_, ?_⟩, ?_⟩
    · exact (List.getElem?_eq_some_iff.1 ha).1
    · exact (List.getElem?_eq_some_iff.1 hb).1
    · simp [Ring.attr_setAttr, hi, coef_of_getElem? ha, coef_of_getElem? hb]
    · rintro j a (hj | ⟨ha1, ha2⟩)
      · simp [Ring.attr_setAttr, hj]
      · have := ha2 hp
        simp only [List.mem_cons, List.not_mem_nil, or_false, not_or] at ha1
        simp [Ring.attr_setAttr, ha1, this]
  · rw [if_neg hp] at hl
    cases hl
    simp only [Ring.assign, List.cons_append, List.nil_append, List.foldl_cons, List.foldl_nil]
    refine ⟨by simp [Ring.attr_setAttr, hi], by simp [Ring.attr_setAttr, hi], by simp [Ring.attr_setAttr, hi], fun h => absurd h hp, ?_⟩
    rintro j a (hj | ⟨ha1, -⟩)
    · simp [Ring.attr_setAttr, hj]
    · simp only [List.mem_cons, List.not_mem_nil, or_false, not_or] at ha1
      simp [Ring.attr_setAttr, ha1]

/-- the corrector `c` of the lattice `r` was moved by `d` in one plane -/
structure Moved (r r' : Ring K) (c : Nat) (skew : Bool) (d : K) : Prop where
  len : r'.length = r.length
  poly : ∃ v, r.attr c ("Polynom" ++ plane skew) = some (.vec v) ∧ 0 < v.length ∧ kickFactor r c skew ≠ 0 ∧
    r'.attr c ("Polynom" ++ plane skew) = some (.vec (v.set 0 (coef v 0 + d / kickFactor r c skew)))
  kick : thin r c → ∃ x y, r.attr c "KickAngle" = some (.vec [x, y]) ∧
    r'.attr c "KickAngle" = some (.vec (if skew then [x, y + d] else [x + d, y]))
  other : ∀ j a, (j ≠ c ∨ a ≠ "SetPoint" ++ plane skew ∧ a ≠ "Polynom" ++ plane skew ∧ (thin r c → a ≠ "KickAngle")) →
    r'.attr j a = r.attr j a

theorem polynoms_set {r : Ring K} {c : Nat} {skew : Bool} {v : List K} {z : K} {p : List K × List K} (ht : TrueCorrector r c skew)
    (hv : r.attr c ("SetPoint" ++ plane skew) = some (.vec v)) (h0 : 0 < v.length) (hp : polynoms r c = .ok p) :
    polynoms (r.setAttr c ("SetPoint" ++ plane skew) (.vec (v.set 0 z))) c = .ok (if skew then (p.1.set 0 z, p.2) else (p.1, p.2.set 0 z)) ∧
      coef (if skew then p.1 else p.2) 0 = coef v 0 ∧ 0 < (if skew then p.1 else p.2).length := by
  have hc := Ring.attr_some_lt hv
  obtain ⟨w, hw, hwl, hw0⟩ := ht.cal
  rw [vecAt_of_attr hv] at hwl
  simp only [polynoms, Except.bind_eq_ok', Ring.getVec_eq_ok, Ring.getA_eq_ok] at hp
  obtain ⟨spA, hA, spB, hB, calA, hcA, pA, hpA, calB, hcB, pB, hpB, hp⟩ := hp
  cases hp
  cases skew with
  | true =>
    simp only [plane, if_true] at hv hw ⊢
    have e1 : ("SetPoint" ++ "A" : String) = "SetPointA" := rfl
    have e2 : ("CalError" ++ "A" : String) = "CalErrorA" := rfl
    rw [e1] at hv ⊢; rw [e2] at hw
    rw [hA] at hv; cases hv
    rw [hcA] at hw; cases hw
    obtain ⟨q1, q2, q3⟩ := scaledSetpoints_set hwl hw0 h0 (x := z) hpA
    refine ⟨?_, q3, by rw [q2]; exact h0⟩
    have g1 : (r.setAttr c "SetPointA" (.vec (v.set 0 z))).getVec c "SetPointA" = .ok (v.set 0 z) :=
      Ring.getVec_eq_ok.2 (Ring.attr_setAttr_same hc)
    have g2 : (r.setAttr c "SetPointA" (.vec (v.set 0 z))).getVec c "SetPointB" = .ok spB :=
      Ring.getVec_eq_ok.2 (by rw [Ring.attr_setAttr_ne (by decide)]; exact hB)
    have g3 : (r.setAttr c "SetPointA" (.vec (v.set 0 z))).getA c "CalErrorA" = .ok (.vec w) :=
      Ring.getA_eq_ok.2 (by rw [Ring.attr_setAttr_ne (by decide)]; exact hcA)
    have g4 : (r.setAttr c "SetPointA" (.vec (v.set 0 z))).getA c "CalErrorB" = .ok calB :=
      Ring.getA_eq_ok.2 (by rw [Ring.attr_setAttr_ne (by decide)]; exact hcB)
    simp only [polynoms, g1, g2, g3, g4, q1, hpB, Except.ok_bind']
  | false =>
    simp only [plane, Bool.false_eq_true, if_false] at hv hw ⊢
    have e1 : ("SetPoint" ++ "B" : String) = "SetPointB" := rfl
    have e2 : ("CalError" ++ "B" : String) = "CalErrorB" := rfl
    rw [e1] at hv ⊢; rw [e2] at hw
    rw [hB] at hv; cases hv
    rw [hcB] at hw; cases hw
    obtain ⟨q1, q2, q3⟩ := scaledSetpoints_set hwl hw0 h0 (x := z) hpB
    refine ⟨?_, q3, by rw [q2]; exact h0⟩
    have g1 : (r.setAttr c "SetPointB" (.vec (v.set 0 z))).getVec c "SetPointB" = .ok (v.set 0 z) :=
      Ring.getVec_eq_ok.2 (Ring.attr_setAttr_same hc)
    have g2 : (r.setAttr c "SetPointB" (.vec (v.set 0 z))).getVec c "SetPointA" = .ok spA :=
      Ring.getVec_eq_ok.2 (by rw [Ring.attr_setAttr_ne (by decide)]; exact hA)
    have g3 : (r.setAttr c "SetPointB" (.vec (v.set 0 z))).getA c "CalErrorB" = .ok (.vec w) :=
      Ring.getA_eq_ok.2 (by rw [Ring.attr_setAttr_ne (by decide)]; exact hcB)
    have g4 : (r.setAttr c "SetPointB" (.vec (v.set 0 z))).getA c "CalErrorA" = .ok calA :=
      Ring.getA_eq_ok.2 (by rw [Ring.attr_setAttr_ne (by decide)]; exact hcA)
    simp only [polynoms, g1, g2, g3, g4, q1, hpA, Except.ok_bind']

/-- the terms of bending magnets do not depend on the dipole set-points -/
theorem terms_set {r : Ring K} {c : Nat} {skew : Bool} {v : List K} {z : K} (hv : r.attr c ("SetPoint" ++ plane skew) = some (.vec v)) :
    bendingErrorTerm (r.setAttr c ("SetPoint" ++ plane skew) (.vec (v.set 0 z))) c c = bendingErrorTerm r c c ∧
    combinedFunctionTerm (r.setAttr c ("SetPoint" ++ plane skew) (.vec (v.set 0 z))) c c = combinedFunctionTerm r c c ∧
    (r.setAttr c ("SetPoint" ++ plane skew) (.vec (v.set 0 z))).getStr c "PassMethod" = r.getStr c "PassMethod" := by
  have hc := Ring.attr_some_lt hv
  generalize hr : r.setAttr c ("SetPoint" ++ plane skew) (.vec (v.set 0 z)) = r1
  have hA : ∀ a, a ∉ spNames → r1.getA c a = r.getA c a := fun a ha =>
    Ring.getA_congr (by rw [← hr]; simp) (by rw [← hr, Ring.attr_setAttr_ne (ne_setPoint ha skew)])
  have hH : ∀ a, a ∉ spNames → r1.hasA c a = r.hasA c a := fun a ha =>
    Ring.hasA_congr (by rw [← hr]; simp) (by rw [← hr, Ring.attr_setAttr_ne (ne_setPoint ha skew)])
  have h1 : r1.getVecAt c "SetPointB" 1 = r.getVecAt c "SetPointB" 1 := by
    cases skew with
    | true =>
      have : r1.getA c "SetPointB" = r.getA c "SetPointB" :=
        Ring.getA_congr (by rw [← hr]; simp) (by rw [← hr, Ring.attr_setAttr_ne (by decide)])
      simp only [Ring.getVecAt, Ring.getVec, this]
    | false =>
      have e1 : r1.getVec c "SetPointB" = .ok (v.set 0 z) := Ring.getVec_eq_ok.2 (by rw [← hr]; exact Ring.attr_setAttr_same hc)
      have e2 : r.getVec c "SetPointB" = .ok v := Ring.getVec_eq_ok.2 hv
      simp only [Ring.getVecAt, e1, e2, Except.ok_bind', idx]
      rw [List.getElem?_set_ne (by decide)]
  refine ⟨?_, ?_, ?_⟩
  · simp only [bendingErrorTerm, Ring.getNum, hA _ (show "BendingAngleError" ∉ spNames by simp [spNames]),
      hH _ (show "BendingAngleError" ∉ spNames by simp [spNames]), hA _ (show "BendingAngle" ∉ spNames by simp [spNames]),
      hA _ (show "Length" ∉ spNames by simp [spNames])]
  · unfold combinedFunctionTerm
    rw [h1]
    simp only [isCombinedFunction, Ring.getVecAt, Ring.getVec, Ring.getNum, hH _ (show "BendingAngle" ∉ spNames by simp [spNames]),
      hA _ (show "BendingAngle" ∉ spNames by simp [spNames]), hA _ (show "Length" ∉ spNames by simp [spNames]),
      hH _ (show "CombinedFunction" ∉ spNames by simp [spNames]), hA _ (show "CombinedFunction" ∉ spNames by simp [spNames]),
      hA _ (show "CalErrorB" ∉ spNames by simp [spNames]), hA _ (show "NomPolynomB" ∉ spNames by simp [spNames])]
  · simp only [Ring.getStr, hA _ (show "PassMethod" ∉ spNames by simp [spNames])]

/-- a step of a corrector whose field is up to date and which follows its set-point -/
theorem moved_of_set {c : Nat} {d : K} {skew : Bool} {s t : SC K} {u : Unit} (hs : Settled s [c]) (ht : TrueCorrector s.RING c skew)
    (hn : Lim.Nonneg (kickLimit s.RING c skew)) (hw : Within (kickLimit s.RING c skew) (kick s.RING c skew + d))
    (h : setCMSetpoints [c] ⟨false, [d]⟩ skew "add" s = .ok u t) :
    Moved s.RING t.RING c skew d := by
  obtain ⟨-, hl, s1, h1, h2⟩ := setCMSetpoints_eq_ok h
  have hz : [c].zip (spread [c].length (⟨false, [d]⟩ : NpArr K).vals) = [(c, d)] := by rfl
  rw [hz, forEach_cons, bind_eq_ok] at h1
  obtain ⟨_, s1', h1, hnil⟩ := h1
  cases hnil
  dsimp only at h1
  obtain ⟨v, hv, h0, hkf, rfl⟩ := setCM1_eq_ok h1
  rw [nextKick_float hn, show asked "add" d (kick s.RING c skew) = kick s.RING c skew + d by simp [asked, add_comm],
    clip_within hn hw] at h2
  have hval : (kick s.RING c skew + d) / kickFactor s.RING c skew = coef v 0 + d / kickFactor s.RING c skew := by
    unfold kick setpoint
    rw [vecAt_of_attr hv, add_div, mul_div_assoc, div_self hkf, mul_one]
  rw [hval] at h2
  have hc := Ring.attr_some_lt hv
  obtain ⟨-, L, hL, hsL⟩ := updateMagnets_single (ht.clean "MasterOf" (by simp)) hs
  have hr : s.RING = s.RING.assign c L := congrArg SC.RING hsL
  have hclean1 : ∀ a ∈ ["PolynomAOffset", "PolynomBOffset", "SysPolAFromA", "SysPolAFromB", "SysPolBFromA", "SysPolBFromB", "MasterOf"],
      (s.RING.setAttr c ("SetPoint" ++ plane skew) (.vec (v.set 0 (coef v 0 + d / kickFactor s.RING c skew)))).attr c a = none := by
    intro a ha
    rw [Ring.attr_setAttr_ne (ne_setPoint (by
      simp only [List.mem_cons, List.not_mem_nil, or_false] at ha
      rcases ha with rfl | rfl | rfl | rfl | rfl | rfl | rfl <;> simp [spNames]) skew)]
    exact ht.clean a ha
  obtain ⟨-, L1, hL1, rfl⟩ := updateMagnets_single (hclean1 "MasterOf" (by simp)) h2
  dsimp only at hL1
  obtain ⟨p, x, vB1, y, vB, pass, l, hp, hx, hb1, hy, hb2, hpass, hl, rfl⟩ := magnetValues_plain hc ht.clean hL
  obtain ⟨p', x', vB1', y', vB', pass', l', hp', hx', hb1', hy', hb2', hpass', hl', rfl⟩ :=
    magnetValues_plain (by simpa using hc) hclean1 hL1
  obtain ⟨q1, q2, q3⟩ := polynoms_set (z := coef v 0 + d / kickFactor s.RING c skew) ht hv h0 hp
  obtain ⟨w1, w2, w3⟩ := terms_set (z := coef v 0 + d / kickFactor s.RING c skew) hv
  rw [w1, hx] at hx'; cases hx'
  rw [w2, hy] at hy'; cases hy'
  rw [w3, hpass] at hpass'; cases hpass'
  rw [q1] at hp'; cases hp'
  have hthin : thin s.RING c ↔ pass = "CorrectorPass" := by
    rw [Ring.getStr_eq_ok] at hpass
    unfold thin
    rw [hpass]
    simp
  have hkf1 : thin s.RING c → kickFactor s.RING c skew = 1 := fun h => by
    unfold thin at h; unfold kickFactor; rw [if_pos h]
  obtain ⟨a1, a2, a3, a4, a5⟩ := attr_assigned hc hl
  obtain ⟨b1, b2, b3, b4, b5⟩ := attr_assigned (r := s.RING.setAttr c ("SetPoint" ++ plane skew)
    (.vec (v.set 0 (coef v 0 + d / kickFactor s.RING c skew)))) (by simpa using hc) hl'
  rw [← hr] at a1 a2 a3 a4
  have hvB : vB' = (if skew then vB else vB.set 0 (coef vB 0 + d / kickFactor s.RING c skew)) ∧ (skew = false → 0 < vB.length) := by
    cases skew with
    | true =>
      simp only [if_true] at hb1' ⊢
      rw [hb1] at hb1'; cases hb1'
      rw [hb2] at hb2'; cases hb2'
      simp
    | false =>
      simp only [Bool.false_eq_true, if_false] at hb1' q2 q3 ⊢
      obtain ⟨m1, m2⟩ := addHead_set (z := coef v 0 + d / kickFactor s.RING c false) q3 hb1
      rw [m1] at hb1'; cases hb1'
      obtain ⟨n1, n2⟩ := addHead_set (z := coef vB1 0 + (coef v 0 + d / kickFactor s.RING c false - coef p.2 0)) (by omega) hb2
      rw [n1] at hb2'; cases hb2'
      refine ⟨?_, fun _ => by omega⟩
      congr 1
      rw [q2]; ring
  obtain ⟨hvB, hvBpos⟩ := hvB
  have hlen : vB'.length = vB.length := by rw [hvB]; split <;> simp
  refine ⟨by simp [Ring.length_assign], ?_, ?_, ?_⟩
  · cases skew with
    | true =>
      refine ⟨p.1, a1, q3, hkf, ?_⟩
      simp only [if_true] at b1 q2
      rw [q2]; exact b1
    | false =>
      refine ⟨vB, a2, hvBpos rfl, hkf, ?_⟩
      simp only [Bool.false_eq_true, if_false] at hvB
      rw [← hvB]; exact b2
  · intro hth
    obtain ⟨o1, o2, o3⟩ := a4 (hthin.1 hth)
    obtain ⟨-, -, o4⟩ := b4 (hthin.1 hth)
    refine ⟨coef vB 0, coef p.1 0, o3, ?_⟩
    dsimp only
    rw [o4]
    cases skew with
    | true =>
      simp only [if_true] at hvB q2 ⊢
      rw [hvB, coef_set _ _ _ _ o1, if_pos rfl, q2, hkf1 hth, div_one]
    | false =>
      simp only [Bool.false_eq_true, if_false] at hvB ⊢
      rw [hvB, coef_set _ _ _ _ o2, if_pos rfl, hkf1 hth, div_one]
  · intro j a hja
    dsimp only
    by_cases hj : j = c
    · subst hj
      rcases hja with hja | ⟨n1, n2, n3⟩
      · exact absurd rfl hja
      · by_cases ha : a ∈ ["PolynomA", "PolynomB", "MaxOrder"]
        · simp only [List.mem_cons, List.not_mem_nil, or_false] at ha
          rcases ha with rfl | rfl | rfl
          · rw [a1, b1]
            cases skew with
            | true => exact absurd rfl n2
            | false => simp
          · rw [a2, b2]
            cases skew with
            | true => rw [hvB]; simp
            | false => exact absurd rfl n2
          · rw [a3, b3, hlen]
        · rw [b5 _ _ (Or.inr ⟨ha, fun hp => n3 (hthin.2 hp)⟩), Ring.attr_setAttr_ne n1]
    · rw [b5 _ _ (Or.inl hj), Ring.attr_setAttr_ne' hj]

theorem eq_of_coef {v w : List K} (hl : w.length = v.length) (h : ∀ k, k < v.length → coef w k = coef v k) : w = v := by
  refine List.ext_getElem hl (fun k h1 h2 => ?_)
  have := h k h2
  simpa [coef, List.getD_eq_getElem?_getD, h1, h2] using this

theorem Spec.SameOptics.noticed {r r' : Ring K} (h : SameOptics r r') {i : Nat} {a : String} (ha : a ∉ ["T1", "T2", "R1", "R2"])
    (hn : Noticed r i a) : r.attr i a = r'.attr i a := by
  rcases h.attr i a hn with h | ⟨h, -⟩
  · exact h
  · exact absurd h ha

theorem Spec.SameOptics.pass {r r' : Ring K} (h : SameOptics r r') (i : Nat) : r.attr i "PassMethod" = r'.attr i "PassMethod" :=
  h.noticed (by simp) ⟨by simp [bookkeeping], by simp⟩

theorem Spec.SameOptics.thin {r r' : Ring K} (h : SameOptics r r') (i : Nat) : Spec.thin r i ↔ Spec.thin r' i := by
  unfold Spec.thin; rw [h.pass]

theorem Spec.SameOptics.kickFactor {r r' : Ring K} (h : SameOptics r r') (i : Nat) (skew : Bool) :
    Spec.kickFactor r i skew = Spec.kickFactor r' i skew :=
  kickFactor_congr (h.pass i) (h.noticed (by simp) ⟨by simp [bookkeeping], by simp⟩)

theorem polynom_ne (skew : Bool) {a : String} (h : a ∉ ["PolynomA", "PolynomB"]) : a ≠ "Polynom" ++ plane skew := by
  rintro rfl; cases skew <;> simp [plane] at h

theorem thin_congr {r r' : Ring K} {i : Nat} (h : r.attr i "PassMethod" = r'.attr i "PassMethod") : thin r i ↔ thin r' i := by
  unfold thin; rw [h]

/-- machine and design lattice are still the same for the beam after the corrector was changed in both -/
theorem sameOptics_kick {r t I r' : Ring K} {c : Nat} {skew : Bool} {d : K} (hs : SameOptics r I) (hk : Kicked I r' c skew d)
    (hm : Moved r t c skew d) : SameOptics t r' := by
  have hpt : ∀ i, t.attr i "PassMethod" = r.attr i "PassMethod" := fun i =>
    hm.other _ _ (Or.inr ⟨ne_setPoint (by simp [spNames]) _, polynom_ne _ (by simp), fun _ => by decide⟩)
  have hka : kickAttr I c skew ≠ "PassMethod" ∧ kickAttr I c skew ≠ "Length" := by
    unfold kickAttr; split <;> cases skew <;> simp [plane]
  have hpr : r'.attr c "PassMethod" = I.attr c "PassMethod" := hk.other _ _ (Or.inr (Ne.symm hka.1))
  have hfr : kickFactor r' c skew = kickFactor I c skew := kickFactor_congr hpr (hk.other _ _ (Or.inr (Ne.symm hka.2)))
  refine ⟨by rw [hm.len, hs.len, hk.len], fun i a hn => ?_⟩
  have hn' : Noticed r i a := ⟨hn.1, fun h => hn.2 ⟨(thin_congr (hpt i)).2 h.1, h.2⟩⟩
  have hsp : a ≠ "SetPoint" ++ plane skew := by
    rintro rfl
    apply hn.1
    cases skew <;> simp [plane, bookkeeping]
  have hrk := hk.kick
  have e1 : kickAttr r' c skew = kickAttr I c skew := by
    unfold kickAttr thin; congr 1; rw [hpr]
  have e2 : kickIndex r' c skew = kickIndex I c skew := by
    unfold kickIndex thin; congr 1; rw [hpr]
  obtain ⟨v, v', hv, hv', hvl, hvc⟩ := hk.rest
  unfold realKick at hrk
  rw [e1, e2, hfr, vecAt_of_attr hv, vecAt_of_attr hv'] at hrk
  by_cases hth : thin I c
  · have ka : kickAttr I c skew = "KickAngle" := by unfold kickAttr; rw [if_pos hth]
    have kf : kickFactor I c skew = 1 := by unfold thin at hth; unfold kickFactor; rw [if_pos hth]
    rw [ka] at hv hv'
    rw [kf, mul_one, mul_one] at hrk
    by_cases hia : i = c ∧ a = "KickAngle"
    · obtain ⟨rfl, rfl⟩ := hia
      left
      obtain ⟨x, y, k1, k2⟩ := hm.kick ((hs.thin i).2 hth)
      have := hs.noticed (by simp) hn'
      rw [k1, hv] at this
      cases this
      rw [k2, hv']
      congr 2
      symm
      cases skew with
      | true =>
        have ki : kickIndex I i true = 1 := by unfold kickIndex; rw [if_pos ⟨hth, rfl⟩]
        rw [ki] at hrk hvc
        refine eq_of_coef (by simpa using hvl) (fun k hk => ?_)
        have hk2 : k = 0 ∨ k = 1 := by simp at hk; omega
        rcases hk2 with rfl | rfl
        · rw [hvc 0 (by decide)]; simp [coef]
        · rw [hrk]; simp [coef]
      | false =>
        have ki : kickIndex I i false = 0 := by unfold kickIndex; rw [if_neg (by simp)]
        rw [ki] at hrk hvc
        refine eq_of_coef (by simpa using hvl) (fun k hk => ?_)
        have hk2 : k = 0 ∨ k = 1 := by simp at hk; omega
        rcases hk2 with rfl | rfl
        · rw [hrk]; simp [coef]
        · rw [hvc 1 (by decide)]; simp [coef]
    · have h1 : t.attr i a = r.attr i a := by
        refine hm.other _ _ ?_
        by_cases hi : i = c
        · subst hi
          refine Or.inr ⟨hsp, ?_, fun _ h => hia ⟨rfl, h⟩⟩
          rintro rfl
          refine hn'.2 ⟨(hs.thin i).2 hth, ?_⟩
          cases skew <;> simp [plane]
        · exact Or.inl hi
      have h2 : r'.attr i a = I.attr i a := by
        refine hk.other _ _ ?_
        rw [ka]
        by_cases hi : i = c
        · exact Or.inr (fun h => hia ⟨hi, h⟩)
        · exact Or.inl hi
      rw [h1, h2]
      exact hs.attr i a hn'
  · have ka : kickAttr I c skew = "Polynom" ++ plane skew := by unfold kickAttr; rw [if_neg hth]
    have ki : kickIndex I c skew = 0 := by unfold kickIndex; rw [if_neg (fun h => hth h.1)]
    rw [ka] at hv hv'
    rw [ki] at hrk hvc
    obtain ⟨w, m1, m2, m3, m4⟩ := hm.poly
    rw [hs.kickFactor] at m3 m4
    by_cases hia : i = c ∧ a = "Polynom" ++ plane skew
    · obtain ⟨rfl, rfl⟩ := hia
      left
      have := hs.noticed (by cases skew <;> simp [plane]) hn'
      rw [m1, hv] at this
      cases this
      rw [m4, hv']
      congr 2
      symm
      refine eq_of_coef (by simpa using hvl) (fun k hk => ?_)
      rw [coef_set _ _ _ _ m2]
      by_cases hk0 : k = 0
      · subst hk0
        rw [if_pos rfl]
        field_simp
        rw [hrk]
      · rw [if_neg (by simpa [eq_comm] using hk0), hvc k hk0]
    · have h1 : t.attr i a = r.attr i a := by
        refine hm.other _ _ ?_
        by_cases hi : i = c
        · subst hi
          exact Or.inr ⟨hsp, fun h => hia ⟨rfl, h⟩, fun h => absurd ((hs.thin i).1 h) hth⟩
        · exact Or.inl hi
      have h2 : r'.attr i a = I.attr i a := by
        refine hk.other _ _ ?_
        rw [ka]
        by_cases hi : i = c
        · exact Or.inr (fun h => hia ⟨hi, h⟩)
        · exact Or.inl hi
      rw [h1, h2]
      exact hs.attr i a hn'

/-! ### what faultless BPMs read -/

theorem modelPosition_eq_position (B : BeamEnv K) (mode : String) (Z0 : List K) (r : Ring K) (ref t : Nat) :
    modelPosition B mode Z0 r ref t = position B mode Z0 r ref t := rfl

theorem shotMean_same (n : Nat) (hn : n ≠ 0) (p : Option (K × K)) :
    shotMean (List.replicate n (p.map (fun m => (m, (1 : K))))) = p := by
  cases p with
  | none =>
    have : (List.replicate n (none : Option ((K × K) × K))).filterMap id = [] := by
      rw [List.filterMap_eq_nil_iff]
      intro a ha
      rw [List.eq_of_mem_replicate ha]; rfl
    simp [shotMean, this]
  | some m =>
    have : (List.replicate n (some (m, (1 : K)))).filterMap id = List.replicate n (m, 1) := by
      clear hn
      induction n with
      | zero => rfl
      | succ n ih => simp [List.replicate_succ, ih]
    have hn' : (n : K) ≠ 0 := by exact_mod_cast hn
    simp [shotMean, this, hn']

/-- the position of a single particle as a pair -/
def bothCoords (p : Option K × Option K) : Option (K × K) := p.1.bind (fun x => p.2.map (fun y => (x, y)))

theorem shot_perfect {cosSin : K → K × K} (h0 : cosSin 0 = (1, 0)) {lost : K} (hl : 0 ≤ lost) {p : Option K × Option K}
    (zx zy zs : K) : shot cosSin lost noBpmErr [p] zx zy zs = (bothCoords p).map (fun m => (m, (1 : K))) := by
  obtain ⟨x, y⟩ := p
  cases x with
  | none =>
    unfold shot
    rw [if_neg]
    · rfl
    · rintro ⟨h, -⟩; exact h (by simp [survivors])
  | some x =>
    cases y with
    | none =>
      unfold shot
      rw [if_neg]
      · rfl
      · rintro ⟨h, -⟩; exact h (by simp [survivors])
    | some y =>
      have hs : survivors [(some x, some y)] = [(x, y)] := rfl
      have hsig : signal noBpmErr [(some x, some y)] zs = 1 := by simp [signal, hs, noBpmErr]
      unfold shot
      rw [if_pos ⟨by simp [hs], by rw [hsig]; linarith⟩]
      have hsig' := hsig
      unfold noBpmErr at hsig'
      simp [shotReading, hsig', rolled, centre, hs, noBpmErr, h0, bothCoords]

/-- BPMs without errors and noise, and no particle losses in one plane only -/
structure TrueBpms (B : BeamEnv K) (s : SC K) : Prop where
  bpms : ∀ i ∈ s.ORD.BPM, ∀ noise ∈ ["Noise", "NoiseCO"], BpmAt s.RING noise i noBpmErr
  lost : 0 ≤ s.INJ.beamLostAt
  shots : 0 < s.INJ.nShots
  six : s.INJ.randomInjectionZ.length = 6
  tracking : TrueTracking B

/-- the bunch of a steady injection -/
theorem steady_bunch {B : BeamEnv K} {randn : Nat → K} {lo hi : Nat} {s : SC K} (hs : SteadyInjection B s) {Z : List (List K)}
    (h : IsBunch B randn lo hi s.INJ s.INJ.nParticles Z) : Z = [s.INJ.Z0] := by
  obtain ⟨mid, c, z, -, -, hc, hk, h⟩ := h
  have hcz : c = s.INJ.Z0 := by
    refine List.ext_getElem? (fun k => ?_)
    by_cases hk6 : k < 6
    · obtain ⟨r, z0, h1, h2, h3⟩ := hk k hk6
      have hr : r = 0 := by
        rw [hs.jitter] at h1
        exact List.eq_of_mem_replicate (List.mem_of_getElem? h1)
      rw [h3, h2, hr]; simp
    · rw [List.getElem?_eq_none (by omega), List.getElem?_eq_none (by have := hs.six; omega)]
  rcases h with ⟨-, h⟩ | ⟨h, -⟩
  · rw [h, hs.post, hcz]
  · exact absurd hs.single h

/-- the reading of faultless BPMs is the position of the beam -/
theorem trueReading {E : Env K} {B : BeamEnv K} {bpms : List Nat} {ce : Bool} {s s' : SC K} {out : Reading K} (ht : TrueBpms B s)
    (hm : s.INJ.trackMode = "ORB" ∨ (s.INJ.trackMode = "TBT" ∧ SteadyInjection B s)) (hreg : Increasing s.ORD.BPM) (hinc : Increasing bpms)
    (hsub : ∀ i ∈ bpms, i ∈ s.ORD.BPM) (h : bpmReading E B (some bpms) ce s = .ok out s') :
    out.x ++ out.y = modelTrajectory B s.INJ.trackMode s.INJ.Z0 s.INJ.nTurns bpms s.RING := by
  have hporb : s.INJ.trackMode ≠ "PORB" := by rcases hm with h | ⟨h, -⟩ <;> rw [h] <;> decide
  have hloss : ∀ Z i t, WholeLoss (seenAt B s Z i t) := by
    intro Z i t p hp hsome
    unfold seenAt at hp
    split at hp
    · rw [List.mem_singleton] at hp
      rw [hp, ← ht.tracking.wholeOrbit, ← hp]; exact hsome
    · rw [← ht.tracking.wholeTrack _ _ _ _ p hp]; exact hsome
  obtain ⟨ords, hr, ho, hn, e, Z, z, hs, mx, my, sm, hc, hout, -⟩ := bpmReading_ok ht.six hloss h
  obtain ⟨hx, hy, -⟩ := hout hporb
  have hords : ords = bpms := by
    refine increasing_ext (hreg.sublist hr.1) hinc (fun i => ?_)
    rw [hr.2 i]
    constructor
    · rintro ⟨-, h⟩; exact h bpms rfl
    · intro hi; exact ⟨hsub i hi, fun l hl => by cases hl; exact hi⟩
  subst hords
  have key : ∀ b t i, ords[b]? = some i → t < s.INJ.nTurns →
      shotMean (shotsAt B s e Z z b t i) = bothCoords (position B s.INJ.trackMode s.INJ.Z0 s.RING i t) := by
    intro b t i hb htt
    have he : e b = noBpmErr := by
      refine BpmAt_unique (hs.errors b i hb) (ht.bpms i (hsub i (List.mem_of_getElem? hb)) _ ?_)
      split <;> simp
    have hseen : ∀ k < s.INJ.nShots, seenAt B s (Z k) i t = [position B s.INJ.trackMode s.INJ.Z0 s.RING i t] := by
      intro k hk
      unfold seenAt position
      rcases hm with hm | ⟨hm, hst⟩
      · rw [if_pos hm, if_pos hm]
      · have hne : s.INJ.trackMode ≠ "ORB" := by rw [hm]; decide
        rw [if_neg hne, if_neg hne]
        obtain ⟨q, -, -, hq⟩ := hs.bunches hne
        rw [steady_bunch hst (hq k hk).2]
        obtain ⟨p, hp⟩ := ht.tracking.one s.RING s.INJ.Z0 i t
        rw [hp]; rfl
    have hall : shotsAt B s e Z z b t i = List.replicate s.INJ.nShots
        ((bothCoords (position B s.INJ.trackMode s.INJ.Z0 s.RING i t)).map (fun m => (m, (1 : K)))) := by
      rw [List.eq_replicate_iff]
      refine ⟨by simp [shotsAt], fun x hx => ?_⟩
      unfold shotsAt at hx
      obtain ⟨k, hk, rfl⟩ := List.mem_map.1 hx
      rw [hseen k (List.mem_range.1 hk), he, shot_perfect ht.tracking.level ht.lost]
    rw [hall, shotMean_same _ hn]
  have hw : ∀ i t, (position B s.INJ.trackMode s.INJ.Z0 s.RING i t).1.isSome = (position B s.INJ.trackMode s.INJ.Z0 s.RING i t).2.isSome := by
    intro i t
    unfold position
    split
    · exact ht.tracking.wholeOrbit _ _
    · obtain ⟨p, hp⟩ := ht.tracking.one s.RING s.INJ.Z0 i t
      have := ht.tracking.wholeTrack s.RING [s.INJ.Z0] i t p (by rw [hp]; simp)
      rw [hp]; exact this
  have hboth : ∀ p : Option K × Option K, p.1.isSome = p.2.isSome → (bothCoords p).map Prod.fst = p.1 ∧ (bothCoords p).map Prod.snd = p.2 := by
    rintro ⟨x, y⟩ hp
    cases x <;> cases y <;> simp_all [bothCoords]
  unfold modelTrajectory
  rw [hx, hy]
  congr 1
  · refine flatten2_congr (fun b hb t htt => ?_)
    have hbi : ords[b]? = some (ords.getD b 0) := by simp [List.getD_eq_getElem?_getD, hb]
    rw [(hc b t _ hbi htt).1, key b t _ hbi htt, (hboth _ (hw _ _)).1]
    rfl
  · refine flatten2_congr (fun b hb t htt => ?_)
    have hbi : ords[b]? = some (ords.getD b 0) := by simp [List.getD_eq_getElem?_getD, hb]
    rw [(hc b t _ hbi htt).2.1, key b t _ hbi htt, (hboth _ (hw _ _)).2]
    rfl

/-- trajectories depend on nothing but the optics -/
theorem trajectory_optics {B : BeamEnv K} (hT : TrueTracking B) {r r' : Ring K} (h : SameOptics r r') (mode : String) (Z0 : List K)
    (nt : Nat) (bpms : List Nat) : modelTrajectory B mode Z0 nt bpms r = modelTrajectory B mode Z0 nt bpms r' := by
  unfold modelTrajectory modelPosition
  rw [hT.orbit r r' h, hT.track r r' h]

theorem Spec.Faultless.bpmsTrue {B : BeamEnv K} {s : SC K} (hT : TrueTracking B) (h : Faultless s) : TrueBpms B s :=
  ⟨h.bpms, h.lost, h.shots, h.six, hT⟩

/-- BPMs stay as they are if their attributes do -/
theorem TrueBpms.keep {B : BeamEnv K} {s t : SC K} (h : TrueBpms B s) (hord : t.ORD = s.ORD) (hl : t.INJ.beamLostAt = s.INJ.beamLostAt)
    (hn : t.INJ.nShots = s.INJ.nShots) (hz : t.INJ.randomInjectionZ = s.INJ.randomInjectionZ)
    (ha : ∀ i, ∀ a ∈ ["Noise", "NoiseCO", "Offset", "SupportOffset", "Roll", "SupportRoll", "CalError", "SumError"],
      t.RING.attr i a = s.RING.attr i a) : TrueBpms B t := by
  refine ⟨fun i hi noise hno => ?_, by rw [hl]; exact h.lost, by rw [hn]; exact h.shots, by rw [hz]; exact h.six, h.tracking⟩
  rw [hord] at hi
  obtain ⟨h1, h2, h3, h4, h5⟩ := h.bpms i hi noise hno
  have hmem : noise ∈ ["Noise", "NoiseCO", "Offset", "SupportOffset", "Roll", "SupportRoll", "CalError", "SumError"] := by
    simp only [List.mem_cons, List.not_mem_nil, or_false] at hno ⊢
    tauto
  refine ⟨by rw [ha i noise hmem]; exact h1, ?_, ?_, by rw [ha i _ (by simp)]; exact h4, by rw [ha i _ (by simp)]; exact h5⟩
  · rw [ha i _ (by simp), ha i _ (by simp)]; exact h2
  · rw [ha i _ (by simp), ha i _ (by simp)]; exact h3

/-- machine and design lattice are still the same for the beam after the frequencies were changed in both -/
theorem sameOptics_detune {s t : SC K} {I r' : Ring K} {cavs : List Nat} {d : K} (hs : SameOptics s.RING I) (hd : Detuned I r' cavs d)
    (hsh : Shifted cavs "Frequency" d s t) (hreal : ∀ i ∈ cavs, Realised s.RING i)
    (hcal : ∀ i ∈ cavs, numAt s.RING i "FrequencyCalError" = 0) : SameOptics t.RING r' := by
  have hkeep : ∀ i a, a ≠ "FrequencySetPoint" → a ∉ ["Voltage", "Frequency", "TimeLag"] → t.RING.attr i a = s.RING.attr i a :=
    fun i a h1 h2 => hsh.rest.attr i a (by rintro ⟨-, h | h⟩; exacts [h1 h, h2 h])
  have hnum : ∀ i a, a ≠ "FrequencySetPoint" → a ∉ ["Voltage", "Frequency", "TimeLag"] → numAt t.RING i a = numAt s.RING i a :=
    fun i a h1 h2 => by unfold numAt; rw [hkeep i a h1 h2]
  refine ⟨by rw [hsh.rest.len, hs.len, hd.len], fun i a hn => ?_⟩
  have hn' : Noticed s.RING i a := ⟨hn.1, fun h => hn.2 ⟨(thin_congr (hkeep i _ (by decide) (by simp))).2 h.1, h.2⟩⟩
  have hsp : a ≠ "FrequencySetPoint" := by
    rintro rfl
    exact hn.1 (by simp [bookkeeping])
  by_cases hi : i ∈ cavs
  · by_cases hf : a ∈ ["Voltage", "Frequency", "TimeLag"]
    · left
      have h1 := hreal i hi a hf
      have h2 := hsh.realised i hi (hreal i hi) a hf
      have h3 := hs.noticed (by
        simp only [List.mem_cons, List.not_mem_nil, or_false] at hf
        rcases hf with rfl | rfl | rfl <;> simp) hn'
      by_cases hfr : a = "Frequency"
      · subst hfr
        obtain ⟨f, g1, g2⟩ := hd.cav i hi
        have e1 : numAt t.RING i "FrequencySetPoint" = numAt s.RING i "FrequencySetPoint" + d := hsh.setpoint i hi
        have e2 : numAt t.RING i "FrequencyCalError" = 0 := by rw [hnum i _ (by decide) (by simp)]; exact hcal i hi
        have e3 : numAt t.RING i "FrequencyOffset" = numAt s.RING i "FrequencyOffset" := hnum i _ (by decide) (by simp)
        have e4 := hcal i hi
        rw [show ("Frequency" ++ "SetPoint" : String) = "FrequencySetPoint" from rfl,
          show ("Frequency" ++ "CalError" : String) = "FrequencyCalError" from rfl,
          show ("Frequency" ++ "Offset" : String) = "FrequencyOffset" from rfl] at h1 h2
        rw [e1, e2, e3] at h2
        rw [e4] at h1
        rw [h1, g1] at h3
        cases h3
        rw [h2, g2]
        congr 2
        ring
      · have hne : ∀ part ∈ ["SetPoint", "CalError", "Offset"], a ++ part ≠ "FrequencySetPoint" ∧ a ++ part ∉ ["Voltage", "Frequency", "TimeLag"] := by
          intro part hp
          simp only [List.mem_cons, List.not_mem_nil, or_false] at hf hp
          rcases hf with rfl | rfl | rfl
          · rcases hp with rfl | rfl | rfl <;> decide
          · exact absurd rfl hfr
          · rcases hp with rfl | rfl | rfl <;> decide
        rw [hnum i _ (hne _ (by simp)).1 (hne _ (by simp)).2, hnum i _ (hne _ (by simp)).1 (hne _ (by simp)).2,
          hnum i _ (hne _ (by simp)).1 (hne _ (by simp)).2, ← h1] at h2
        rw [h2, hd.other i a (Or.inr hfr), h3]
    · rw [hkeep i a hsp hf, hd.other i a (Or.inr (by rintro rfl; simp at hf))]
      exact hs.attr i a hn'
  · rw [hsh.rest.attr i a (fun h => hi h.1), hd.other i a (Or.inl hi)]
    exact hs.attr i a hn'

theorem zipWith_diffQuot (d : K) (v w : List (Option K)) : List.zipWith (diffQuot d) v w = List.zipWith (quotient d) v w := by
  congr 1
  funext y x
  exact diffQuot_eq d y x

end PySC
