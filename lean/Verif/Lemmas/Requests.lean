import Verif.Spec.Requests
import Verif.Lemmas.HistoryDesign
import Verif.Lemmas.Restore
/-
Calls which can not fail.
-/
namespace PySC
set_option linter.unusedSectionVars false
variable {K : Type} [Field K] [LinearOrder K] [FloorRing K]
open Py Spec

/-- attributes on which the readiness of a magnet depends and which operations do not write -/
def keptNames : List String :=
  ["CalErrorA", "CalErrorB", "NomPolynomA", "NomPolynomB", "PassMethod", "BendingAngleError", "CombinedFunction", "BendingAngle", "Length",
   "MasterOf", "CMlimit", "SkewQuadLimit", "PolynomAOffset", "PolynomBOffset", "SysPolAFromA", "SysPolAFromB", "SysPolBFromA", "SysPolBFromB"]

/-- same kinds of attributes; only entries of set-point arrays differ -/
structure SameShape (r r' : Ring K) : Prop where
  len : r'.length = r.length
  kept : ∀ i, ∀ a ∈ keptNames, r'.attr i a = r.attr i a
  sp : ∀ i, ∀ ab ∈ ["A", "B"], ∀ v, r.attr i ("SetPoint" ++ ab) = some (.vec v) →
    ∃ v', r'.attr i ("SetPoint" ++ ab) = some (.vec v') ∧ v'.length = v.length

theorem SameShape.rfl' (r : Ring K) : SameShape r r := ⟨rfl, fun _ _ _ => rfl, fun _ _ _ v h => ⟨v, h, rfl⟩⟩
theorem SameShape.trans {a b c : Ring K} (h1 : SameShape a b) (h2 : SameShape b c) : SameShape a c :=
  ⟨h2.len.trans h1.len, fun i x hx => (h2.kept i x hx).trans (h1.kept i x hx), fun i ab hab v hv => by
    obtain ⟨v1, h3, h4⟩ := h1.sp i ab hab v hv
    obtain ⟨v2, h5, h6⟩ := h2.sp i ab hab v1 h3
    exact ⟨v2, h5, h6.trans h4⟩⟩

instance : PreRel (fun s s' : SC K => SameShape s.RING s'.RING) :=
  ⟨fun s => SameShape.rfl' s.RING, fun _ _ _ h1 h2 => h1.trans h2⟩

theorem arrLen_of_vec {r : Ring K} {i : Nat} {a : String} {v : List K} (h : r.attr i a = some (.vec v)) : arrLen r i a = v.length := by
  unfold arrLen; rw [h]
theorem arrLen_congr {r r' : Ring K} {i : Nat} {a : String} (h : r'.attr i a = r.attr i a) : arrLen r' i a = arrLen r i a := by
  unfold arrLen; rw [h]
theorem exists_of_arrLen {r : Ring K} {i : Nat} {a : String} (h : HasVec r i a) : ∃ v, r.attr i a = some (.vec v) ∧ arrLen r i a = v.length := by
  obtain ⟨v, hv⟩ := h; exact ⟨v, hv, arrLen_of_vec hv⟩

theorem SameShape.spVec {r r' : Ring K} (h : SameShape r r') {i : Nat} {ab : String} (hab : ab ∈ ["A", "B"])
    (hv : HasVec r i ("SetPoint" ++ ab)) : HasVec r' i ("SetPoint" ++ ab) ∧ arrLen r' i ("SetPoint" ++ ab) = arrLen r i ("SetPoint" ++ ab) := by
  obtain ⟨v, hv⟩ := hv
  obtain ⟨v', h1, h2⟩ := h.sp i ab hab v hv
  exact ⟨⟨v', h1⟩, by rw [arrLen_of_vec h1, arrLen_of_vec hv, h2]⟩

theorem combined_congr {r r' : Ring K} {i : Nat} (h1 : r'.attr i "BendingAngle" = r.attr i "BendingAngle")
    (h2 : r'.attr i "CombinedFunction" = r.attr i "CombinedFunction") : Combined r' i ↔ Combined r i := by
  unfold Combined; rw [h1, h2]
theorem bends_congr {r r' : Ring K} {i : Nat} (h1 : r'.attr i "BendingAngle" = r.attr i "BendingAngle")
    (h2 : r'.attr i "Length" = r.attr i "Length") (h3 : r'.attr i "PassMethod" = r.attr i "PassMethod") : Bends r' i ↔ Bends r i := by
  unfold Bends HasLength; rw [h1, h2, h3]

theorem SameShape.takesField {r r' : Ring K} (h : SameShape r r') {i t : Nat} (hsp : ∀ ab ∈ ["A", "B"], HasVec r i ("SetPoint" ++ ab))
    (hr : TakesField r i t) : TakesField r' i t := by
  have k : ∀ j, ∀ a ∈ keptNames, r'.attr j a = r.attr j a := h.kept
  refine ⟨h.len ▸ hr.inRing, fun ab hab => ?_, fun u hu ab hab => ?_, fun hb => ?_⟩
  · have := hr.offsets ab hab
    have e : r'.attr t ("Polynom" ++ ab ++ "Offset") = r.attr t ("Polynom" ++ ab ++ "Offset") := k _ _ (by
      simp only [List.mem_cons, List.not_mem_nil, or_false] at hab
      rcases hab with rfl | rfl <;> decide +kernel)
    unfold HasVec at this ⊢
    rwa [e]
  · have := hr.systematic u hu ab hab
    have e : r'.attr t ("SysPol" ++ u ++ "From" ++ ab) = r.attr t ("SysPol" ++ u ++ "From" ++ ab) := k _ _ (by
      simp only [List.mem_cons, List.not_mem_nil, or_false] at hab hu
      rcases hab with rfl | rfl <;> rcases hu with rfl | rfl <;> decide +kernel)
    rw [e, (h.spVec hab (hsp ab hab)).2]
    exact this
  · rw [k i "BendingAngleError" (by decide +kernel), combined_congr (k _ _ (by decide +kernel)) (k _ _ (by decide +kernel))] at hb
    rw [bends_congr (k _ _ (by decide +kernel)) (k _ _ (by decide +kernel)) (k _ _ (by decide +kernel))]
    exact hr.bends hb

theorem SameShape.magnet {r r' : Ring K} (h : SameShape r r') {i : Nat} (hr : MagnetReady r i) : MagnetReady r' i := by
  have k : ∀ j, ∀ a ∈ keptNames, r'.attr j a = r.attr j a := h.kept
  have hsp : ∀ ab ∈ ["A", "B"], HasVec r i ("SetPoint" ++ ab) := fun ab hab => (hr.setpoints ab hab).1
  have hmem : ∀ {ab : String}, ab ∈ ["A", "B"] → "CalError" ++ ab ∈ keptNames ∧ "NomPolynom" ++ ab ∈ keptNames := by
    intro ab hab
    simp only [List.mem_cons, List.not_mem_nil, or_false] at hab
    rcases hab with rfl | rfl <;> decide +kernel
  refine ⟨fun ab hab => ?_, fun ab hab => ?_, fun ab hab => ?_, ?_, ?_, ?_, fun hc => ?_, h.takesField hsp hr.self, ?_⟩
  · obtain ⟨h1, h2⟩ := h.spVec hab (hsp ab hab)
    exact ⟨h1, by rw [h2]; exact (hr.setpoints ab hab).2⟩
  · obtain ⟨h1, h2⟩ := h.spVec hab (hsp ab hab)
    have e := k i _ (hmem hab).1
    unfold HasVec
    rw [e, arrLen_congr e, h2]
    exact hr.calibrations ab hab
  · obtain ⟨h1, h2⟩ := h.spVec hab (hsp ab hab)
    have e := k i _ (hmem hab).2
    unfold HasVec
    rw [e, arrLen_congr e, h2]
    exact hr.nominal ab hab
  · rw [k i _ (by decide +kernel)]; exact hr.pass
  · rw [k i _ (by decide +kernel)]; exact hr.angleError
  · rw [k i _ (by decide +kernel)]; exact hr.flag
  · rw [combined_congr (k _ _ (by decide +kernel)) (k _ _ (by decide +kernel))] at hc
    rw [arrLen_congr (k i "CalErrorB" (by decide +kernel)), k i "NomPolynomB" (by decide +kernel)]
    exact hr.combined hc
  · rw [k i _ (by decide +kernel)]
    rcases hr.children with h1 | ⟨l, h1, h2⟩
    · exact Or.inl h1
    · exact Or.inr ⟨l, h1, fun c hc => h.takesField hsp (h2 c hc)⟩

theorem SameShape.corrector {r r' : Ring K} (h : SameShape r r') {i : Nat} {sk : Bool} (hr : CorrectorReady r i sk) : CorrectorReady r' i sk := by
  refine ⟨h.magnet hr.magnet, ?_, ?_⟩
  · unfold HasLength
    rw [h.kept i "PassMethod" (by decide +kernel), h.kept i "Length" (by decide +kernel)]; exact hr.length
  · rw [h.kept i "CMlimit" (by decide +kernel)]; exact hr.limit

theorem SameShape.component {s s' : SC K} (h : SameShape s.RING s'.RING) (ho : s'.ORD = s.ORD) {i k : Nat} {sk d : Bool}
    (hr : ComponentReady s i sk k d) : ComponentReady s' i sk k d := by
  have hab : (if sk then "A" else "B") ∈ ["A", "B"] := by cases sk <;> simp
  refine ⟨h.magnet hr.magnet, ?_, ?_, fun hd hk => ?_, fun hd hk hi hb => ?_⟩
  · rw [(h.spVec hab (hr.magnet.setpoints _ hab).1).2]; exact hr.component
  · rw [h.kept i _ (by decide +kernel)]; exact hr.limit
  · rw [h.kept i _ (by decide +kernel)]; exact hr.angle hd hk
  · rw [ho] at hi
    rw [h.kept i _ (by decide +kernel)] at hb
    obtain ⟨h1, h2, h3⟩ := hr.compensation hd hk hi hb
    refine ⟨h.corrector h1, ?_, ?_⟩
    · have := (h.spVec (ab := "B") (by simp) (hr.magnet.setpoints "B" (by simp)).1).2
      simp only [String.reduceAppend] at this
      rw [this]; exact h2
    · rw [h.kept i _ (by decide +kernel)]; exact h3

/-! ### the field can always be computed -/

theorem scaled_ok {v c : List K} (h : c.length ≤ v.length) : ∃ w, scaledSetpoints v (.vec c) = .ok w ∧ w.length = v.length := by
  have hl : (addPadded (List.replicate v.length (1 : K)) c).length = v.length := by
    rw [length_addPadded, List.length_replicate]; omega
  refine ⟨List.zipWith (· * ·) v (addPadded (List.replicate v.length 1) c), ?_, ?_⟩
  · show bmul v (addPadded (List.replicate v.length 1) c) = _
    unfold bmul; rw [if_pos hl.symm]
  · rw [List.length_zipWith, hl, min_self]

theorem Spec.MagnetReady.polynoms {r : Ring K} {i : Nat} (h : MagnetReady r i) :
    ∃ p, polynoms r i = .ok p ∧ ∀ ab ∈ ["A", "B"], (pick p ab).length = arrLen r i ("SetPoint" ++ ab) := by
  obtain ⟨vA, hA, lA⟩ := exists_of_arrLen (h.setpoints "A" (by simp)).1
  obtain ⟨vB, hB, lB⟩ := exists_of_arrLen (h.setpoints "B" (by simp)).1
  obtain ⟨cA, hcA, lcA⟩ := exists_of_arrLen (h.calibrations "A" (by simp)).1
  obtain ⟨cB, hcB, lcB⟩ := exists_of_arrLen (h.calibrations "B" (by simp)).1
  have qA := (h.calibrations "A" (by simp)).2
  have qB := (h.calibrations "B" (by simp)).2
  rw [lcA, lA] at qA
  rw [lcB, lB] at qB
  obtain ⟨wA, e1, e2⟩ := scaled_ok qA
  obtain ⟨wB, e3, e4⟩ := scaled_ok qB
  simp only [String.reduceAppend] at hA hB hcA hcB lA lB
  refine ⟨(wA, wB), ?_, fun ab hab => ?_⟩
  · simp only [PySC.polynoms, Except.bind_eq_ok', Ring.getVec_eq_ok, Ring.getA_eq_ok]
    exact ⟨vA, hA, vB, hB, _, hcA, wA, e1, _, hcB, wB, e3, rfl⟩
  · simp only [List.mem_cons, List.not_mem_nil, or_false] at hab
    rcases hab with rfl | rfl
    · simp only [pick, if_true, String.reduceAppend]; rw [e2, lA]
    · simp only [pick, String.reduceAppend]; rw [if_neg (by decide), e4, lB]

theorem addSystematic_ok {r : Ring K} {src t : Nat} (ht : t < r.length) {p : List K × List K} {u ab : String}
    (hs : r.attr t ("SysPol" ++ u ++ "From" ++ ab) = none ∨
      ∃ d, r.attr t ("SysPol" ++ u ++ "From" ++ ab) = some (.multip d) ∧ ∀ ne ∈ d, ne.1 < arrLen r src ("SetPoint" ++ ab))
    (hp : (pick p ab).length = arrLen r src ("SetPoint" ++ ab)) (v : List K) :
    ∃ w, addSystematic r t p u ab v = .ok w ∧ v.length ≤ w.length := by
  unfold addSystematic
  rw [Ring.hasA_of_lt ht]
  rcases hs with hs | ⟨d, hs, hd⟩
  · rw [hs]; exact ⟨v, rfl, le_refl _⟩
  · rw [hs]
    show ∃ w : List K, ((r.getA t ("SysPol" ++ u ++ "From" ++ ab)) >>= _) = Except.ok w ∧ v.length ≤ w.length
    rw [Ring.getA_eq_ok.2 hs]
    show ∃ w : List K, d.foldlM (fun v ne => do
      let x ← idx (pick p ab) ne.1
      Except.ok (addPadded v (List.map (fun y => x * y) ne.2))) v = Except.ok w ∧ v.length ≤ w.length
    clear hs
    induction d generalizing v with
    | nil => exact ⟨v, rfl, le_refl _⟩
    | cons ne d ih =>
      have h1 : ne.1 < (pick p ab).length := by rw [hp]; exact hd ne (by simp)
      have h2 : idx (pick p ab) ne.1 = .ok ((pick p ab)[ne.1]) := idx_eq_ok.2 (List.getElem?_eq_getElem h1)
      obtain ⟨w, h3, h4⟩ := ih (addPadded v (ne.2.map (fun y => (pick p ab)[ne.1] * y))) (fun x hx => hd x (List.mem_cons_of_mem _ hx))
      refine ⟨w, ?_, le_trans ?_ h4⟩
      · rw [List.foldlM_cons, h2]; exact h3
      · rw [length_addPadded]; exact le_max_left _ _

theorem newPolynom_ok {r : Ring K} {src t : Nat} (h : TakesField r src t) {p : List K × List K}
    (hp : ∀ ab ∈ ["A", "B"], (pick p ab).length = arrLen r src ("SetPoint" ++ ab)) {u : String} (hu : u ∈ ["A", "B"]) :
    ∃ w, newPolynom r t p u = .ok w ∧ (pick p u).length ≤ w.length := by
  unfold newPolynom
  rw [Ring.hasA_of_lt h.inRing]
  have key : ∀ v : List K, (pick p u).length ≤ v.length →
      ∃ w, (do let v ← addSystematic r t p u "A" v; addSystematic r t p u "B" v) = .ok w ∧ (pick p u).length ≤ w.length := by
    intro v hv
    obtain ⟨w1, h1, l1⟩ := addSystematic_ok h.inRing (h.systematic u hu "A" (by simp)) (hp "A" (by simp)) v
    obtain ⟨w2, h2, l2⟩ := addSystematic_ok h.inRing (h.systematic u hu "B" (by simp)) (hp "B" (by simp)) w1
    refine ⟨w2, ?_, by omega⟩
    rw [h1]; exact h2
  rcases h.offsets u hu with ho | ⟨o, ho⟩
  · rw [ho]; exact key _ (le_refl _)
  · rw [ho]
    show ∃ w : List K, (r.getA t ("Polynom" ++ u ++ "Offset") >>= _) = Except.ok w ∧ (pick p u).length ≤ w.length
    rw [Ring.getA_eq_ok.2 ho]
    exact key _ (by rw [length_addPadded]; exact le_max_left _ _)

theorem bendingErrorTerm_ok {r : Ring K} {src t : Nat} (hs : src < r.length)
    (ha : r.attr src "BendingAngleError" = none ∨ ∃ x, r.attr src "BendingAngleError" = some (.num x)) (h : TakesField r src t) :
    ∃ x, bendingErrorTerm r src t = .ok x := by
  unfold bendingErrorTerm
  rw [Ring.hasA_of_lt hs]
  rcases ha with ha | ⟨x, ha⟩
  · rw [ha]; exact ⟨none, rfl⟩
  · obtain ⟨⟨b, hb⟩, ⟨L, hL, hl⟩, -⟩ := h.bends (Or.inl (by rw [ha]; rfl))
    rw [ha]
    show ∃ x, (r.getNum src "BendingAngleError" >>= _) = .ok x
    rw [Ring.getNum_eq_ok.2 ha]
    show ∃ x, (r.getNum t "BendingAngle" >>= _) = .ok x
    rw [Ring.getNum_eq_ok.2 hb]
    show ∃ x, (r.getNum t "Length" >>= _) = .ok x
    rw [Ring.getNum_eq_ok.2 hl]
    show ∃ y, (divE (x * b) L >>= _) = .ok y
    rw [divE_eq_ok.2 ⟨hL, rfl⟩]
    exact ⟨_, rfl⟩

theorem combinedFunctionTerm_ok {r : Ring K} {src t : Nat} (h : MagnetReady r src) (ht : TakesField r src t) :
    ∃ x, combinedFunctionTerm r src t = .ok x := by
  have hs : src < r.length := h.self.inRing
  unfold combinedFunctionTerm
  rw [Ring.hasA_of_lt hs]
  cases hb : r.attr src "BendingAngle" with
  | none => exact ⟨none, rfl⟩
  | some w =>
    show ∃ x, (isCombinedFunction r src >>= _) = .ok x
    have hcf : isCombinedFunction r src = .ok (decide (r.attr src "CombinedFunction" = some (.flag true))) := by
      unfold isCombinedFunction
      rw [Ring.hasA_of_lt hs]
      rcases h.flag with hf | ⟨b, hf⟩
      · rw [hf]; rfl
      · rw [hf]
        show (r.getA src "CombinedFunction" >>= _) = _
        rw [Ring.getA_eq_ok.2 hf]
        cases b <;> rfl
    rw [hcf]
    by_cases hf : r.attr src "CombinedFunction" = some (.flag true)
    · have hc : Combined r src := ⟨by rw [hb]; rfl, hf⟩
      obtain ⟨hcal, v, x, hv, hx, hx0⟩ := h.combined hc
      obtain ⟨c, hcv, hcl⟩ := exists_of_arrLen (h.calibrations "B" (by simp)).1
      obtain ⟨sp, hsp, hspl⟩ := exists_of_arrLen (h.setpoints "B" (by simp)).1
      have q := (h.calibrations "B" (by simp)).2
      simp only [String.reduceAppend] at hcv hsp hcl hspl q
      have l1 : 1 < c.length := by omega
      have l2 : 1 < sp.length := by omega
      obtain ⟨⟨b, hb'⟩, ⟨L, hL, hl⟩, -⟩ := ht.bends (Or.inr hc)
      rw [decide_eq_true hf]
      show ∃ x, (r.getVecAt src "SetPointB" 1 >>= _) = .ok x
      rw [Ring.getVecAt_eq_ok.2 ⟨sp, hsp, List.getElem?_eq_getElem l2⟩]
      show ∃ x, (r.getVecAt src "CalErrorB" 1 >>= _) = .ok x
      rw [Ring.getVecAt_eq_ok.2 ⟨c, hcv, List.getElem?_eq_getElem l1⟩]
      show ∃ x, (r.getVecAt src "NomPolynomB" 1 >>= _) = .ok x
      rw [Ring.getVecAt_eq_ok.2 ⟨v, hv, hx⟩]
      show ∃ y, (divE _ x >>= _) = .ok y
      rw [divE_eq_ok.2 ⟨hx0, rfl⟩]
      show ∃ x, (r.getNum t "BendingAngle" >>= _) = .ok x
      rw [Ring.getNum_eq_ok.2 hb']
      show ∃ x, (r.getNum t "Length" >>= _) = .ok x
      rw [Ring.getNum_eq_ok.2 hl]
      show ∃ y, (divE _ L >>= _) = .ok y
      rw [divE_eq_ok.2 ⟨hL, rfl⟩]
      exact ⟨_, rfl⟩
    · rw [decide_eq_false hf]; exact ⟨none, rfl⟩

theorem addHead_ok {v : List K} (h : 0 < v.length) (x : Option K) : ∃ w, addHead v x = .ok w := by
  cases x with
  | none => exact ⟨v, rfl⟩
  | some x =>
    unfold addHead
    rw [idx_eq_ok.2 (List.getElem?_eq_getElem h)]
    exact ⟨_, rfl⟩

theorem magnetValues_ok {r : Ring K} {src t : Nat} (h : MagnetReady r src) (ht : TakesField r src t) : ∃ L, magnetValues r src t = .ok L := by
  obtain ⟨p, hp, hl⟩ := h.polynoms
  obtain ⟨vA, hA, lA⟩ := newPolynom_ok ht hl (u := "A") (by simp)
  obtain ⟨vB, hB, lB⟩ := newPolynom_ok ht hl (u := "B") (by simp)
  rw [hl "A" (by simp)] at lA
  rw [hl "B" (by simp)] at lB
  have pA := (h.setpoints "A" (by simp)).2
  have pB := (h.setpoints "B" (by simp)).2
  obtain ⟨x, hx⟩ := bendingErrorTerm_ok h.self.inRing h.angleError ht
  obtain ⟨y, hy⟩ := combinedFunctionTerm_ok h ht
  obtain ⟨vB1, h1⟩ := addHead_ok (v := vB) (by omega) x
  have l1 := addHead_length h1
  obtain ⟨vB2, h2⟩ := addHead_ok (v := vB1) (by omega) y
  have l2 := addHead_length h2
  obtain ⟨pass, hpass⟩ := h.pass
  have hk : ∃ k, kickValues pass vA vB2 = .ok k := by
    unfold kickValues
    split
    · rw [idx_eq_ok.2 (List.getElem?_eq_getElem (show 0 < vB2.length by omega)), Except.ok_bind',
        idx_eq_ok.2 (List.getElem?_eq_getElem (show 0 < vA.length by omega))]
      exact ⟨_, rfl⟩
    · exact ⟨_, rfl⟩
  obtain ⟨k, hk⟩ := hk
  simp only [magnetValues, Except.bind_eq_ok', Ring.getStr_eq_ok]
  exact ⟨_, p, hp, vA, hA, vB, hB, x, hx, vB1, h1, y, hy, vB2, h2, pass, hpass, k, hk, rfl⟩

theorem updateMagnets_total {l : List Nat} {s : SC K} (h : ∀ i ∈ l, MagnetReady s.RING i) : ∃ s', updateMagnets (some l) s = .ok () s' := by
  have hW : ∃ W, loopWrites magnetFamilyWrites l s.RING = .ok W := by
    refine loopWrites_progress (fun i hi => ?_)
    have hr := h i hi
    have hone : ∀ t, TakesField s.RING i t → ∃ W, oneMagnetWrites i t s.RING = .ok W := by
      intro t ht
      obtain ⟨L, hL⟩ := magnetValues_ok hr ht
      exact ⟨L.map (fun p => (t, p.1, p.2)), by simp [oneMagnetWrites, Ring.valid, ht.inRing, hL]⟩
    obtain ⟨W1, h1⟩ := hone i hr.self
    have hch : ∃ l, childrenOf s.RING i = .ok l ∧ ∀ c ∈ l, TakesField s.RING i c := by
      unfold childrenOf
      rw [Ring.hasA_of_lt hr.self.inRing]
      rcases hr.children with hm | ⟨m, hm, hc⟩
      · rw [hm]; exact ⟨[], rfl, by simp⟩
      · rw [hm]
        refine ⟨m, ?_, hc⟩
        show (s.RING.getA i "MasterOf" >>= _) = _
        rw [Ring.getA_eq_ok.2 hm]; rfl
    obtain ⟨m, hm, hc⟩ := hch
    obtain ⟨W2, h2⟩ := loopWrites_progress (g := fun c => oneMagnetWrites i c) (l := m) (r := s.RING) (fun c hcm => hone c (hc c hcm))
    exact ⟨W1 ++ W2, by simp [magnetFamilyWrites, h1, hm, h2]⟩
  obtain ⟨W, hW⟩ := hW
  exact ⟨s.write W, ((updateMagnets_writer l).ok _ _ _).2 ⟨W, hW, rfl⟩⟩

end PySC
