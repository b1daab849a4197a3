import Mathlib.Data.List.Nodup
import Verif.Lemmas.MagnetSetpoints
namespace PySC
open Py Spec
set_option linter.unusedSectionVars false
variable {K : Type _} [Field K] [LinearOrder K] [FloorRing K]

omit [FloorRing K] in
theorem updateCavities_modifies (l : Option (List Nat)) :
    Modifies (K := K) (fun i a => (i ∈ l.getD [] ∨ l = none) ∧ a ∈ rfProperties) (updateCavities l) := by
  unfold updateCavities
  refine Modifies.bind Modifies.get (fun s => Modifies.forEach (fun ind hind => Modifies.forEach (fun f hf => ?_)))
  unfold updateCavityField
  refine Modifies.bind (Modifies.rd _) (fun x => Modifies.setAttr ⟨?_, hf⟩)
  cases l
  · exact Or.inr rfl
  · exact Or.inl hind

theorem cavityRequest_eq_ok {r : Ring K} {ords : List Nat} {sp sps : NpArr K} {param : String}
    {method : String} (h : cavityRequest r ords sp param method = .ok sps) :
    (sp.vals.length = 1 ∨ sp.vals.length = ords.length) ∧ method ∈ settingMethods ∧
    (sp.isInt = true → method = "abs") ∧
    sps.vals.length = ords.length ∧ ∀ k o, ords[k]? = some o →
      sps.vals[k]? = some (asked method (valueFor sp.vals k) (numAt r o (param ++ "SetPoint"))) := by
  simp only [cavityRequest, Except.bind_eq_ok'] at h
  obtain ⟨sps0, h0, h⟩ := h
  obtain ⟨hm, hl, rfl⟩ := checkInput_eq_ok h0
  refine ⟨hl, hm, ?_⟩
  have hspread : ∀ k o, ords[k]? = some o → (spread ords.length sp.vals)[k]? = some (valueFor sp.vals k) :=
    fun k o hk => spread_getElem? hl (List.getElem?_eq_some_iff.1 hk).1
  by_cases hrel : method = "rel"
  · rw [if_pos hrel, Except.bind_eq_ok'] at h
    obtain ⟨w, hw, h⟩ := h
    obtain ⟨hi, rfl⟩ := inPlace_eq_ok h
    simp only at hi
    obtain ⟨hwl, hw⟩ := mapM_except_eq_ok hw
    refine ⟨by simp [hi], by simp [length_spread hl, hwl], fun k o hk => ?_⟩
    obtain ⟨y, hy, hwk⟩ := hw k o hk
    rw [Ring.getNum_eq_ok] at hy
    rw [List.getElem?_zipWith, hspread k o hk, hwk]
    simp only [asked, hrel, if_true]
    rw [numAt_of_attr hy]
  · by_cases hadd : method = "add"
    · rw [if_neg hrel, if_pos hadd, Except.bind_eq_ok'] at h
      obtain ⟨w, hw, h⟩ := h
      obtain ⟨hi, rfl⟩ := inPlace_eq_ok h
      simp only at hi
      obtain ⟨hwl, hw⟩ := mapM_except_eq_ok hw
      refine ⟨by simp [hi], by simp [length_spread hl, hwl], fun k o hk => ?_⟩
      obtain ⟨y, hy, hwk⟩ := hw k o hk
      rw [Ring.getNum_eq_ok] at hy
      rw [List.getElem?_zipWith, hspread k o hk, hwk]
      simp only [asked, hadd, if_true, String.reduceEq, if_false]
      rw [numAt_of_attr hy]
    · rw [if_neg hrel, if_neg hadd] at h
      simp at h; subst h
      refine ⟨fun _ => ?_, length_spread hl, fun k o hk => ?_⟩
      · simp [settingMethods, hrel, hadd] at hm; exact hm
      · rw [hspread k o hk]; simp [asked, hrel, hadd]

theorem setAttrLoop {a : String} (l : List (Nat × K)) {s s' : SC K} {u : Unit}
    (h : forEach l (fun p => setAttr p.1 a (.num p.2)) s = .ok u s') (i : Nat) :
    s'.RING.attr i a = ((l.filter (fun p => p.1 = i)).getLast?.map (fun p => Attr.num p.2)).or (s.RING.attr i a) := by
  induction l generalizing s with
  | nil => simp at h; rw [h]; simp
  | cons p l ih =>
    rw [forEach_cons, bind_eq_ok] at h
    obtain ⟨_, s1, h1, h2⟩ := h
    rw [ih h2]
    rw [setAttr_eq_ok] at h1
    obtain ⟨hlt, rfl⟩ := h1
    simp only
    by_cases hp : p.1 = i
    · rw [List.filter_cons_of_pos (by simpa using hp)]
      subst hp
      rw [Ring.attr_setAttr_same hlt]
      cases hl : l.filter (fun q => q.1 = p.1) with
      | nil => simp
      | cons q qs => simp [List.getLast?_cons_cons]; rw [List.getLast?_cons]; simp
    · rw [List.filter_cons_of_neg (by simpa using hp), Ring.attr_setAttr_ne' (Ne.symm hp)]

theorem setCavitySetpoints_eq_ok {ords : List Nat} {sp : NpArr K} {param method : String}
    {s s' : SC K} {u : Unit} (h : setCavitySetpoints ords sp param method s = .ok u s') :
    ∃ sps s1, cavityRequest s.RING ords sp param method = .ok sps ∧
      forEach (ords.zip sps.vals) (fun p => setAttr p.1 (param ++ "SetPoint") (.num p.2)) s = .ok () s1 ∧
      updateCavities (some ords) s1 = .ok () s' := by
  simp only [setCavitySetpoints, bind_eq_ok, rd_eq_ok] at h
  obtain ⟨sps, _, ⟨h1, rfl⟩, _, s1, h2, h3⟩ := h
  exact ⟨sps, s1, h1, h2, h3⟩

theorem append_setPoint_ne {p : String} : p ++ "SetPoint" ∉ rfProperties := by
  intro h
  have key : ∀ q : String, p ++ "SetPoint" = q → q.toList.getLast? = some 't' := by
    rintro q rfl; rw [String.toList_append]; simp [List.getLast?_append]
  simp only [rfProperties, List.mem_cons, List.not_mem_nil, or_false] at h
  rcases h with h | h | h
  · have := key _ h; revert this; decide
  · have := key _ h; revert this; decide
  · have := key _ h; revert this; decide

theorem setCavitySetpoints_value {ords : List Nat} {sp : NpArr K} {param method : String}
    {s s' : SC K} {u : Unit} (h : setCavitySetpoints ords sp param method s = .ok u s')
    {k o : Nat} (hk : LastAt ords k o) :
    s'.RING.attr o (param ++ "SetPoint") =
      some (.num (asked method (valueFor sp.vals k) (numAt s.RING o (param ++ "SetPoint")))) := by
  obtain ⟨sps, s1, h1, h2, h3⟩ := setCavitySetpoints_eq_ok h
  obtain ⟨-, -, -, -, hv⟩ := cavityRequest_eq_ok h1
  obtain ⟨l, hl⟩ := filter_lastAt hk (hv k o hk.1)
  rw [((updateCavities_modifies _).ok h3).attr _ _ (fun hh => append_setPoint_ne hh.2), setAttrLoop _ h2, hl]
  simp

theorem setCavitySetpoints_modifies (ords : List Nat) (sp : NpArr K) (param method : String) :
    Modifies (K := K) (fun i a => i ∈ ords ∧ (a = param ++ "SetPoint" ∨ a ∈ rfProperties))
      (setCavitySetpoints ords sp param method) := by
  unfold setCavitySetpoints
  refine Modifies.bind (Modifies.rd _) (fun sps => Modifies.bind (Modifies.forEach (fun p hp => ?_)) (fun _ => ?_))
  · exact Modifies.setAttr ⟨(List.of_mem_zip (a := p.1) (b := p.2) hp).1, Or.inl rfl⟩
  · refine Modifies.mono ?_ (updateCavities_modifies _)
    rintro i a ⟨h1 | h1, h2⟩
    · exact ⟨h1, Or.inr h2⟩
    · simp at h1

omit [FloorRing K] in
theorem mem_cavityWrites {ind : Nat} {r : Ring K} {W : Writes K} (h : cavityWrites ind r = .ok W)
    (p : Nat × String × Attr K) :
    p ∈ W ↔ ∃ f ∈ rfProperties, ∃ x, cavityField r ind f = .ok x ∧ p = (ind, f, .num x) := by
  simp only [cavityWrites, cavityFieldWrites, Except.bind_eq_ok', Except.ok.injEq] at h
  obtain ⟨W1, ⟨x1, h1, _, -, rfl⟩, W2, ⟨_, ⟨x2, h2, _, -, rfl⟩, W3, ⟨_, ⟨x3, h3, _, -, rfl⟩, _, rfl, rfl⟩, rfl⟩, rfl⟩ := h
  simp only [rfProperties, List.mem_cons, List.not_mem_nil, or_false, exists_eq_or_imp, exists_eq_left, h1, h2, h3,
    Except.ok.injEq, exists_eq_left', List.cons_append, List.nil_append]

omit [FloorRing K] in
theorem updateCavities_field {l : List Nat} {s s' : SC K} {u : Unit}
    (h : updateCavities (some l) s = .ok u s') {i : Nat} (hi : i ∈ l) {f : String} (hf : f ∈ rfProperties) :
    ∃ x, cavityField s.RING i f = .ok x ∧ s'.RING.attr i f = some (.num x) := by
  obtain ⟨W, hW, rfl⟩ := ((updateCavities_writer l).ok s u s').1 h
  obtain ⟨Wi, hWi⟩ := loopWrites_ok_of_mem hW hi
  have hx : ∃ x, cavityField s.RING i f = .ok x := by
    simp only [cavityWrites, cavityFieldWrites, Except.bind_eq_ok', Except.ok.injEq] at hWi
    obtain ⟨W1, ⟨x1, h1, -⟩, W2, ⟨_, ⟨x2, h2, -⟩, W3, ⟨_, ⟨x3, h3, -⟩, -⟩, -⟩, -⟩ := hWi
    simp only [rfProperties, List.mem_cons, List.not_mem_nil, or_false] at hf
    rcases hf with rfl | rfl | rfl
    exacts [⟨_, h1⟩, ⟨_, h2⟩, ⟨_, h3⟩]
  obtain ⟨x, hx⟩ := hx
  refine ⟨x, hx, ?_⟩
  rw [SC.write_RING, Ring.attr_write, lastWrite_unique (v := .num x)]
  · have : i < s.RING.length := by
      simp only [cavityField, Except.bind_eq_ok', Ring.getNum_eq_ok] at hx
      obtain ⟨_, h1, -⟩ := hx
      exact Ring.attr_some_lt h1
    simp [this]
  · exact (mem_loopWrites hW _).2 ⟨i, hi, Wi, hWi, (mem_cavityWrites hWi _).2 ⟨f, hf, x, hx, rfl⟩⟩
  · intro v' hv'
    obtain ⟨j, -, Wj, hWj, hp⟩ := (mem_loopWrites hW _).1 hv'
    obtain ⟨g, -, y, hy, he⟩ := (mem_cavityWrites hWj _).1 hp
    simp only [Prod.mk.injEq] at he
    obtain ⟨rfl, rfl, rfl⟩ := he
    rw [hx] at hy; cases hy; rfl

/-! ### dipole compensation -/
/-- does `_dipole_compensation` act on this magnet? -/
def Compensated (s : SC K) (o : Nat) : Prop := numAt s.RING o "BendingAngle" ≠ 0 ∧ o ∈ s.ORD.HCM
/-- the compensating kick for a new value `x` -/
def compensation (r : Ring K) (o : Nat) (x : K) : K :=
  (x - setpoint r o false 1) / coef (vecAt r o "NomPolynomB") 1 * numAt r o "BendingAngle"

open Classical in
theorem dipoleCompensation_kick {o : Nat} {x : K} {s s1 : SC K} {u : Unit} (h : dipoleCompensation o x s = .ok u s1)
    (i : Nat) :
    kick s1.RING i false = if i = o ∧ Compensated s o then
        clipped false (kickLimit s.RING i false) (compensation s.RING o x + kick s.RING i false)
      else kick s.RING i false := by
  simp only [dipoleCompensation, bind_eq_ok, rd_eq_ok] at h
  obtain ⟨ba, _, ⟨hba, hs⟩, s0, s0', h0, h⟩ := h
  simp at h0
  obtain ⟨h01, h02⟩ := h0
  subst h01 h02
  subst hs
  rename_i s0
  have hba' : numAt s0.RING o "BendingAngle" = ba := by
    simp only [bendingAngleOr0, Except.bind_eq_ok', Ring.hasA_eq_ok, Except.ite_eq_ok, Ring.getNum_eq_ok] at hba
    obtain ⟨b, ⟨-, rfl⟩, ⟨-, hba⟩ | ⟨hn, hba⟩⟩ := hba
    · exact numAt_of_attr hba
    · simp at hn hba; simp [numAt, hn, hba]
  by_cases hc : Compensated s0 o
  · have : (decide (ba ≠ 0) && decide (o ∈ s0.ORD.HCM)) = true := by
      simp [← hba', hc.1, hc.2]
    rw [this, when_true] at h
    simp only [bind_eq_ok, rd_eq_ok] at h
    obtain ⟨kk, _, ⟨hkk, hs2⟩, h⟩ := h
    rw [hs2] at h
    have hkk' : kk = compensation s0.RING o x := by
      simp only [compensatingKick, Except.bind_eq_ok', Ring.getVecAt_eq_ok, divE_eq_ok, Ring.getNum_eq_ok] at hkk
      obtain ⟨b1, ⟨v, hv, hv1⟩, n1, ⟨w, hw, hw1⟩, q, ⟨-, rfl⟩, ba2, hba2, hkk⟩ := hkk
      simp at hkk
      simp only [compensation, setpoint_of_attr (skew := false) hv, coef_of_getElem? hv1, vecAt_of_attr hw,
        coef_of_getElem? hw1, numAt_of_attr hba2, hkk]
    rw [setCMSetpoints_kick h]
    by_cases hi : i = o
    · subst hi
      rw [if_pos ⟨rfl, hc⟩]
      simp [spread, nextKick, requested, store, hkk']
    · rw [if_neg (fun hh => hi hh.1)]
      simp [spread, Ne.symm hi]
  · have : (decide (ba ≠ 0) && decide (o ∈ s0.ORD.HCM)) = false := by
      rw [Bool.and_eq_false_iff]
      by_contra hcon
      push Not at hcon
      apply hc
      simp at hcon
      exact ⟨by rw [hba']; exact hcon.1, hcon.2⟩
    rw [this] at h
    simp at h
    rw [← h, if_neg (fun hh => hc hh.2)]

theorem compensation_congr {r r' : Ring K} {o : Nat} {x : K} (h1 : r'.attr o "SetPointB" = r.attr o "SetPointB")
    (h2 : r'.attr o "NomPolynomB" = r.attr o "NomPolynomB") (h3 : r'.attr o "BendingAngle" = r.attr o "BendingAngle") :
    compensation r' o x = compensation r o x := by
  unfold compensation
  rw [setpoint_congr (skew := false) (r' := r') (r := r) h1]
  simp only [vecAt, numAt, h2, h3]

open Classical in
theorem setMagnet1_kick {isInt : Bool} {o : Nat} {x : K} {s s' : SC K} {u : Unit}
    (h : setMagnet1 false 1 isInt true o x s = .ok u s') (i : Nat) :
    kick s'.RING i false = if i = o ∧ Compensated s o then
        clipped false (kickLimit s.RING i false) (compensation s.RING o x + kick s.RING i false)
      else kick s.RING i false := by
  obtain ⟨s1, v, h1, hv, hl, rfl⟩ := setMagnet1_eq_ok h
  simp only [Bool.false_eq_true, false_and, if_false, decide_true, Bool.and_self, when_true] at h1 ⊢
  rw [← dipoleCompensation_kick h1 i]
  by_cases hi : i = o
  · subst hi
    have hlt := Ring.attr_some_lt hv
    unfold kick
    rw [setpoint_of_attr (Ring.attr_setAttr_same hlt), setpoint_of_attr hv, coef_set _ _ _ _ hl, if_neg (by decide),
      kickFactor_congr (Ring.attr_setAttr_ne (by simp [plane])) (Ring.attr_setAttr_ne (by simp [plane]))]
  · exact kick_congr (Ring.attr_setAttr_ne' hi) (Ring.attr_setAttr_ne' hi) (Ring.attr_setAttr_ne' hi)

theorem setMagnet1_same {skew isInt dipComp : Bool} {order o : Nat} {x : K} {s s' : SC K} {u : Unit}
    (h : setMagnet1 skew order isInt dipComp o x s = .ok u s') {i : Nat} (hi : i ≠ o) {a : String}
    (ha : a ∉ magnetWrites) : s'.RING.attr i a = s.RING.attr i a :=
  (setMagnet1_modifies.ok h).attr _ _ (by rintro (⟨h, -⟩ | ⟨-, h⟩); exacts [hi h, ha h])

open Classical in
theorem setMagnetLoop_kick {isInt : Bool} (l : List (Nat × K)) {s s' : SC K} {u : Unit}
    (h : forEach l (fun p => setMagnet1 false 1 isInt true p.1 p.2) s = .ok u s')
    (hnd : (l.map Prod.fst).Nodup) (o : Nat) :
    (o ∉ l.map Prod.fst → kick s'.RING o false = kick s.RING o false) ∧
    ∀ x, (o, x) ∈ l → kick s'.RING o false = if Compensated s o then
        clipped false (kickLimit s.RING o false) (compensation s.RING o x + kick s.RING o false)
      else kick s.RING o false := by
  induction l generalizing s with
  | nil => simp at h; rw [h]; simp
  | cons p l ih =>
    rw [forEach_cons, bind_eq_ok] at h
    obtain ⟨_, s1, h1, h2⟩ := h
    simp only [List.map_cons, List.nodup_cons] at hnd
    obtain ⟨ih1, ih2⟩ := ih h2 hnd.2
    refine ⟨fun hno => ?_, fun x hx => ?_⟩
    · simp only [List.map_cons, List.mem_cons, not_or] at hno
      rw [ih1 hno.2, setMagnet1_kick h1, if_neg (fun hh => hno.1 hh.1)]
    · by_cases hpo : o = p.1
      · have : p = (o, x) := by
          rcases List.mem_cons.1 hx with hx | hx
          · exact hx.symm
          · exact absurd (List.mem_map_of_mem (f := Prod.fst) hx) (by simpa [hpo] using hnd.1)
        subst this
        rw [ih1 hnd.1, setMagnet1_kick h1]
        simp
      · have hx : (o, x) ∈ l := by
          rcases List.mem_cons.1 hx with hx | hx
          · exact absurd (by rw [← hx]) hpo
          · exact hx
        have same : ∀ a, a ∉ magnetWrites → s1.RING.attr o a = s.RING.attr o a :=
          fun a ha => setMagnet1_same h1 hpo ha
        have e1 : kick s1.RING o false = kick s.RING o false :=
          kick_congr (same _ (by simp [plane, magnetWrites])) (same _ (by simp [magnetWrites]))
            (same _ (by simp [magnetWrites]))
        have e2 : kickLimit s1.RING o false = kickLimit s.RING o false :=
          kickLimit_congr (same _ (by simp [magnetWrites]))
        have e3 : compensation s1.RING o x = compensation s.RING o x :=
          compensation_congr (same _ (by simp [magnetWrites])) (same _ (by simp [magnetWrites]))
            (same _ (by simp [magnetWrites]))
        have e4 : Compensated s1 o ↔ Compensated s o := by
          unfold Compensated
          have : numAt s1.RING o "BendingAngle" = numAt s.RING o "BendingAngle" := by
            simp only [numAt, same "BendingAngle" (by simp [magnetWrites])]
          rw [this, (setMagnet1_modifies.ok h1).ord]
        rw [ih2 x hx, e1, e2, e3]
        simp only [e4]

open Classical in
theorem setMagnetSetpoints_kick {ords : List Nat} {sp : NpArr K} {method : String} {s s' : SC K} {u : Unit}
    (h : setMagnetSetpoints ords sp false 1 method true s = .ok u s') (hnd : ords.Nodup) {k o : Nat}
    (hk : ords[k]? = some o) :
    kick s'.RING o false = if Compensated s o then
        clipped false (kickLimit s.RING o false)
          (compensation s.RING o (setpoint s'.RING o false 1) + kick s.RING o false)
      else kick s.RING o false := by
  have hlast : LastAt ords k o := by
    refine ⟨hk, fun j hj hjo => ?_⟩
    obtain ⟨h1, h1'⟩ := List.getElem?_eq_some_iff.1 hk
    obtain ⟨h2, h2'⟩ := List.getElem?_eq_some_iff.1 hjo
    have := (List.Nodup.getElem_inj_iff hnd (hi := h1) (hj := h2)).1 (h1'.trans h2'.symm)
    omega
  have hsp := setMagnetSetpoints_setpoint h hlast
  simp only [Bool.false_eq_true, false_and, if_false] at hsp
  obtain ⟨sps, s1, h1, h2, h3⟩ := setMagnetSetpoints_eq_ok h
  obtain ⟨-, -, -, -, hlen, hv⟩ := magnetRequest_eq_ok h1
  have e : kick s'.RING o false = kick s1.RING o false := by
    have := updateMagnets_kick (some ords) s1 o false
    rw [h3] at this; exact this
  have hmem : (o, magnetAsked s.RING o false 1 method (valueFor sp.vals k)) ∈ ords.zip sps.vals := by
    refine List.mem_iff_getElem?.2 ⟨k, ?_⟩
    rw [List.getElem?_zip_eq_some]
    exact ⟨hk, hv k o hk⟩
  rw [e, (setMagnetLoop_kick _ h2 (by rw [List.map_fst_zip (by rw [hlen])]; exact hnd) o).2 _ hmem, hsp]

/-- replacing the body of a loop by one that agrees along an invariant -/
theorem forEach_congr_inv {σ α : Type _} {l : List α} {f g : α → Py σ Unit} {I : σ → Prop}
    (h : ∀ x ∈ l, ∀ s, I s → f x s = g x s ∧ I (f x s).state) {s : σ} (hs : I s) : forEach l f s = forEach l g s := by
  induction l generalizing s with
  | nil => rfl
  | cons x l ih =>
    rw [forEach_cons, forEach_cons, bind_apply, bind_apply]
    obtain ⟨h1, h2⟩ := h x (by simp) s hs
    rw [← h1]
    cases hf : f x s with
    | error e s' => rfl
    | ok u s' =>
      rw [hf] at h2
      exact ih (fun y hy => h y (by simp [hy])) h2

end PySC
