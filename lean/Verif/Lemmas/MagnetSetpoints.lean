import Verif.Lemmas.Correctors
namespace PySC
open Spec
set_option linter.unusedSectionVars false
variable {K : Type _} [Field K] [LinearOrder K] [FloorRing K]
open Py

theorem setpoint_of_attr {r : Ring K} {i : Nat} {skew : Bool} {v : List K} {k : Nat}
    (h : r.attr i ("SetPoint" ++ plane skew) = some (.vec v)) : setpoint r i skew k = coef v k := by
  unfold setpoint; rw [vecAt_of_attr h]

/-- limit and stored value for a skew request in the model -/
def skewClipped (isInt : Bool) (l : Lim K) (x : K) : K :=
  match l with
  | .inf => x
  | .fin l => if l < |x| then store isInt (npSign x * l) else x

theorem clipSkew_eq_ok {r : Ring K} {o : Nat} {skew isInt : Bool} {order : Nat} {x y : K}
    (h : clipSkew r o skew order isInt x = .ok y) :
    y = if skew = true ∧ order = 1 then skewClipped isInt (skewLimit r o) x else x := by
  unfold clipSkew at h
  by_cases hc : skew = true ∧ order = 1
  · simp only [hc.1, hc.2, decide_true, Bool.and_self, if_true, Except.bind_eq_ok', Ring.hasA_eq_ok,
      Except.ite_eq_ok, Ring.getA_eq_ok] at h
    rw [if_pos hc]
    obtain ⟨b, ⟨-, rfl⟩, ⟨-, v, hv, l, hl, h⟩ | ⟨hno, h⟩⟩ := h
    · have : skewLimit r o = l := by
        cases v <;> simp [Attr.toLim] at hl <;> simp [skewLimit, hv, hl]
      rw [this]
      cases l <;> simp at h <;> simp [skewClipped, ← h]
    · simp at hno h; subst h; simp [skewLimit, hno, skewClipped]
  · rw [if_neg hc]
    have : (skew && decide (order = 1)) = false := by
      cases skew <;> simp at hc ⊢; exact hc
    rw [this] at h
    simpa [eq_comm] using h

/-- attribute written by `set_magnet_setpoints` besides the realised fields -/
def magSP (skew dipComp : Bool) (a : String) : Prop :=
  a = "SetPoint" ++ plane skew ∨ (dipComp = true ∧ a = "SetPointB")

theorem dipoleCompensation_modifies {o : Nat} {x : K} :
    Modifies (K := K) (fun i a => (i = o ∧ a = "SetPointB") ∨ a ∈ magnetWrites) (dipoleCompensation o x) := by
  unfold dipoleCompensation
  refine Modifies.bind (Modifies.rd _) (fun ba => Modifies.bind Modifies.get (fun s => Modifies.when
    (Modifies.bind (Modifies.rd _) (fun k => Modifies.mono ?_ (setCMSetpoints_modifies _ _ _ _)))))
  rintro i a (⟨h1, h2⟩ | h)
  · left; exact ⟨by simpa using h1, h2⟩
  · exact Or.inr h

theorem setMagnet1_modifies {skew isInt dipComp : Bool} {order o : Nat} {x : K} :
    Modifies (K := K) (fun i a => (i = o ∧ magSP skew dipComp a) ∨ (dipComp = true ∧ a ∈ magnetWrites))
      (setMagnet1 skew order isInt dipComp o x) := by
  unfold setMagnet1
  refine Modifies.bind (Modifies.rd _) (fun sp => Modifies.bind ?_ (fun _ => Modifies.bind (Modifies.rd _)
    (fun v => Modifies.setAttr (Or.inl ⟨rfl, Or.inl rfl⟩))))
  cases dipComp
  · exact Modifies.pure' ()
  · refine Modifies.when (Modifies.mono ?_ dipoleCompensation_modifies)
    rintro i a (⟨h1, h2⟩ | h)
    · left; exact ⟨h1, Or.inr ⟨rfl, h2⟩⟩
    · right; exact ⟨rfl, h⟩

/-- the compensation does not touch the quadrupole component -/
theorem setCMSetpoints_setpoint {ords : List Nat} {sp : NpArr K} {skew : Bool} {method : String} (s : SC K)
    (i : Nat) (sk : Bool) (k : Nat) (hk : k ≠ 0) :
    setpoint (setCMSetpoints ords sp skew method s).state.RING i sk k = setpoint s.RING i sk k := by
  have key : Rel (fun s s' : SC K => setpoint s'.RING i sk k = setpoint s.RING i sk k)
      (setCMSetpoints ords sp skew method) := by
    have hr : ∀ s : SC K, setpoint s.RING i sk k = setpoint s.RING i sk k := fun _ => rfl
    have ht : ∀ a b c : SC K, setpoint b.RING i sk k = setpoint a.RING i sk k →
        setpoint c.RING i sk k = setpoint b.RING i sk k → setpoint c.RING i sk k = setpoint a.RING i sk k :=
      fun _ _ _ h1 h2 => h2.trans h1
    unfold setCMSetpoints
    refine Rel.bind ht (Rel.lift hr _) (fun sps => Rel.bind ht (Rel.forEach hr ht (fun p _ => ?_)) (fun _ => ?_))
    · intro s
      have hf := setCM1_modifies (skew := skew) (isInt := sps.isInt) (method := method) (o := p.1) (x := p.2) s
      cases h : setCM1 skew method sps.isInt p.1 p.2 s with
      | error e s' =>
        have : s' = s := by
          simp only [setCM1, bind_eq_error, rd_eq_error, rd_eq_ok, setAttr] at h
          rcases h with ⟨-, h⟩ | ⟨v, s1, ⟨-, rfl⟩, ⟨-, h⟩ | ⟨e', s2, ⟨-, rfl⟩, h⟩⟩
          · exact h
          · exact h
          · simp at h
        rw [this]; rfl
      | ok u s' =>
        obtain ⟨v, hv, hl, hn, rfl⟩ := setCM1_eq_ok h
        show setpoint (s.RING.setAttr _ _ _) i sk k = _
        by_cases hc : i = p.1 ∧ sk = skew
        · obtain ⟨rfl, rfl⟩ := hc
          rw [setpoint_of_attr (Ring.attr_setAttr_same (Ring.attr_some_lt hv)), setpoint_of_attr hv,
            coef_set _ _ _ _ hl, if_neg hk]
        · refine setpoint_congr ?_
          rw [Ring.attr_setAttr, if_neg]
          rintro ⟨h1, h2⟩; exact hc ⟨h1, plane_inj.1 h2⟩
    · intro s
      exact setpoint_congr (updateMagnets_keeps (by cases sk <;> simp [plane, magnetWrites]))
  exact key s

theorem dipoleCompensation_setpoint {o : Nat} {x : K} (s : SC K) (i : Nat) (sk : Bool) (k : Nat) (hk : k ≠ 0) :
    setpoint (dipoleCompensation o x s).state.RING i sk k = setpoint s.RING i sk k := by
  unfold dipoleCompensation
  rw [bind_apply]
  cases h : rd (fun r => bendingAngleOr0 r o) s with
  | error e s' => rw [rd_eq_error] at h; rw [h.2]; rfl
  | ok ba s' =>
    rw [rd_eq_ok] at h; obtain ⟨-, rfl⟩ := h
    simp only
    rw [bind_apply, get_apply]
    simp only
    cases hc : (decide (ba ≠ 0) && decide (o ∈ s'.ORD.HCM))
    · rfl
    · simp only [when_true]
      rw [bind_apply]
      cases h : rd (fun r => compensatingKick r o x) s' with
      | error e s'' => rw [rd_eq_error] at h; rw [h.2]; rfl
      | ok kk s'' =>
        rw [rd_eq_ok] at h; obtain ⟨-, rfl⟩ := h
        exact setCMSetpoints_setpoint _ _ _ _ hk

theorem setMagnet1_eq_ok {skew isInt dipComp : Bool} {order o : Nat} {x : K} {s s' : SC K} {u : Unit}
    (h : setMagnet1 skew order isInt dipComp o x s = .ok u s') :
    ∃ s1 v, when (dipComp && decide (order = 1)) (dipoleCompensation o
        (if skew = true ∧ order = 1 then skewClipped isInt (skewLimit s.RING o) x else x)) s = .ok () s1 ∧
      s1.RING.attr o ("SetPoint" ++ plane skew) = some (.vec v) ∧ order < v.length ∧
      s' = { s1 with RING := s1.RING.setAttr o ("SetPoint" ++ plane skew) (.vec (v.set order
        (if skew = true ∧ order = 1 then skewClipped isInt (skewLimit s.RING o) x else x))) } := by
  simp only [setMagnet1, bind_eq_ok, rd_eq_ok, newSetpoint, Except.bind_eq_ok', Ring.getVec_eq_ok, idx_eq_ok,
    setAttr_eq_ok] at h
  obtain ⟨sp, _, ⟨hsp, rfl⟩, _, s1, hs1, w, _, ⟨⟨v, hv, x0, hx0, hw⟩, rfl⟩, -, rfl⟩ := h
  simp at hw; subst hw
  rw [clipSkew_eq_ok hsp] at hs1 ⊢
  exact ⟨_, v, hs1, hv, (List.getElem?_eq_some_iff.1 hx0).1, rfl⟩

theorem skewLimit_congr {r r' : Ring K} {i : Nat} (h : r'.attr i "SkewQuadLimit" = r.attr i "SkewQuadLimit") :
    skewLimit r' i = skewLimit r i := by simp [skewLimit, h]

/-- effect of one iteration on the addressed component -/
theorem setMagnet1_setpoint {skew isInt dipComp : Bool} {order o : Nat} {x : K} {s s' : SC K} {u : Unit}
    (h : setMagnet1 skew order isInt dipComp o x s = .ok u s') (i : Nat) (sk : Bool) (k : Nat)
    (hk : k ≠ 0 ∨ dipComp = false ∨ order ≠ 1) :
    setpoint s'.RING i sk k = if i = o ∧ sk = skew ∧ k = order then
        (if skew = true ∧ order = 1 then skewClipped isInt (skewLimit s.RING i) x else x)
      else setpoint s.RING i sk k := by
  obtain ⟨s1, v, h1, hv, hl, rfl⟩ := setMagnet1_eq_ok h
  have e1 : setpoint s1.RING i sk k = setpoint s.RING i sk k := by
    rcases hk with hk | hk | hk
    · cases hc : (dipComp && decide (order = 1))
      · rw [hc] at h1; simp at h1; rw [h1]
      · rw [hc] at h1
        have := dipoleCompensation_setpoint (o := o)
          (x := if skew = true ∧ order = 1 then skewClipped isInt (skewLimit s.RING o) x else x) s i sk k hk
        rw [when_true] at h1
        rw [h1] at this; exact this
    · rw [hk] at h1; simp at h1; rw [h1]
    · simp [hk] at h1; rw [h1]
  show setpoint (s1.RING.setAttr _ _ _) i sk k = _
  by_cases hc : i = o ∧ sk = skew ∧ k = order
  · rw [if_pos hc]
    obtain ⟨rfl, rfl, rfl⟩ := hc
    rw [setpoint_of_attr (Ring.attr_setAttr_same (Ring.attr_some_lt hv)), coef_set _ _ _ _ hl, if_pos rfl]
  · rw [if_neg hc, ← e1]
    by_cases hc2 : i = o ∧ sk = skew
    · obtain ⟨rfl, rfl⟩ := hc2
      rw [setpoint_of_attr (Ring.attr_setAttr_same (Ring.attr_some_lt hv)), setpoint_of_attr hv,
        coef_set _ _ _ _ hl, if_neg]
      intro h; exact hc ⟨rfl, rfl, h⟩
    · refine setpoint_congr ?_
      rw [Ring.attr_setAttr, if_neg]
      rintro ⟨h1, h2⟩; exact hc2 ⟨h1, plane_inj.1 h2⟩

theorem magSP_ne {skew dipComp : Bool} {a : String} (ha : a ∉ spNames) : ¬ magSP skew dipComp a := by
  rintro (rfl | ⟨-, rfl⟩)
  · exact ha (plane_mem skew)
  · exact ha (by simp [spNames])

theorem setMagnet1_skewLimit {skew isInt dipComp : Bool} {order o : Nat} {x : K} (s : SC K) (i : Nat) :
    skewLimit (setMagnet1 skew order isInt dipComp o x s).state.RING i = skewLimit s.RING i :=
  skewLimit_congr ((setMagnet1_modifies s).attr _ _ (by
    rintro (⟨-, h⟩ | ⟨-, h⟩)
    · exact magSP_ne (by simp [spNames]) h
    · simp [magnetWrites] at h))

/-- the loop of `set_magnet_setpoints` on one component of one magnet -/
theorem setMagnetLoop_setpoint {skew isInt dipComp : Bool} {order : Nat} (l : List (Nat × K)) {s s' : SC K} {u : Unit}
    (h : forEach l (fun p => setMagnet1 skew order isInt dipComp p.1 p.2) s = .ok u s') (i : Nat) (sk : Bool) (k : Nat)
    (hk : k ≠ 0 ∨ dipComp = false ∨ order ≠ 1) :
    setpoint s'.RING i sk k = if sk = skew ∧ k = order then
        (l.filter (fun p => p.1 = i)).foldl (fun _ p =>
          (if skew = true ∧ order = 1 then skewClipped isInt (skewLimit s.RING i) p.2 else p.2)) (setpoint s.RING i sk k)
      else setpoint s.RING i sk k := by
  induction l generalizing s with
  | nil => simp at h; rw [h]; simp
  | cons p l ih =>
    rw [forEach_cons, bind_eq_ok] at h
    obtain ⟨_, s1, h1, h2⟩ := h
    rw [ih h2]
    have hlim : skewLimit s1.RING i = skewLimit s.RING i := by
      have := setMagnet1_skewLimit (skew := skew) (isInt := isInt) (dipComp := dipComp) (order := order) (o := p.1)
        (x := p.2) s i
      rw [h1] at this; exact this
    rw [hlim, setMagnet1_setpoint h1 i sk k hk]
    by_cases hc : sk = skew ∧ k = order
    · rw [if_pos hc, if_pos hc]
      by_cases hp : p.1 = i
      · simp [hp, hc]
      · simp [hp, Ne.symm hp]
    · rw [if_neg hc, if_neg hc, if_neg (fun hh => hc hh.2)]

theorem inPlace_eq_ok {op : K → K → K} {sp sps : NpArr K} {w : List K} (h : inPlace op sp w = .ok sps) :
    sp.isInt = false ∧ sps = ⟨false, List.zipWith op sp.vals w⟩ := by
  unfold inPlace at h
  split at h
  · simp at h
  · rename_i hh; simp at h hh; exact ⟨hh, h.symm⟩

theorem mapM_except_eq_ok {α β : Type _} {f : α → Except Err β} {l : List α} {w : List β}
    (h : l.mapM f = .ok w) : w.length = l.length ∧ ∀ (k : Nat) x, l[k]? = some x → ∃ y, f x = .ok y ∧ w[k]? = some y := by
  induction l generalizing w with
  | nil => simp [pure, Except.pure] at h; subst h; simp
  | cons x xs ih =>
    rw [List.mapM_cons, Except.bind_eq_ok'] at h
    obtain ⟨y, hy, h⟩ := h
    rw [Except.bind_eq_ok'] at h
    obtain ⟨ys, hys, h⟩ := h
    simp [pure, Except.pure] at h; subst h
    obtain ⟨h1, h2⟩ := ih hys
    refine ⟨by simp [h1], fun k z hk => ?_⟩
    cases k with
    | zero => simp at hk; subst hk; exact ⟨y, hy, by simp⟩
    | succ k => simp at hk; obtain ⟨y', h3, h4⟩ := h2 k z hk; exact ⟨y', h3, by simpa using h4⟩

/-- the values requested for the individual ordinates -/
theorem magnetRequest_eq_ok {r : Ring K} {ords : List Nat} {sp sps : NpArr K} {skew : Bool} {order : Nat}
    {method : String} (h : magnetRequest r ords sp skew order method = .ok sps) :
    (sp.vals.length = 1 ∨ sp.vals.length = ords.length) ∧ method ∈ settingMethods ∧ sps.isInt = sp.isInt ∧
    (sp.isInt = true → method = "abs") ∧
    sps.vals.length = ords.length ∧ ∀ k o, ords[k]? = some o →
      sps.vals[k]? = some (magnetAsked r o skew order method (valueFor sp.vals k)) := by
  simp only [magnetRequest, Except.bind_eq_ok'] at h
  obtain ⟨sps0, h0, h⟩ := h
  obtain ⟨hm, hl, rfl⟩ := checkInput_eq_ok h0
  refine ⟨hl, hm, ?_⟩
  have hspread : ∀ k o, ords[k]? = some o → (spread ords.length sp.vals)[k]? = some (valueFor sp.vals k) :=
    fun k o hk => spread_getElem? hl (List.getElem?_eq_some_iff.1 hk).1
  by_cases hrel : method = "rel"
  · rw [if_pos hrel, Except.bind_eq_ok'] at h
    obtain ⟨w, hw, h⟩ := h
    obtain ⟨hi, rfl⟩ := inPlace_eq_ok h
    simp only at hi
    obtain ⟨hwl, hw⟩ := mapM_except_eq_ok hw
    refine ⟨hi.symm, by simp [hi], by simp [length_spread hl, hwl], fun k o hk => ?_⟩
    obtain ⟨y, hy, hwk⟩ := hw k o hk
    rw [Ring.getVecAt_eq_ok] at hy
    obtain ⟨v, hv, hvk⟩ := hy
    rw [List.getElem?_zipWith, hspread k o hk, hwk]
    simp only [magnetAsked, asked, hrel, if_true]
    rw [plane_eq_letter, vecAt_of_attr hv, coef_of_getElem? hvk]
  · by_cases hadd : method = "add"
    · rw [if_neg hrel, if_pos hadd, Except.bind_eq_ok'] at h
      obtain ⟨w, hw, h⟩ := h
      obtain ⟨hi, rfl⟩ := inPlace_eq_ok h
      simp only at hi
      obtain ⟨hwl, hw⟩ := mapM_except_eq_ok hw
      refine ⟨hi.symm, by simp [hi], by simp [length_spread hl, hwl], fun k o hk => ?_⟩
      obtain ⟨y, hy, hwk⟩ := hw k o hk
      rw [Ring.getVecAt_eq_ok] at hy
      obtain ⟨v, hv, hvk⟩ := hy
      rw [List.getElem?_zipWith, hspread k o hk, hwk]
      simp only [magnetAsked, asked, hadd, if_true]
      simp only [String.reduceEq, if_false]
      rw [setpoint_of_attr (v := v) hv, coef_of_getElem? hvk]
    · rw [if_neg hrel, if_neg hadd] at h
      simp at h; subst h
      refine ⟨rfl, fun _ => ?_, length_spread hl, fun k o hk => ?_⟩
      · simp [settingMethods, hrel, hadd] at hm; exact hm
      · rw [hspread k o hk]; simp [magnetAsked, asked, hrel, hadd]

theorem setMagnetSetpoints_eq_ok {ords : List Nat} {sp : NpArr K} {skew dipComp : Bool} {order : Nat} {method : String}
    {s s' : SC K} {u : Unit} (h : setMagnetSetpoints ords sp skew order method dipComp s = .ok u s') :
    ∃ sps s1, magnetRequest s.RING ords sp skew order method = .ok sps ∧
      forEach (ords.zip sps.vals) (fun p => setMagnet1 skew order sps.isInt dipComp p.1 p.2) s = .ok () s1 ∧
      updateMagnets (some ords) s1 = .ok () s' := by
  simp only [setMagnetSetpoints, bind_eq_ok, rd_eq_ok] at h
  obtain ⟨sps, _, ⟨h1, rfl⟩, _, s1, h2, h3⟩ := h
  exact ⟨sps, s1, h1, h2, h3⟩

/-- a list of pairs seen from the last occurrence of a key -/
theorem filter_lastAt {ords : List Nat} {vals : List K} {k o : Nat} {x : K} (hk : LastAt ords k o)
    (hx : vals[k]? = some x) : ∃ l, (ords.zip vals).filter (fun p => p.1 = o) = l ++ [(o, x)] := by
  induction ords generalizing vals k with
  | nil => simp [LastAt] at hk
  | cons a ords ih =>
    cases vals with
    | nil => simp at hx
    | cons y vals =>
      cases k with
      | zero =>
        obtain ⟨h1, h2⟩ := hk
        simp at h1 hx; subst h1 hx
        refine ⟨[], ?_⟩
        have : (ords.zip vals).filter (fun p => p.1 = a) = [] := by
          apply filter_fst_nil
          intro hm
          obtain ⟨q, hq, hqa⟩ := List.mem_map.1 hm
          obtain ⟨j, hj⟩ := List.mem_iff_getElem?.1 (List.of_mem_zip (a := q.1) (b := q.2) hq).1
          exact h2 (j + 1) (by omega) (by simpa [hqa] using hj)
        simp [this]
      | succ k =>
        obtain ⟨h1, h2⟩ := hk
        obtain ⟨l, hl⟩ := ih (k := k) (vals := vals) ⟨by simpa using h1, fun j hj => by simpa using h2 (j+1) (by omega)⟩
          (by simpa using hx)
        by_cases ha : a = o
        · exact ⟨(a, y) :: l, by simp [ha, hl]⟩
        · exact ⟨l, by simp [ha, hl]⟩

theorem setMagnetSetpoints_setpoint {ords : List Nat} {sp : NpArr K} {skew dipComp : Bool} {order : Nat}
    {method : String} {s s' : SC K} {u : Unit}
    (h : setMagnetSetpoints ords sp skew order method dipComp s = .ok u s')
    {k o : Nat} (hk : LastAt ords k o) :
    setpoint s'.RING o skew order =
      (if skew = true ∧ order = 1 then
        skewClipped sp.isInt (skewLimit s.RING o) (magnetAsked s.RING o skew order method (valueFor sp.vals k))
      else magnetAsked s.RING o skew order method (valueFor sp.vals k)) := by
  obtain ⟨sps, s1, h1, h2, h3⟩ := setMagnetSetpoints_eq_ok h
  obtain ⟨-, -, hi, -, -, hv⟩ := magnetRequest_eq_ok h1
  have e : setpoint s'.RING o skew order = setpoint s1.RING o skew order := by
    refine setpoint_congr ?_
    have := updateMagnets_keeps (ords := some ords) (s := s1) (i := o) (a := "SetPoint" ++ plane skew)
      (by cases skew <;> simp [plane, magnetWrites])
    rw [h3] at this; exact this
  obtain ⟨l, hl⟩ := filter_lastAt hk (hv k o hk.1)
  rw [e, setMagnetLoop_setpoint _ h2 o skew order (by omega), if_pos ⟨rfl, rfl⟩, hl, List.foldl_append, hi]
  rfl

theorem setMagnetSetpoints_other {ords : List Nat} {sp : NpArr K} {skew dipComp : Bool} {order : Nat}
    {method : String} {s s' : SC K} {u : Unit}
    (h : setMagnetSetpoints ords sp skew order method dipComp s = .ok u s') (i : Nat) (sk : Bool) (k : Nat)
    (hk : k ≠ 0 ∨ dipComp = false ∨ order ≠ 1) (hne : i ∉ ords ∨ sk ≠ skew ∨ k ≠ order) :
    setpoint s'.RING i sk k = setpoint s.RING i sk k := by
  obtain ⟨sps, s1, h1, h2, h3⟩ := setMagnetSetpoints_eq_ok h
  have e : setpoint s'.RING i sk k = setpoint s1.RING i sk k := by
    refine setpoint_congr ?_
    have := updateMagnets_keeps (ords := some ords) (s := s1) (i := i) (a := "SetPoint" ++ plane sk)
      (by cases sk <;> simp [plane, magnetWrites])
    rw [h3] at this; exact this
  rw [e, setMagnetLoop_setpoint _ h2 i sk k hk]
  split
  · rename_i hc
    have hi : i ∉ ords := by
      rcases hne with h | h | h
      · exact h
      · exact absurd hc.1 h
      · exact absurd hc.2 h
    rw [filter_fst_nil]
    · rfl
    · intro hm
      obtain ⟨q, hq, hqa⟩ := List.mem_map.1 hm
      exact hi (hqa ▸ (List.of_mem_zip (a := q.1) (b := q.2) hq).1)
  · rfl

theorem setMagnetSetpoints_modifies (ords : List Nat) (sp : NpArr K) (skew : Bool) (order : Nat) (method : String)
    (dipComp : Bool) :
    Modifies (K := K) (fun i a => (i ∈ ords ∧ magSP skew dipComp a) ∨ a ∈ magnetWrites)
      (setMagnetSetpoints ords sp skew order method dipComp) := by
  unfold setMagnetSetpoints
  refine Modifies.bind (Modifies.rd _) (fun sps => Modifies.bind (Modifies.forEach (fun p hp => ?_)) (fun _ => ?_))
  · refine Modifies.mono ?_ setMagnet1_modifies
    rintro i a (⟨rfl, h2⟩ | ⟨-, h⟩)
    · exact Or.inl ⟨(List.of_mem_zip (a := p.1) (b := p.2) hp).1, h2⟩
    · exact Or.inr h
  · exact Modifies.mono (fun _ _ h => Or.inr h) (updateMagnets_modifies _)

section order
variable [IsStrictOrderedRing K]
theorem skewClipped_eq_clip {l : Lim K} (hl : Lim.Nonneg l) (x : K) : skewClipped false l x = clip l x := by
  rw [← clipped_eq_clip hl]
  cases l with
  | inf => rfl
  | fin l =>
    have hl : 0 ≤ l := hl
    simp only [skewClipped, clipped, exceeds, signLim, abs_of_nonneg hl, decide_eq_true_eq]

theorem skewClipped_within (isInt : Bool) {l : Lim K} (hl : Lim.Nonneg l) (x : K) :
    Within l (skewClipped isInt l x) := by
  cases l with
  | inf => trivial
  | fin l =>
    have hl : 0 ≤ l := hl
    have := clipped_within isInt (.fin l) x
    simpa only [skewClipped, clipped, exceeds, signLim, abs_of_nonneg hl, decide_eq_true_eq] using this
end order

end PySC
