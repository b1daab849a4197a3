import Verif.Lemmas.Session
import Verif.Lemmas.RequestsErrors
import Verif.Lemmas.HistoryReg
import Verif.Lemmas.HistoryDesign
import Verif.Props.Correctors
/-
What every step of a session keeps: the records, the design data and the limits of the correctors.
-/
namespace PySC
set_option linter.unusedSectionVars false
variable {K : Type} [Field K] [LinearOrder K] [IsStrictOrderedRing K] [FloorRing K]
open Py Spec

/-! ### records and design -/

theorem modelElem_rel {R : SC K → SC K → Prop} [PreRel R] (hset : ∀ (s : SC K) i ab (v : Attr K), ab ∈ ["A", "B"] →
    R s { s with RING := s.RING.setAttr i ("SetPoint" ++ ab) v }) (i : Nat) : Rel R (modelElem (K := K) i) := by
  unfold modelElem
  refine Rels.bind Rels.get (fun s => Rels.bind (Rels.lift _) (fun m => Rels.bind (Rels.rd _) (fun hA => Rels.bind (Rels.rd _) (fun hB =>
    Rels.bind (Rels.ite ?_ (Rels.pure' _)) (fun m => Rels.bind (Rels.rd _) (fun hF => Rels.ite ?_ (Rels.pure' _)))))))
  · exact Rels.bind (Rels.rd _) (fun a => Rels.bind (Rels.rd _) (fun b => Rels.bind (Rels.lift _) (fun _ => Rels.bind
      (Rels.setAttr (fun s => hset s i "A" _ (by simp))) (fun _ => Rels.bind (Rels.lift _) (fun _ => Rels.bind
      (Rels.setAttr (fun s => hset s i "B" _ (by simp))) (fun _ => Rels.pure' _))))))
  · exact Rels.bind (Rels.rd _) (fun _ => Rels.bind (Rels.rd _) (fun _ => Rels.bind (Rels.rd _) (fun _ => Rels.pure' _)))

theorem works_keeps (E : Env K) : Works E (fun _ => True) (Keeps (K := K)) where
  setCM := setCMSetpoints_hk
  setMagnet o sp sk k m d _ := setMagnetSetpoints_hk o sp sk k m d
  setCavity := setCavitySetpoints_hk
  magnets := updateMagnets_hk
  cavities := updateCavities_hk
  supports := updateSupports_hk E
  rng s s' h := h.hk
  inj s i := Keeps.inj
  bpm s i a v _ := Keeps.setAttr
  model := modelElem_rel (fun _ _ _ _ _ => Keeps.setAttr)

/-- steps other than registrations keep the records -/
theorem step_keeps (L : Lab K) (t : Step K) (h : ¬ t.IsRegistration) : Rel (Keeps (K := K)) (t.run L) := by
  by_cases hc : ∃ c, t = .call c
  · obtain ⟨c, rfl⟩ := hc
    exact run_keeps L.toWorld c h
  · exact (works_keeps L.E).run trivial trivial L t (fun c hh => hc ⟨c, hh⟩) (fun _ _ => trivial)

theorem step_grow (L : Lab K) (t : Step K) : Rel (Grow (K := K)) (t.run L) := by
  by_cases hc : ∃ c, t = .call c
  · obtain ⟨c, rfl⟩ := hc
    exact run_grow L.toWorld c
  · refine Rel.mono (fun _ _ h => h.toGrow) (step_keeps L t ?_)
    intro hr
    cases t <;> first | exact hr | exact hc ⟨_, rfl⟩

theorem design_setAttr {s : SC K} {i : Nat} {a : String} {v : Attr K} (h : a ∉ designNames) :
    DesignKept s.RING (s.RING.setAttr i a v) := by
  intro j b hb
  exact Ring.attr_setAttr_ne (fun e => h (e ▸ hb))

theorem works_design (E : Env K) : Works E (fun _ => True) (fun s s' : SC K => DesignKept s.RING s'.RING) := by
  refine ⟨⟨fun o sp sk m s => ?_, fun o sp p m s => ?_, fun o s => ?_, fun o s => ?_, fun b m s => ?_, fun s s' h => onlyRng_design h,
    fun s i _ _ _ => rfl⟩, fun o sp sk k m d _ s => ?_, fun s i a v ha => design_setAttr (fun hh => ?_),
    modelElem_rel (fun s i ab v hab => design_setAttr (fun hh => ?_))⟩
  · refine design_of_frame (setCMSetpoints_modifies o sp sk m s).attr (fun i a ha hh => ?_)
    rcases hh with ⟨-, rfl⟩ | hh
    · exact plane_not_design sk ha
    · exact magnetWrites_not_design a ha hh
  · refine design_of_frame (setCavitySetpoints_modifies o sp p m s).attr (fun i a ha hh => ?_)
    rcases hh.2 with rfl | hh
    · exact setPoint_not_design p ha
    · exact rfProperties_not_design a ha hh
  · exact design_of_frame (updateMagnets_modifies o s).attr (fun i => magnetWrites_not_design)
  · exact design_of_frame (updateCavities_frame o s).attr (fun i => rfProperties_not_design)
  · exact design_of_frame (updateSupports_frame E b m s).attr (fun i => supportWrites_not_design)
  · refine design_of_frame (setMagnetSetpoints_modifies o sp sk k m d s).attr (fun i a ha hh => ?_)
    rcases hh with ⟨-, rfl | ⟨-, rfl⟩⟩ | hh
    · exact plane_not_design sk ha
    · exact plane_not_design false ha
    · exact magnetWrites_not_design a ha hh
  · revert hh
    simp only [List.mem_cons, List.not_mem_nil, or_false] at ha
    rcases ha with rfl | rfl | rfl <;> decide +kernel
  · revert hh
    simp only [List.mem_cons, List.not_mem_nil, or_false] at hab
    rcases hab with rfl | rfl <;> decide +kernel

theorem step_design (L : Lab K) (t : Step K) (h : ¬ t.IsRegistration) (s : SC K) (hw : WellRegistered s.SIG) :
    DesignKept s.RING (t.run L s).state.RING := by
  by_cases hc : ∃ c, t = .call c
  · obtain ⟨c, rfl⟩ := hc
    exact run_design L.toWorld c h s hw
  · exact (works_design L.E).run trivial trivial L t (fun c hh => hc ⟨c, hh⟩) (fun _ _ => trivial) s

/-! ### limits of correctors -/

/-- all kicks are within the limits, and only magnets have limits -/
def Steerable (s : SC K) : Prop := AllKicksWithin s.RING ∧ SteeringMagnets s

/-- if the kicks were within the limits they still are -/
def KicksKept (s s' : SC K) : Prop := Steerable s → Steerable s'

instance : PreRel (KicksKept (K := K)) := inferInstanceAs (PreRel (fun s s' : SC K => Steerable s → Steerable s'))

/-- what the limits depend on -/
def steeringNames : List String := ["SetPointA", "SetPointB", "PassMethod", "Length", "CMlimit", "Frequency", "FrequencyOffset"]

theorem limits_of_attr {s s' : SC K} (ho : s'.ORD = s.ORD) (h : ∀ i, ∀ a ∈ steeringNames, s'.RING.attr i a = s.RING.attr i a) :
    KicksKept s s' := by
  rintro ⟨h1, h2⟩
  refine ⟨h1.of_frame (fun i sk => ⟨kickLimit_congr (h i _ (by decide +kernel)), Or.inl (kick_congr (h i _ ?_) (h i _ (by decide +kernel))
    (h i _ (by decide +kernel)))⟩), fun i hi => ?_⟩
  · cases sk <;> decide +kernel
  · rw [h i _ (by decide +kernel)] at hi
    rw [h i _ (by decide +kernel), h i _ (by decide +kernel), h i _ (by decide +kernel), ho]
    exact h2 i hi

theorem limits_of_frame {W : Nat → String → Prop} {s s' : SC K} (h : Frame W s s') (hw : ∀ i, ∀ a ∈ steeringNames, ¬ W i a) :
    KicksKept s s' := limits_of_attr h.ord (fun i a ha => h.attr i a (hw i a ha))

/-- the names of set-points only -/
theorem limits_of_setpoints {s s' : SC K} (ho : s'.ORD = s.ORD)
    (h : ∀ i, ∀ a ∈ ["PassMethod", "Length", "CMlimit", "Frequency", "FrequencyOffset"], s'.RING.attr i a = s.RING.attr i a)
    (hk : AllKicksWithin s.RING → AllKicksWithin s'.RING) : KicksKept s s' := by
  rintro ⟨h1, h2⟩
  refine ⟨hk h1, fun i hi => ?_⟩
  rw [h i _ (by decide +kernel)] at hi
  rw [h i _ (by decide +kernel), h i _ (by decide +kernel), h i _ (by decide +kernel), ho]
  exact h2 i hi

theorem updateMagnets_limits (o : Option (List Nat)) : Rel (KicksKept (K := K)) (updateMagnets o) :=
  Rel.mono (fun _ _ h => limits_of_frame h (fun _ => (by decide +kernel : ∀ a ∈ steeringNames, ¬ a ∈ magnetWrites))) (updateMagnets_modifies o)

theorem setCM1_limits (sk isInt : Bool) (m : String) (o : Nat) (x : K) : Rel (KicksKept (K := K)) (setCM1 sk m isInt o x) := by
  intro s
  have hf := setCM1_modifies (skew := sk) (isInt := isInt) (method := m) (o := o) (x := x) s
  refine limits_of_setpoints hf.ord (fun i a ha => hf.attr i a ?_) (setCM1_inv sk isInt m o x s)
  rintro ⟨-, rfl⟩
  revert ha
  cases sk <;> decide +kernel

theorem setCM_limits (o : List Nat) (sp : NpArr K) (sk : Bool) (m : String) : Rel (KicksKept (K := K)) (setCMSetpoints o sp sk m) :=
  Rels.bind (Rels.lift _) (fun _ => Rels.bind (Rels.forEach (fun _ _ => setCM1_limits _ _ _ _ _)) (fun _ => updateMagnets_limits _))

/-- set-points with the same dipole components -/
theorem limits_setpoint {s : SC K} {i : Nat} {sk : Bool} {v w : List K} (hv : s.RING.attr i ("SetPoint" ++ letter sk) = some (.vec v))
    (hw : coef w 0 = coef v 0 ∨ coef w 0 = 0) : KicksKept s { s with RING := s.RING.setAttr i ("SetPoint" ++ letter sk) (.vec w) } := by
  have hne : ∀ a ∈ ["PassMethod", "Length", "CMlimit", "Frequency", "FrequencyOffset"], a ≠ "SetPoint" ++ letter sk := by
    cases sk <;> decide +kernel
  have k : ∀ j, ∀ a ∈ ["PassMethod", "Length", "CMlimit", "Frequency", "FrequencyOffset"],
      (s.RING.setAttr i ("SetPoint" ++ letter sk) (.vec w)).attr j a = s.RING.attr j a :=
    fun j a ha => Ring.attr_setAttr_ne (hne a ha)
  refine limits_of_setpoints rfl k (fun h => h.of_frame (fun j sk' => ⟨kickLimit_congr (k j _ (by decide +kernel)), ?_⟩))
  show kick (s.RING.setAttr i _ _) j sk' = _ ∨ Within _ (kick (s.RING.setAttr i _ _) j sk')
  have hf : kickFactor (s.RING.setAttr i ("SetPoint" ++ letter sk) (.vec w)) j sk' = kickFactor s.RING j sk' :=
    kickFactor_congr (k j _ (by decide +kernel)) (k j _ (by decide +kernel))
  by_cases hj : j = i ∧ sk' = sk
  · obtain ⟨rfl, rfl⟩ := hj
    have e : setpoint (s.RING.setAttr j ("SetPoint" ++ letter sk') (.vec w)) j sk' 0 = coef w 0 := by
      unfold setpoint
      exact congrArg (coef · 0) (vecAt_of_attr (Ring.attr_setAttr_same (Ring.attr_some_lt hv)))
    have e' : setpoint s.RING j sk' 0 = coef v 0 := by
      unfold setpoint
      exact congrArg (coef · 0) (vecAt_of_attr hv)
    rcases hw with hw | hw
    · left
      unfold kick
      rw [hf, e, e', hw]
    · right
      unfold kick
      rw [e, hw, zero_mul]
      unfold Within
      split
      · trivial
      · rw [abs_zero]; exact abs_nonneg _
  · left
    refine kick_congr ?_ (k j _ (by decide +kernel)) (k j _ (by decide +kernel))
    by_cases hji : j = i
    · refine Ring.attr_setAttr_ne (fun e => hj ⟨hji, ?_⟩)
      revert e; cases sk <;> cases sk' <;> decide +kernel
    · exact Ring.attr_setAttr_ne' hji

theorem setMagnet1_limits (sk : Bool) (k : Nat) (hk : k ≠ 0) (isInt d : Bool) (o : Nat) (x : K) :
    Rel (KicksKept (K := K)) (setMagnet1 sk k isInt d o x) := by
  unfold setMagnet1
  refine Rels.bind (Rels.rd _) (fun y => Rels.bind (Rels.when ?_) (fun _ => ?_))
  · unfold dipoleCompensation
    exact Rels.bind (Rels.rd _) (fun _ => Rels.bind Rels.get (fun _ => Rels.when (Rels.bind (Rels.rd _) (fun _ => setCM_limits _ _ _ _))))
  · intro s
    rw [bind_apply]
    cases hn : newSetpoint s.RING sk k o y with
    | error e =>
      have : rd (fun r => newSetpoint r sk k o y) s = .error e s := by unfold PySC.rd; simp only [hn]
      rw [this]; exact PreRel.refl s
    | ok w =>
      rw [rd_apply_ok hn]
      obtain ⟨v, hv, rfl⟩ := newSetpoint_shape hn
      have : setAttr o ("SetPoint" ++ letter sk) (.vec (v.set k y)) s = .ok () _ := setAttr_eq_ok.2 ⟨Ring.attr_some_lt hv, rfl⟩
      show KicksKept s (setAttr o _ _ s).state
      rw [this]
      refine limits_setpoint hv (Or.inl ?_)
      unfold coef
      rw [List.getD_eq_getElem?_getD, List.getD_eq_getElem?_getD, List.getElem?_set_ne hk]

theorem setMagnet_limits (o : List Nat) (sp : NpArr K) (sk : Bool) (k : Nat) (hk : k ≠ 0) (m : String) (d : Bool) :
    Rel (KicksKept (K := K)) (setMagnetSetpoints o sp sk k m d) := by
  unfold setMagnetSetpoints
  exact Rels.bind (Rels.rd _) (fun _ => Rels.bind (Rels.forEach (fun _ _ => setMagnet1_limits _ _ hk _ _ _ _)) (fun _ => updateMagnets_limits _))

theorem modelElem_limits (i : Nat) : Rel (KicksKept (K := K)) (modelElem i) := by
  have zero : ∀ (v : List K), coef (v.set 0 0) 0 = 0 := by
    intro v
    unfold coef
    cases v <;> simp
  unfold modelElem
  refine Rels.bind Rels.get (fun s => Rels.bind (Rels.lift _) (fun m => Rels.bind (Rels.rd _) (fun hA => Rels.bind (Rels.rd _) (fun hB =>
    Rels.bind (Rels.ite ?_ (Rels.pure' _)) (fun m => Rels.bind (Rels.rd _) (fun hF => Rels.ite ?_ (Rels.pure' _)))))))
  · intro s
    rw [bind_apply]
    cases ha : s.RING.getVec i "SetPointA" with
    | error e =>
      have : rd (fun r => r.getVec i "SetPointA") s = .error e s := by unfold PySC.rd; simp only [ha]
      rw [this]; exact PreRel.refl s
    | ok a =>
      rw [rd_apply_ok (f := fun r => r.getVec i "SetPointA") ha]
      dsimp only
      rw [bind_apply]
      cases hb : s.RING.getVec i "SetPointB" with
      | error e =>
        have : rd (fun r => r.getVec i "SetPointB") s = .error e s := by unfold PySC.rd; simp only [hb]
        rw [this]; exact PreRel.refl s
      | ok b =>
        rw [rd_apply_ok (f := fun r => r.getVec i "SetPointB") hb]
        dsimp only
        have ha' := (Ring.getVec_eq_ok).1 ha
        have hb' := (Ring.getVec_eq_ok).1 hb
        rw [bind_apply]
        cases idx a 0 with
        | error e => exact PreRel.refl s
        | ok x =>
          have h1 : setAttr i "SetPointA" (.vec (a.set 0 0)) s = .ok () { s with RING := s.RING.setAttr i "SetPointA" (.vec (a.set 0 0)) } :=
            setAttr_eq_ok.2 ⟨Ring.attr_some_lt ha', rfl⟩
          have hb2 : (s.RING.setAttr i "SetPointA" (.vec (a.set 0 0))).attr i "SetPointB" = some (.vec b) := by
            rw [Ring.attr_setAttr_ne (by decide)]; exact hb'
          have l1 : KicksKept s { s with RING := s.RING.setAttr i "SetPointA" (.vec (a.set 0 0)) } :=
            limits_setpoint (sk := true) ha' (Or.inr (zero a))
          refine PreRel.trans _ _ _ l1 ?_
          simp only [lift_ok_apply]
          rw [bind_apply, h1]
          dsimp only
          rw [bind_apply]
          cases idx b 0 with
          | error e => exact PreRel.refl _
          | ok y =>
            simp only [lift_ok_apply]
            rw [bind_apply]
            have h2 : setAttr i "SetPointB" (.vec (b.set 0 0)) { s with RING := s.RING.setAttr i "SetPointA" (.vec (a.set 0 0)) } = .ok () _ :=
              setAttr_eq_ok.2 ⟨Ring.attr_some_lt hb2, rfl⟩
            rw [h2]
            exact limits_setpoint (sk := false) (s := { s with RING := s.RING.setAttr i "SetPointA" (.vec (a.set 0 0)) }) hb2 (Or.inr (zero b))
  · exact Rels.bind (Rels.rd _) (fun _ => Rels.bind (Rels.rd _) (fun _ => Rels.bind (Rels.rd _) (fun _ => Rels.pure' _)))

/-- what matters about one corrector -/
structure SameSteering (s s' : SC K) (i : Nat) : Prop where
  a : s'.RING.attr i "SetPointA" = s.RING.attr i "SetPointA"
  b : s'.RING.attr i "SetPointB" = s.RING.attr i "SetPointB"
  len : s'.RING.attr i "Length" = s.RING.attr i "Length"
  thin : s'.RING.attr i "PassMethod" = some (.str "CorrectorPass") ↔ s.RING.attr i "PassMethod" = some (.str "CorrectorPass")
  pass : s'.RING.attr i "PassMethod" ≠ some (.str "DriftPass")
  freq : s'.RING.attr i "Frequency" = none
  off : s'.RING.attr i "FrequencyOffset" = none

/-- is it a corrector magnet? -/
def IsSteering (s : SC K) (i : Nat) : Prop := s.RING.attr i "PassMethod" ≠ some (.str "DriftPass") ∧ s.RING.attr i "Frequency" = none ∧
  s.RING.attr i "FrequencyOffset" = none ∧ i ∉ s.ORD.RF

theorem limits_of_steering {s s' : SC K} (ho : s'.ORD = s.ORD) (hc : ∀ i, s'.RING.attr i "CMlimit" = s.RING.attr i "CMlimit")
    (h : ∀ i, IsSteering s i → SameSteering s s' i) : KicksKept s s' := by
  rintro ⟨h1, h2⟩
  refine ⟨h1.of_frame (fun i sk => ⟨kickLimit_congr (hc i), ?_⟩), fun i hi => ?_⟩
  · cases hl : s.RING.attr i "CMlimit" with
    | none =>
      right
      have : kickLimit s.RING i sk = .inf := by unfold kickLimit; rw [hl]
      rw [this]; trivial
    | some l =>
      left
      have k := h i (h2 i (by rw [hl]; rfl))
      have e : kickFactor s'.RING i sk = kickFactor s.RING i sk := by
        unfold kickFactor numAt
        rw [k.len]
        by_cases ht : s.RING.attr i "PassMethod" = some (.str "CorrectorPass")
        · rw [if_pos ht, if_pos (k.thin.2 ht)]
        · rw [if_neg ht, if_neg (fun hh => ht (k.thin.1 hh))]
      unfold kick
      rw [e, setpoint_congr (r := s.RING) (r' := s'.RING)]
      cases sk
      · exact k.b
      · exact k.a
  · rw [hc i] at hi
    obtain ⟨-, -, -, hr⟩ := h2 i hi
    have k := h i (h2 i hi)
    rw [ho]
    exact ⟨k.pass, k.freq, k.off, hr⟩

/-- what `update_cavities` does to elements which were not registered as cavities -/
def CavitiesOnly (s s' : SC K) : Prop := s'.ORD = s.ORD ∧ (∀ i, ∀ a, a ∉ rfProperties → s'.RING.attr i a = s.RING.attr i a) ∧
  ∀ i, s.RING.attr i "FrequencyOffset" = none → s'.RING.attr i "Frequency" = s.RING.attr i "Frequency"

instance : PreRel (CavitiesOnly (K := K)) := ⟨fun _ => ⟨rfl, fun _ _ _ => rfl, fun _ _ => rfl⟩, fun _ _ _ h1 h2 =>
  ⟨h2.1.trans h1.1, fun i a ha => (h2.2.1 i a ha).trans (h1.2.1 i a ha), fun i hi =>
    (h2.2.2 i (by rw [h1.2.1 i _ (by decide +kernel)]; exact hi)).trans (h1.2.2 i hi)⟩⟩

theorem updateCavities_only (o : Option (List Nat)) : Rel (CavitiesOnly (K := K)) (updateCavities o) := by
  unfold updateCavities
  refine Rels.bind Rels.get (fun _ => Rels.forEach (fun i _ => Rels.forEach (fun f hf s => ?_)))
  unfold updateCavityField
  rw [bind_apply]
  cases hc : cavityField s.RING i f with
  | error e =>
    have : rd (fun r => cavityField r i f) s = .error e s := by unfold PySC.rd; simp only [hc]
    rw [this]; exact PreRel.refl s
  | ok x =>
    rw [rd_apply_ok (f := fun r => cavityField r i f) hc]
    show CavitiesOnly s (setAttr i f (.num x) s).state
    unfold cavityField at hc
    obtain ⟨sp, -, hc⟩ := Except.bind_eq_ok'.1 hc
    obtain ⟨cal, -, hc⟩ := Except.bind_eq_ok'.1 hc
    obtain ⟨off, hoff, -⟩ := Except.bind_eq_ok'.1 hc
    have ho := Ring.getNum_eq_ok.1 hoff
    have hi := Ring.attr_some_lt ho
    have : setAttr i f (.num x) s = .ok () _ := setAttr_eq_ok.2 ⟨hi, rfl⟩
    rw [this]
    refine ⟨rfl, fun j a ha => Ring.attr_setAttr_ne (fun e => ha (e ▸ hf)), fun j hj => ?_⟩
    by_cases hji : j = i
    · subst hji
      refine Ring.attr_setAttr_ne (fun e => ?_)
      rw [← e] at ho
      rw [show "Frequency" ++ "Offset" = "FrequencyOffset" from by decide +kernel, hj] at ho
      cases ho
    · exact Ring.attr_setAttr_ne' hji

theorem CavitiesOnly.limits {s s' : SC K} (h : CavitiesOnly s s') : KicksKept s s' := by
  obtain ⟨h1, h2, h3⟩ := h
  refine limits_of_steering h1 (fun i => h2 i _ (by decide +kernel)) (fun i hi => ?_)
  obtain ⟨p1, p2, p3, -⟩ := hi
  exact ⟨h2 i _ (by decide +kernel), h2 i _ (by decide +kernel), h2 i _ (by decide +kernel), by rw [h2 i _ (by decide +kernel)],
    by rw [h2 i _ (by decide +kernel)]; exact p1, (h3 i p3).trans p2, by rw [h2 i _ (by decide +kernel)]; exact p3⟩

theorem setPoint_not_steering (p : String) : p ++ "SetPoint" ∉ steeringNames := by
  have hl : ∀ q : String, (q ++ "SetPoint").toList.reverse.take 2 = ['t', 'n'] := by
    intro q
    rw [String.toList_append, List.reverse_append]
    rfl
  intro h
  simp only [steeringNames, List.mem_cons, List.not_mem_nil, or_false] at h
  have := hl p
  rcases h with h | h | h | h | h | h | h <;> rw [h] at this <;> revert this <;> decide +kernel

theorem limits_setAttr {s : SC K} {i : Nat} {a : String} {v : Attr K} (h : a ∉ steeringNames) :
    KicksKept s { s with RING := s.RING.setAttr i a v } :=
  limits_of_attr rfl (fun _ _ hb => Ring.attr_setAttr_ne (fun e => h (e ▸ hb)))

theorem works_limits (E : Env K) : Works E (· ≠ 0) (KicksKept (K := K)) where
  setCM := setCM_limits
  setCavity o sp p m := by
    unfold setCavitySetpoints
    exact Rels.bind (Rels.rd _) (fun _ => Rels.bind (Rels.forEach (fun _ _ => Rels.setAttr (fun _ => limits_setAttr (setPoint_not_steering p))))
      (fun _ => Rel.mono (fun _ _ h => h.limits) (updateCavities_only _)))
  magnets := updateMagnets_limits
  cavities o := Rel.mono (fun _ _ h => h.limits) (updateCavities_only o)
  supports b m := Rel.mono (fun _ _ h => limits_of_frame h (fun _ => (by decide +kernel : ∀ a ∈ steeringNames, ¬ a ∈ supportWrites)))
    (updateSupports_frame E b m)
  rng s s' h := by
    have : s'.RING = s.RING := by rw [h.1]
    exact limits_of_attr (by rw [h.1]) (fun i a _ => by rw [this])
  inj s i := limits_of_attr rfl (fun _ _ _ => rfl)
  setMagnet o sp sk k m d hk := setMagnet_limits o sp sk k hk m d
  bpm s i a v ha := limits_setAttr ((by decide +kernel : ∀ a ∈ ["Offset", "CalError", "Roll"], a ∉ steeringNames) a ha)
  model := modelElem_limits

/-! ### errors -/

/-- elements other than cavities are not turned into cavities -/
structure RfFree (b s : SC K) : Prop where
  ord : s.ORD = b.ORD
  sig : s.SIG = b.SIG
  off : ∀ i, i ∉ b.ORD.RF → b.RING.attr i "FrequencyOffset" = none → s.RING.attr i "FrequencyOffset" = none
  freq : ∀ i, i ∉ b.ORD.RF → b.RING.attr i "FrequencyOffset" = none → s.RING.attr i "Frequency" = b.RING.attr i "Frequency"

theorem rfFree_of_attr {b s s' : SC K} {W : Nat → String → Prop} (h : RfFree b s) (ho : s'.ORD = s.ORD) (hg : s'.SIG = s.SIG)
    (ha : ∀ i a, ¬ W i a → s'.RING.attr i a = s.RING.attr i a)
    (hW : ∀ i, i ∉ b.ORD.RF → ∀ a ∈ ["Frequency", "FrequencyOffset"], ¬ W i a) : RfFree b s' :=
  ⟨ho.trans h.ord, hg.trans h.sig, fun i h1 h2 => (ha i _ (hW i h1 _ (by decide +kernel))).trans (h.off i h1 h2),
    fun i h1 h2 => (ha i _ (hW i h1 _ (by decide +kernel))).trans (h.freq i h1 h2)⟩

theorem applyErrors_rfFree {b : SC K} (hw : WellRegistered b.SIG) (E : Env K) (n : K) : RfFree b (applyErrors E n b).state := by
  let R : SC K → SC K → Prop := fun s s' => RfFree b s → RfFree b s'
  have : PreRel R := inferInstanceAs (PreRel (fun s s' => RfFree b s → RfFree b s'))
  refine (show Rel R (applyErrors E n) from ?_) b ⟨rfl, rfl, fun _ _ h => h, fun _ _ _ => rfl⟩
  have dr : ∀ {s s' : SC K} {W : Nat → String → Prop}, RfFree b s → DrawFrame W s s' →
      (∀ i, i ∉ b.ORD.RF → ∀ a ∈ ["Frequency", "FrequencyOffset"], ¬ W i a) → RfFree b s' :=
    fun h f hW => rfFree_of_attr h f.ord f.sig f.attr hW
  unfold applyErrors
  refine Rels.bind (fun s hs => dr hs (applyRf_frame (by rw [hs.sig]; exact hw)) ?_) (fun _ =>
    Rels.bind (fun s hs => dr hs (applyBpm_frame (by rw [hs.sig]; exact hw)) ?_) (fun _ =>
    Rels.bind (fun s hs => dr hs (applyMagnet_frame (by rw [hs.sig]; exact hw)) ?_) (fun _ =>
    Rels.bind (fun s hs => ?_) (fun _ =>
    Rels.bind (fun s hs => dr hs (applyCircumference_frame E n s) (fun _ _ => by decide +kernel)) (fun _ =>
    Rels.bind (fun s hs => dr hs (applySupports_frame (by rw [hs.sig]; exact hw)) ?_) (fun _ =>
    Rels.bind (fun s hs => dr hs (DrawFrame.of_frame (updateSupports_frame E true true s)) (fun _ _ => by decide +kernel)) (fun _ =>
    Rels.bind Rels.get (fun _ => Rels.bind (Rels.when (fun s hs => ?_)) (fun _ => Rels.when (fun s hs => ?_))))))))))
  · rintro i hi a - ⟨h, -⟩
    rw [hs.ord] at h
    exact hi h
  · rintro i - a ha ⟨-, m, v, hv, rfl⟩
    rw [hs.sig] at hv
    exact (by decide +kernel : ∀ a ∈ ["Frequency", "FrequencyOffset"], a ∉ bpmNamesList) _ ha (hw.bpmNames _ _ _ hv)
  · rintro i - a ha ⟨-, m, v, hv, rfl⟩
    rw [hs.sig] at hv
    have := hw.magnetNames _ _ _ hv
    simp only [List.mem_cons, List.not_mem_nil, or_false] at this
    rcases this with rfl | rfl | rfl | rfl | rfl <;> revert ha <;> decide +kernel
  · have f := applyInjection_frame E n s
    exact rfFree_of_attr hs f.ord f.sig f.attr (fun _ _ _ _ h => h)
  · rintro i - a ha h
    have := supportDrawn_name h
    replace this : a ∈ ["SectionOffset", "SectionRoll", "PlinthOffset", "PlinthRoll", "GirderOffset", "GirderRoll"] := this
    exact (by decide +kernel : ∀ a ∈ ["Frequency", "FrequencyOffset"],
      a ∉ ["SectionOffset", "SectionRoll", "PlinthOffset", "PlinthRoll", "GirderOffset", "GirderRoll"]) a ha this
  · exact dr hs (DrawFrame.of_frame (updateMagnets_modifies none s)) (fun _ _ => by decide +kernel)
  · have f := updateCavities_frame none s
    obtain ⟨h1, h2, h3⟩ := updateCavities_only none s
    exact ⟨h1.trans hs.ord, f.sig.trans hs.sig, fun i hi ho => (h2 i _ (by decide +kernel)).trans (hs.off i hi ho),
      fun i hi ho => (h3 i (hs.off i hi ho)).trans (hs.freq i hi ho)⟩

theorem applyErrors_limits (E : Env K) (n : K) (s : SC K) (hw : WellRegistered s.SIG) : KicksKept s (applyErrors E n s).state := by
  have f := applyErrors_fit hw E n
  have g := applyErrors_rfFree hw E n
  refine limits_of_steering f.ord (fun i => f.fixed i _ (by decide +kernel)) (fun i hi => ?_)
  obtain ⟨p1, p2, p3, p4⟩ := hi
  exact ⟨f.fixed i _ (by decide +kernel), f.fixed i _ (by decide +kernel), (f.length i).resolve_right p1,
    by rw [f.fixed i _ (by decide +kernel)], by rw [f.fixed i _ (by decide +kernel)]; exact p1, (g.freq i p4 p3).trans p2, g.off i p4 p3⟩

/-! ### switches -/

/-- what switching cavities and radiation does to magnets -/
def Switched (r r' : Ring K) : Prop := (∀ i a, a ≠ "PassMethod" → r'.attr i a = r.attr i a) ∧
  ∀ i, r.attr i "Frequency" = none → ∀ x ∈ ["CorrectorPass", "DriftPass"],
    (r'.attr i "PassMethod" = some (.str x) ↔ r.attr i "PassMethod" = some (.str x))

instance : PreRel (Switched (K := K)) := ⟨fun _ => ⟨fun _ _ _ => rfl, fun _ _ _ _ => Iff.rfl⟩, fun _ _ _ h1 h2 =>
  ⟨fun i a ha => (h2.1 i a ha).trans (h1.1 i a ha), fun i hi x hx =>
    (h2.2 i (by rw [h1.1 i _ (by decide +kernel)]; exact hi) x hx).trans (h1.2 i hi x hx)⟩⟩

theorem replacePass_switched (ms : List String) (o n : String)
    (hm : ∀ m ∈ ms, m ∉ ["CorrectorPass", "DriftPass"] ∧ strReplace m o n ∉ ["CorrectorPass", "DriftPass"]) :
    Rel (Switched (K := K)) (replacePass ms o n) := by
  unfold replacePass
  refine Rels.bind Rels.get (fun _ => Rels.forEach (fun i _ r => ?_))
  rw [bind_apply]
  cases he : r[i]? with
  | none =>
    have : passMethod i r = .error .indexError r := by unfold passMethod; rw [he]
    rw [this]; exact PreRel.refl r
  | some e =>
    have hat : r.attr i "PassMethod" = e "PassMethod" := by unfold Ring.attr; rw [he]; rfl
    cases hp : e "PassMethod" with
    | none =>
      have : passMethod i r = .error .attributeError r := by unfold passMethod; rw [he]; simp only [hp]
      rw [this]; exact PreRel.refl r
    | some v =>
      by_cases hv : ∃ m, v = .str m
      · obtain ⟨m, rfl⟩ := hv
        have : passMethod i r = .ok m r := by unfold passMethod; rw [he]; simp only [hp]
        rw [this]
        dsimp only
        split
        · rename_i hmm
          have hi : i < r.length := by
            by_contra hh
            rw [List.getElem?_eq_none (Nat.le_of_not_lt hh)] at he; cases he
          unfold setPassMethod
          rw [if_pos hi]
          refine ⟨fun j a ha => Ring.attr_setAttr_ne ha, fun j _ x hx => ?_⟩
          by_cases hji : j = i
          · subst hji
            show (Ring.setAttr r j "PassMethod" _).attr j "PassMethod" = _ ↔ _
            rw [Ring.attr_setAttr_same hi, hat, hp]
            obtain ⟨h1, h2⟩ := hm m hmm
            constructor
            · intro hh; cases hh; exact absurd hx h2
            · intro hh; cases hh; exact absurd hx h1
          · show (Ring.setAttr r i "PassMethod" _).attr j "PassMethod" = _ ↔ _
            rw [Ring.attr_setAttr_ne' hji]
        · exact PreRel.refl r
      · have : passMethod i r = .error .typeError r := by
          unfold passMethod; rw [he]; simp only [hp]
          cases v <;> first | rfl | exact absurd ⟨_, rfl⟩ hv
        rw [this]; exact PreRel.refl r

theorem switchRf_switched (o : List Nat) (b : Bool) : Rel (Switched (K := K)) (switchRf o b) := by
  intro r
  unfold switchRf
  rw [bind_apply, get_apply]
  dsimp only
  split
  · let R : Ring K → Ring K → Prop := fun a b => Switched r a → Switched r b
    have : PreRel R := inferInstanceAs (PreRel (fun a b => Switched r a → Switched r b))
    refine (show Rel R _ from Rels.forEach (fun i hi a ha => ?_)) r (PreRel.refl r)
    have hf := (List.mem_filter.1 hi).2
    unfold setPassMethod
    split
    · refine ⟨fun j n hn => (Ring.attr_setAttr_ne hn).trans (ha.1 j n hn), fun j hj x hx => ?_⟩
      have hji : j ≠ i := fun e => by rw [e] at hj; rw [hj] at hf; cases hf
      refine Iff.trans ?_ (ha.2 j hj x hx)
      show (Ring.setAttr a i "PassMethod" _).attr j "PassMethod" = _ ↔ _
      rw [Ring.attr_setAttr_ne' hji]
    · exact ha
  · exact PreRel.refl r

theorem switch_switched (args : List String) : Rel (Switched (K := K)) (switchCavityAndRadiation args) := by
  unfold switchCavityAndRadiation
  refine Rels.ite (Rels.throw _) ?_
  rels <;> first | exact switchRf_switched _ _ | exact replacePass_switched _ _ _ (by decide +kernel)

theorem Switched.limits {s : SC K} {r : Ring K} (h : Switched s.RING r) : KicksKept s { s with RING := r } := by
  refine limits_of_steering rfl (fun i => h.1 i _ (by decide +kernel)) (fun i hi => ?_)
  obtain ⟨p1, p2, p3, -⟩ := hi
  exact ⟨h.1 i _ (by decide +kernel), h.1 i _ (by decide +kernel), h.1 i _ (by decide +kernel), h.2 i p2 _ (by decide +kernel),
    fun hh => p1 ((h.2 i p2 _ (by decide +kernel)).1 hh), (h.1 i _ (by decide +kernel)).trans p2, (h.1 i _ (by decide +kernel)).trans p3⟩

/-- no step other than a registration sets a corrector beyond its limits, unless dipole components are asked for -/
theorem step_limits (L : Lab K) (t : Step K) (h : ¬ t.IsRegistration) (hk : t.chosenOrder ≠ some 0) (s : SC K)
    (hw : WellRegistered s.SIG) : KicksKept s (t.run L s).state := by
  by_cases hc : ∃ c, t = .call c
  · obtain ⟨c, rfl⟩ := hc
    have hd : ∀ {α : Type} {m : Py (SC K) α}, KicksKept s (m s).state → KicksKept s ((do let _ ← m; Py.pure ()) s).state := by
      intro α m hm
      rw [bind_apply]
      cases hq : m s with
      | ok a t => rw [hq] at hm; exact hm
      | error e t => rw [hq] at hm; exact hm
    show KicksKept s (c.run L.toWorld s).state
    by_cases ho : c.IsOperation
    · refine (works_limits L.E).toSteers.run L.toWorld rfl c ho (fun o sp sk k m d e => ?_) s
      subst e
      exact setMagnet_limits o sp sk k (fun e => hk (by subst e; rfl)) m d
    · cases c with
      | register c => exact absurd trivial h
      | systematicMultipoles o ba k sk =>
        refine hd (limits_of_frame (setSystematicMultipoles_rel o ba k sk s) (fun i a ha hh => ?_))
        obtain ⟨-, t, ht, rfl⟩ := hh
        simp only [List.mem_cons, List.not_mem_nil, or_false] at ht
        revert ha
        rcases ht with rfl | rfl <;> cases sk <;> decide +kernel
      | randomMultipoles o ba =>
        refine (show Rel KicksKept (setRandomMultipoles L.E o ba) from ?_) s
        unfold setRandomMultipoles
        refine Rels.forEach (fun i _ => Rel.mono (fun s s' h => ?_) (randomMultipole1_rel i))
        exact limits_of_attr h.ord (fun j a ha => h.attr j a (fun hh =>
          (show ∀ a ∈ steeringNames, a ∉ offsetAttrs by decide +kernel) a ha hh.2))
      | applyErrors n => exact applyErrors_limits _ _ _ hw
      | switches a =>
        have := switch_switched a s.RING
        show KicksKept s (onRing (switchCavityAndRadiation a) s).state
        unfold onRing
        cases hm : switchCavityAndRadiation a s.RING <;> rw [hm] at this <;> exact Switched.limits this
      | _ => exact absurd trivial ho
  · refine (works_limits L.E).run (by decide) (by decide) L t (fun c hh => hc ⟨c, hh⟩) (fun k hh e => hk ?_) s
    rw [hh, e]

end PySC
