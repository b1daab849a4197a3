import Verif.Lemmas.Bba
import Verif.Lemmas.CavitySetpoints
set_option linter.unusedSectionVars false
namespace PySC
open Py Spec
variable {K : Type} [Field K] [LinearOrder K] [FloorRing K] [IsStrictOrderedRing K]

theorem dipoleCompensation_off {o : Nat} {x : K} {s s1 : SC K} {u : Unit} (hc : ¬ Compensated s o)
    (h : dipoleCompensation o x s = .ok u s1) : s1 = s := by
  simp only [dipoleCompensation, bind_eq_ok, rd_eq_ok] at h
  obtain ⟨ba, _, ⟨hba, hs⟩, s0, s0', h0, h⟩ := h
  simp at h0
  obtain ⟨h01, h02⟩ := h0
  subst h01 h02
  subst hs
  rename_i s0
  have hba' : numAt s0.RING o "BendingAngle" = ba := by
    simp only [bendingAngleOr0, Except.bind_eq_ok', Ring.hasA_eq_ok, Except.ite_eq_ok, Ring.getNum_eq_ok] at hba
    obtain ⟨b, ⟨-, rfl⟩, ⟨-, hba⟩ | ⟨hn, hba⟩⟩ := hba
    · exact numAt_of_attr hba
    · simp at hn hba; simp [numAt, hn, hba]
  have : (decide (ba ≠ 0) && decide (o ∈ s0.ORD.HCM)) = false := by
    rw [Bool.and_eq_false_iff]
    by_contra hcon
    push Not at hcon
    apply hc
    simp at hcon
    exact ⟨by rw [hba']; exact hcon.1, hcon.2⟩
  rw [this] at h
  simp at h
  exact h.symm

theorem setMagnet1_rest {skew isInt comp : Bool} {order o : Nat} {x : K} {s s' : SC K} {u : Unit}
    (h : setMagnet1 skew order isInt comp o x s = .ok u s') (i : Nat) (sk : Bool) (k : Nat)
    (h1 : ¬ (i = o ∧ sk = skew ∧ k = order))
    (h2 : ¬ (comp = true ∧ order = 1 ∧ i = o ∧ Compensated s o ∧ sk = false ∧ k = 0)) :
    setpoint s'.RING i sk k = setpoint s.RING i sk k := by
  by_cases hk : k ≠ 0 ∨ comp = false ∨ order ≠ 1
  · rw [setMagnet1_setpoint h i sk k hk, if_neg h1]
  push Not at hk
  obtain ⟨rfl, hcomp, rfl⟩ := hk
  simp only [ne_eq, Bool.not_eq_false] at hcomp
  subst hcomp
  obtain ⟨s1, v, hs1, hv, hl, rfl⟩ := setMagnet1_eq_ok h
  simp only [decide_true, Bool.and_self, when_true] at hs1
  have e1 : setpoint s1.RING i sk 0 = setpoint s.RING i sk 0 := by
    by_cases hc : i = o ∧ sk = false
    · obtain ⟨rfl, rfl⟩ := hc
      rw [dipoleCompensation_off (fun hh => h2 ⟨rfl, rfl, rfl, hh, rfl, rfl⟩) hs1]
    · refine setpoint_congr ((dipoleCompensation_modifies.ok hs1).attr _ _ ?_)
      rintro (⟨rfl, h⟩ | h)
      · refine hc ⟨rfl, ?_⟩
        cases sk
        · rfl
        · simp [plane] at h
      · cases sk <;> simp [plane, magnetWrites] at h
  show setpoint (s1.RING.setAttr _ _ _) i sk 0 = _
  rw [← e1]
  by_cases hc2 : i = o ∧ sk = skew
  · obtain ⟨rfl, rfl⟩ := hc2
    rw [setpoint_of_attr (Ring.attr_setAttr_same (Ring.attr_some_lt hv)), setpoint_of_attr hv, coef_set _ _ _ _ hl, if_neg (by decide)]
  · refine setpoint_congr ?_
    rw [Ring.attr_setAttr, if_neg]
    rintro ⟨h1, h2⟩; exact hc2 ⟨h1, plane_inj.1 h2⟩

/-- attributes a set-point request does not touch -/
theorem setMagnet1_kept {skew isInt comp : Bool} {order o : Nat} {x : K} {s s' : SC K} {u : Unit}
    (h : setMagnet1 skew order isInt comp o x s = .ok u s') (i : Nat) {a : String} (ha : a ∉ spNames) (ha' : a ∉ magnetWrites) :
    s'.RING.attr i a = s.RING.attr i a :=
  (setMagnet1_modifies.ok h).attr _ _ (by
    rintro (⟨-, h⟩ | ⟨-, h⟩)
    · exact magSP_ne ha h
    · exact ha' h)

theorem compensated_congr {s s' : SC K} {o : Nat} (h1 : s'.RING.attr o "BendingAngle" = s.RING.attr o "BendingAngle")
    (h2 : s'.ORD = s.ORD) : Compensated s' o ↔ Compensated s o := by
  unfold Compensated
  rw [numAt_congr h1, h2]

theorem setMagnetLoop_rest {skew isInt comp : Bool} {order : Nat} (l : List (Nat × K)) {s s' : SC K} {u : Unit}
    (h : forEach l (fun p => setMagnet1 skew order isInt comp p.1 p.2) s = .ok u s') (i : Nat) (sk : Bool) (k : Nat)
    (h1 : ¬ (i ∈ l.map Prod.fst ∧ sk = skew ∧ k = order))
    (h2 : ¬ (comp = true ∧ order = 1 ∧ i ∈ l.map Prod.fst ∧ Compensated s i ∧ sk = false ∧ k = 0)) :
    setpoint s'.RING i sk k = setpoint s.RING i sk k := by
  induction l generalizing s with
  | nil => simp at h; rw [h]
  | cons p l ih =>
    rw [forEach_cons, bind_eq_ok] at h
    obtain ⟨_, s1, hs1, hs2⟩ := h
    simp only [List.map_cons, List.mem_cons] at h1 h2
    rw [ih hs2 (fun hh => h1 ⟨Or.inr hh.1, hh.2⟩) ?_]
    · refine setMagnet1_rest hs1 i sk k (fun hh => h1 ⟨Or.inl hh.1, hh.2⟩) ?_
      rintro ⟨a, b, rfl, d, e⟩
      exact h2 ⟨a, b, Or.inl rfl, d, e⟩
    · rintro ⟨a, b, c, d, e⟩
      refine h2 ⟨a, b, Or.inr c, ?_, e⟩
      exact (compensated_congr (setMagnet1_kept hs1 i (by simp [spNames]) (by simp [magnetWrites]))
        (setMagnet1_modifies.ok hs1).ord).1 d

theorem setMagnetSetpoints_rest {ords : List Nat} {sp : NpArr K} {skew comp : Bool} {order : Nat} {method : String} {s s' : SC K} {u : Unit}
    (h : setMagnetSetpoints ords sp skew order method comp s = .ok u s') (i : Nat) (sk : Bool) (k : Nat)
    (h1 : ¬ (i ∈ ords ∧ sk = skew ∧ k = order))
    (h2 : ¬ (comp = true ∧ order = 1 ∧ i ∈ ords ∧ Compensated s i ∧ sk = false ∧ k = 0)) :
    setpoint s'.RING i sk k = setpoint s.RING i sk k := by
  obtain ⟨sps, s1, hs1, hs2, hs3⟩ := setMagnetSetpoints_eq_ok h
  obtain ⟨-, -, -, -, hlen, -⟩ := magnetRequest_eq_ok hs1
  have hm : (ords.zip sps.vals).map Prod.fst = ords := List.map_fst_zip (by rw [hlen])
  have e : setpoint s'.RING i sk k = setpoint s1.RING i sk k := by
    refine setpoint_congr ?_
    have := updateMagnets_keeps (ords := some ords) (s := s1) (i := i) (a := "SetPoint" ++ plane sk)
      (by cases sk <;> simp [plane, magnetWrites])
    rw [hs3] at this; exact this
  rw [e]
  exact setMagnetLoop_rest _ hs2 i sk k (by rw [hm]; exact h1) (by rw [hm]; exact h2)

/-! ### moving a group of magnets and bringing it back -/

/-- `s` differs from `s0` only in component `order` of the magnets `ords` and in the compensating kicks -/
structure Tracked (ords : List Nat) (skew : Bool) (order : Nat) (comp : Bool) (s0 s : SC K) : Prop where
  ideal : s.IDEALRING = s0.IDEALRING
  sig : s.SIG = s0.SIG
  ord : s.ORD = s0.ORD
  len : s.RING.length = s0.RING.length
  attr : ∀ i a, a ∉ spNames → a ∉ magnetWrites → s.RING.attr i a = s0.RING.attr i a
  other : ∀ i sk k, ¬ (i ∈ ords ∧ sk = skew ∧ k = order) →
    ¬ (comp = true ∧ order = 1 ∧ i ∈ ords ∧ Compensated s0 i ∧ sk = false ∧ k = 0) → setpoint s.RING i sk k = setpoint s0.RING i sk k
  comp : comp = true → order = 1 → ∀ i ∈ ords, Compensated s0 i →
    kick s.RING i false = kick s0.RING i false + compensation s0.RING i (setpoint s.RING i false 1)

theorem Tracked.refl (ords : List Nat) (skew : Bool) (order : Nat) (comp : Bool) (s : SC K) : Tracked ords skew order comp s s :=
  ⟨rfl, rfl, rfl, rfl, fun _ _ _ _ => rfl, fun _ _ _ _ _ => rfl, fun _ _ _ _ _ => by simp [compensation]⟩

theorem Tracked.keep {ords : List Nat} {skew : Bool} {order : Nat} {comp : Bool} {s0 s s' : SC K} (h : Tracked ords skew order comp s0 s)
    (hs : SameMachine s s') : Tracked ords skew order comp s0 s' := by
  have ha : ∀ i a, a ∉ spNames → a ∉ magnetWrites → s'.RING.attr i a = s.RING.attr i a := by
    intro i a h1 h2
    refine hs.attr i a ?_
    simp [spNames, magnetWrites] at h1 h2 ⊢
    tauto
  refine ⟨hs.ideal.trans h.ideal, hs.sig.trans h.sig, hs.ord.trans h.ord, hs.len.trans h.len, fun i a h1 h2 => (ha i a h1 h2).trans
    (h.attr i a h1 h2), fun i sk k h1 h2 => (hs.setpoints i sk k).trans (h.other i sk k h1 h2), fun h1 h2 i hi hc => ?_⟩
  rw [hs.setpoints, ← h.comp h1 h2 i hi hc]
  unfold kick
  rw [hs.setpoints, kickFactor_congr (ha _ _ (by simp [spNames]) (by simp [magnetWrites])) (ha _ _ (by simp [spNames]) (by simp [magnetWrites]))]

theorem Tracked.draw {ords : List Nat} {skew : Bool} {order : Nat} {comp : Bool} {s0 s s' : SC K} (h : Tracked ords skew order comp s0 s)
    (h1 : s'.RING = s.RING) (h2 : s'.IDEALRING = s.IDEALRING) (h3 : s'.SIG = s.SIG) (h4 : s'.ORD = s.ORD) :
    Tracked ords skew order comp s0 s' :=
  h.keep ⟨h2, h3, h4, by rw [h1], fun _ _ _ => by rw [h1], fun _ _ _ => by rw [h1]⟩

theorem Tracked.back {ords : List Nat} {skew : Bool} {order : Nat} {comp : Bool} {s0 s : SC K} (h : Tracked ords skew order comp s0 s)
    (hsafe : ∀ o ∈ ords, Restorable s0 o skew order comp) (hsp : ∀ o ∈ ords, setpoint s.RING o skew order = setpoint s0.RING o skew order) :
    SameMachine s0 s := by
  refine ⟨h.ideal, h.sig, h.ord, h.len, fun i a ha => ?_, fun i sk k => ?_⟩
  · refine h.attr i a ?_ ?_ <;> simp [spNames, magnetWrites] at ha ⊢ <;> tauto
  · by_cases h1 : i ∈ ords ∧ sk = skew ∧ k = order
    · obtain ⟨hi, rfl, rfl⟩ := h1
      exact hsp i hi
    by_cases h2 : comp = true ∧ order = 1 ∧ i ∈ ords ∧ Compensated s0 i ∧ sk = false ∧ k = 0
    · obtain ⟨a, b, hi, hc, rfl, rfl⟩ := h2
      obtain ⟨hsk, -, hf⟩ := (hsafe i hi).bending a b hc.1 hc.2
      subst hsk b
      have := h.comp a rfl i hi hc
      rw [hsp i hi] at this
      simp only [compensation, sub_self, zero_div, zero_mul, add_zero] at this
      unfold kick at this
      rw [kickFactor_congr (h.attr _ _ (by simp [spNames]) (by simp [magnetWrites])) (h.attr _ _ (by simp [spNames]) (by simp [magnetWrites]))]
        at this
      exact mul_right_cancel₀ hf this
    · exact h.other i sk k h1 h2

theorem Tracked.set {ords : List Nat} {sp : NpArr K} {skew : Bool} {order : Nat} {method : String} {comp : Bool} {s0 s s' : SC K} {u : Unit}
    (h : Tracked ords skew order comp s0 s) (hnd : ords.Nodup) (hsafe : ∀ o ∈ ords, Restorable s0 o skew order comp)
    (hs : setMagnetSetpoints ords sp skew order method comp s = .ok u s') : Tracked ords skew order comp s0 s' := by
  have hf := (setMagnetSetpoints_modifies ords sp skew order method comp).ok hs
  have ha : ∀ i a, a ∉ spNames → a ∉ magnetWrites → s'.RING.attr i a = s.RING.attr i a := by
    intro i a h1 h2
    refine hf.attr _ _ ?_
    rintro (⟨-, h⟩ | h)
    · exact magSP_ne h1 h
    · exact h2 h
  have hcc : ∀ i, Compensated s i ↔ Compensated s0 i := fun i =>
    compensated_congr (h.attr _ _ (by simp [spNames]) (by simp [magnetWrites])) h.ord
  refine ⟨hf.ideal.trans h.ideal, hf.sig.trans h.sig, hf.ord.trans h.ord, hf.len.trans h.len, fun i a h1 h2 => (ha i a h1 h2).trans
    (h.attr i a h1 h2), fun i sk k h1 h2 => ?_, ?_⟩
  · rw [← h.other i sk k h1 h2]
    refine setMagnetSetpoints_rest hs i sk k h1 ?_
    rw [hcc]
    exact h2
  · rintro rfl rfl i hi hc
    obtain ⟨rfl, hlim, hfac⟩ := (hsafe i hi).bending rfl rfl hc.1 hc.2
    obtain ⟨k, hk⟩ := List.mem_iff_getElem?.1 hi
    rw [setMagnetSetpoints_kick hs hnd hk, if_pos ((hcc i).2 hc), kickLimit_congr (h.attr _ _ (by simp [spNames]) (by simp [magnetWrites])),
      hlim, h.comp rfl rfl i hi hc]
    simp only [clipped, exceeds, Bool.false_eq_true, if_false]
    have e1 : vecAt s.RING i "NomPolynomB" = vecAt s0.RING i "NomPolynomB" := by
      simp only [vecAt, h.attr i "NomPolynomB" (by simp [spNames]) (by simp [magnetWrites])]
    have e2 : numAt s.RING i "BendingAngle" = numAt s0.RING i "BendingAngle" :=
      numAt_congr (h.attr _ _ (by simp [spNames]) (by simp [magnetWrites]))
    simp only [compensation, e1, e2]
    ring

/-- setting the magnets to the values they had at the beginning -/
theorem Tracked.restore {ords : List Nat} {vals : List K} {skew : Bool} {order : Nat} {comp : Bool} {s0 s s' : SC K} {u : Unit}
    (h : Tracked ords skew order comp s0 s) (hnd : ords.Nodup) (hsafe : ∀ o ∈ ords, Restorable s0 o skew order comp)
    (hvals : vals = ords.map (fun o => setpoint s0.RING o skew order))
    (hs : setMagnetSetpoints ords ⟨false, vals⟩ skew order "abs" comp s = .ok u s') : SameMachine s0 s' := by
  refine (h.set hnd hsafe hs).back hsafe (fun o ho => ?_)
  obtain ⟨k, hk⟩ := List.mem_iff_getElem?.1 ho
  have hl : LastAt ords k o := by
    refine ⟨hk, fun j hj hj2 => ?_⟩
    obtain ⟨hk1, hk2⟩ := List.getElem?_eq_some_iff.1 hk
    obtain ⟨hj1, hj3⟩ := List.getElem?_eq_some_iff.1 hj2
    have := (hnd.getElem_inj_iff (hi := hk1) (hj := hj1)).1 (hk2.trans hj3.symm)
    omega
  have hv : valueFor vals k = setpoint s0.RING o skew order := by
    subst hvals
    unfold valueFor
    split
    · rename_i h1
      simp only [List.length_map] at h1
      have hk0 : k = 0 := by have := (List.getElem?_eq_some_iff.1 hk).1; omega
      subst hk0
      simp [coef, List.getD_eq_getElem?_getD, hk]
    · simp [coef, List.getD_eq_getElem?_getD, hk]
  rw [setMagnetSetpoints_setpoint hs hl]
  simp only [magnetAsked, asked, hv, show ("abs" = "rel") = False by decide, show ("abs" = "add") = False by decide, if_false]
  split
  · rename_i hc
    obtain ⟨h1, h2⟩ := (hsafe o ho).limit hc.1 hc.2
    rw [skewLimit_congr (h.attr _ _ (by simp [spNames]) (by simp [magnetWrites]))]
    cases hlim : skewLimit s0.RING o with
    | inf => rfl
    | fin l =>
      rw [hlim] at h1 h2
      simp only [Lim.Nonneg, Within] at h1 h2
      rw [abs_of_nonneg h1] at h2
      simp only [skewClipped, if_neg (not_lt.2 h2)]
  · rfl

end PySC
