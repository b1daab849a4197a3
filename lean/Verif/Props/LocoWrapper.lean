import Verif.Lemmas.LocoWrapper
import Verif.Lemmas.BbaEval
import Verif.Props.Fields
import Verif.Props.Setpoints
import Verif.Props.ResponseMeasure
/-
C79: the correction of the lattice with the result of LOCO.
C80: the correction of the diagnostics with the result of LOCO.
-/
set_option linter.unusedSectionVars false
namespace PySC
open Py Spec
variable {K : Type} [Field K] [LinearOrder K]

section lattice
variable [FloorRing K] [IsStrictOrderedRing K]

/-- **C79**: `apply_lattice_correction` stores in every listed quadrupole component the value of the last group containing it, within the
limit of a skew quadrupole, and leaves all other set-points, apart from the dipole compensation of listed magnets; else only the
realised fields change. -/
theorem C79_setpoints (fp : FitParameters K) (comp : Bool) (damping : K) (s s' : SC K)
    (h : applyLatticeCorrection fp comp damping s = .ok () s') :
    (∀ o skew n, (groupsFor fp.params skew o).getLast? = some n → Lim.Nonneg (skewLimit s.RING o) →
      setpoint s'.RING o skew 1 = magnetStored s.RING o skew 1 (correctedValue fp.orig fp.ideal fp.values damping n)) ∧
    (∀ o skew k, (k ≠ 1 ∨ groupsFor fp.params skew o = []) →
      (k ≠ 0 ∨ skew = true ∨ comp = false ∨ groupsFor fp.params false o = []) →
      setpoint s'.RING o skew k = setpoint s.RING o skew k) ∧
    Frame (fun i a => ((∃ g ∈ fp.params, ∃ p ∈ g, p.1 = i) ∧ a ∈ ["SetPointA", "SetPointB"]) ∨
      a ∈ ["PolynomA", "PolynomB", "KickAngle", "MaxOrder"]) s s' := by
  unfold applyLatticeCorrection at h
  rw [latticeCorrection_flat, bind_eq_ok] at h
  obtain ⟨⟨⟩, s1, h1, h2⟩ := h
  rw [bindGet_eq_ok] at h2
  have c := correctElements _ _ _ h1
  have f2 : Frame (fun _ a => a ∈ magnetWrites) s1 s' := (updateMagnets_modifies _).ok h2
  have e : ∀ o skew k, setpoint s'.RING o skew k = setpoint s1.RING o skew k := fun o skew k =>
    setpoint_congr (f2.attr _ _ (by cases skew <;> decide))
  refine ⟨fun o skew n hn hl => ?_, fun o skew k h1 h2 => ?_, ?_⟩
  · rw [e, c.last o skew n (by rwa [groupsFor_eq] at hn)]
    cases skew
    · simp [magnetStored]
    · simp only [magnetStored, if_true, and_self]
      rw [skewClipped_eq_clip hl]
  · rw [e]
    simp only [groupsFor_eq] at h1 h2
    exact c.rest o skew k h1 h2
  · refine Frame.trans _ _ _ (c.frame.mono ?_) (f2.mono ?_)
    · rintro i a (⟨⟨p, hp, rfl⟩, h⟩ | h)
      · refine Or.inl ⟨?_, h⟩
        simp only [flatParams, List.mem_flatMap, List.mem_map] at hp
        obtain ⟨g, hg, q, hq, rfl⟩ := hp
        exact ⟨g.1, (List.mem_zipIdx hg).2.2 ▸ List.getElem_mem _, q, hq, rfl⟩
      · exact Or.inr (by simpa [magnetWrites] using h)
    · intro i a h
      exact Or.inr (by simpa [magnetWrites] using h)

/-- **C79**: if the fit has found the true gradient of a magnet, the deviation of the gradient from the wanted one is multiplied by
`1 - damping * (1 + calibration error)`. -/
theorem C79_contraction (fp : FitParameters K) (comp : Bool) (damping : K) (s s' : SC K)
    (h : applyLatticeCorrection fp comp damping s = .ok () s') (o : Nat) (skew : Bool) (n : Nat)
    (hn : (groupsFor fp.params skew o).getLast? = some n)
    (horig : coef fp.orig n = setpoint s.RING o skew 1) (hfit : coef fp.values n = gradient s.RING o skew)
    (hlim : skew = true → Lim.Nonneg (skewLimit s.RING o) ∧
      Within (skewLimit s.RING o) (correctedValue fp.orig fp.ideal fp.values damping n))
    (ho : o ∈ s.ORD.Magnet) (halone : ∀ j ∈ s.ORD.Magnet, Affects s.RING j o → j = o)
    (hcal : CalFits s.RING o) (hup : HasField s.RING o o s.RING) (hsys : NoInducedGradient s.RING o skew) :
    gradient s'.RING o skew - coef fp.ideal n =
      (1 - damping * (1 + gradientError s.RING o skew)) * (gradient s.RING o skew - coef fp.ideal n) := by
  unfold applyLatticeCorrection at h
  rw [latticeCorrection_flat, bind_eq_ok] at h
  obtain ⟨⟨⟩, s1, h1, h2⟩ := h
  rw [bindGet_eq_ok] at h2
  have c := correctElements _ _ _ h1
  have keep : ∀ i a, a ∉ ["SetPointA", "SetPointB"] → a ∉ magnetWrites → s1.RING.attr i a = s.RING.attr i a := fun i a h1 h2 =>
    c.frame.attr i a (by rintro (⟨-, h⟩ | h); exacts [h1 h, h2 h])
  have hsp : setpoint s1.RING o skew 1 = correctedValue fp.orig fp.ideal fp.values damping n := by
    rw [c.last o skew n (by rwa [groupsFor_eq] at hn)]
    cases skew
    · simp
    · rw [if_pos rfl, skewClipped_eq_clip (hlim rfl).1]
      obtain ⟨hl, hw⟩ := hlim rfl
      cases hs : skewLimit s.RING o with
      | inf => rfl
      | fin l =>
        rw [hs] at hl hw
        simp only [Lim.Nonneg] at hl
        simp only [Within, abs_of_nonneg hl] at hw
        rw [abs_le] at hw
        simp [clip, hw.1, hw.2]
  have hf : HasField s1.RING o o s'.RING := by
    refine C13_realised_field _ s1 s' h2 o o (by rw [c.frame.ord]; exact ho) (Or.inl rfl) (fun j hj hj' => ?_) (fun ab hab => ?_)
    · rw [c.frame.ord] at hj
      refine halone j hj ?_
      unfold Affects at hj' ⊢
      rwa [keep j "MasterOf" (by decide) (by decide)] at hj'
    · have hl := hcal ab hab
      have hab' : ∃ sk, ab = plane sk := by
        simp only [List.mem_cons, List.not_mem_nil, or_false] at hab
        rcases hab with rfl | rfl
        exacts [⟨true, rfl⟩, ⟨false, rfl⟩]
      obtain ⟨sk, rfl⟩ := hab'
      rw [c.len]
      have : vecAt s1.RING o ("CalError" ++ plane sk) = vecAt s.RING o ("CalError" ++ plane sk) := by
        unfold vecAt
        rw [keep o _ (by cases sk <;> decide) (by cases sk <;> decide)]
      rw [this]
      exact hl
  have grad : ∀ (r r' : Ring K), HasField r o o r' → NoInducedGradient r o skew →
      gradient r' o skew = setpoint r o skew 1 * (1 + gradientError r o skew) + coef (vecAt r o ("Polynom" ++ plane skew ++ "Offset")) 1 := by
    intro r r' hf hs
    have hz : ∀ source ∈ ["A", "B"], systematicFrom r o o (plane skew) source 1 = 0 := by
      intro source hsource
      unfold systematicFrom
      rw [List.sum_eq_zero]
      intro x hx
      obtain ⟨ne, hne, rfl⟩ := List.mem_map.1 hx
      rw [hs source hsource ne hne, mul_zero]
    have hm : gradient r' o skew = multipole r o o (plane skew) 1 := by
      unfold gradient
      cases skew
      · obtain ⟨v, hv, he, -⟩ := hf.polynomB
        show coef (vecAt r' o "PolynomB") 1 = _
        rw [vecAt_of_attr hv, he, if_neg (by decide), add_zero]
        rfl
      · obtain ⟨v, hv, he⟩ := hf.polynomA
        show coef (vecAt r' o "PolynomA") 1 = _
        rw [vecAt_of_attr hv, he]
        rfl
    rw [hm]
    unfold multipole
    rw [hz "A" (by simp), hz "B" (by simp), add_zero, add_zero]
    rfl
  have hs1 : NoInducedGradient s1.RING o skew := by
    intro source hsource ne hne
    refine hsys source hsource ne ?_
    unfold tableAt at hne ⊢
    simp only [List.mem_cons, List.not_mem_nil, or_false] at hsource
    rwa [keep o _ (by rcases hsource with rfl | rfl <;> cases skew <;> decide) (by rcases hsource with rfl | rfl <;> cases skew <;> decide)] at hne
  have e1 : gradientError s1.RING o skew = gradientError s.RING o skew := by
    unfold gradientError vecAt
    rw [keep o _ (by cases skew <;> decide) (by cases skew <;> decide)]
  have e2 : vecAt s1.RING o ("Polynom" ++ plane skew ++ "Offset") = vecAt s.RING o ("Polynom" ++ plane skew ++ "Offset") := by
    unfold vecAt
    rw [keep o _ (by cases skew <;> decide) (by cases skew <;> decide)]
  rw [grad _ _ hf hs1, e1, e2, hsp]
  unfold correctedValue
  rw [hfit, horig]
  have := grad _ _ hup hsys
  rw [this]
  ring

/-- **C79**: without calibration error and damping the wanted gradient is reached in one step. -/
theorem C79_exact (fp : FitParameters K) (comp : Bool) (s s' : SC K)
    (h : applyLatticeCorrection fp comp 1 s = .ok () s') (o : Nat) (skew : Bool) (n : Nat)
    (hn : (groupsFor fp.params skew o).getLast? = some n)
    (horig : coef fp.orig n = setpoint s.RING o skew 1) (hfit : coef fp.values n = gradient s.RING o skew)
    (hlim : skew = true → Lim.Nonneg (skewLimit s.RING o) ∧
      Within (skewLimit s.RING o) (correctedValue fp.orig fp.ideal fp.values 1 n))
    (ho : o ∈ s.ORD.Magnet) (halone : ∀ j ∈ s.ORD.Magnet, Affects s.RING j o → j = o)
    (hcal : CalFits s.RING o) (hup : HasField s.RING o o s.RING) (hsys : NoInducedGradient s.RING o skew)
    (herr : gradientError s.RING o skew = 0) : gradient s'.RING o skew = coef fp.ideal n := by
  have := C79_contraction fp comp 1 s s' h o skew n hn horig hfit hlim ho halone hcal hup hsys
  rw [herr] at this
  have e : gradient s'.RING o skew - coef fp.ideal n = 0 := by rw [this]; ring
  exact sub_eq_zero.1 e

/-- **C79** is violated: the measurement for LOCO never completes. -/
theorem C79_violated_measurement (E : Env K) (B : BeamEnv K) (amp : List K × List K) (deltaRF : K) (bpms : List Nat)
    (cms : List Nat × List Nat) (s : SC K) : (locoMeasurement E B amp deltaRF bpms cms s).isOk = false := by
  cases h : locoMeasurement E B amp deltaRF bpms cms s with
  | error e s' => rfl
  | ok out s' =>
    exfalso
    unfold locoMeasurement at h
    rw [bindGet_eq_ok, bindLift_eq_ok] at h; obtain ⟨_, -, h⟩ := h
    rw [bindRd_eq_ok] at h; obtain ⟨_, -, h⟩ := h
    rw [bind_eq_ok] at h; obtain ⟨_, s1, -, h⟩ := h
    rw [bind_eq_ok] at h; obtain ⟨_, s2, h2, -⟩ := h
    have := C54_violated_steps E B false deltaRF (some bpms) none 3 (by decide) s1
    rw [h2] at this
    cases this

end lattice

/-- **C79** is violated: the fit parameters can be set up for nothing only. -/
theorem C79_violated_fit_parameters (families : List (List Nat)) :
    locoFitParameters families = .ok () ↔ ∀ f ∈ families, f = [] := by
  unfold locoFitParameters
  split
  · rename_i h
    obtain ⟨f, hf, he⟩ := List.any_eq_true.1 h
    simp only [reduceCtorEq, false_iff]
    intro hh
    rw [hh f hf] at he
    simp at he
  · rename_i h
    simp only [true_iff]
    intro f hf
    by_contra hne
    exact h (List.any_eq_true.2 ⟨f, hf, by simpa using hne⟩)

/-- **C79** is violated: without steps the structure of the correctors can not be set up. -/
theorem C79_violated_cm_structure (cms : Option (List Nat × List Nat)) (s : SC K) : locoCmStructure cms .none s = .error .typeError := rfl

/-- **C79**: with the same step for all correctors of a plane, the kick recorded for each corrector, in thousandths, is twice its step. -/
theorem C79_cm_structure (cms : Option (List Nat × List Nat)) (x : K) (s : SC K) :
    ∃ d, locoCmStructure cms (.scalar x) s = .ok d ∧ d.hIndex = (cms.getD (s.ORD.HCM, s.ORD.VCM)).1 ∧
      d.vIndex = (cms.getD (s.ORD.HCM, s.ORD.VCM)).2 ∧
      d.hSteps = d.hIndex.map (fun _ => x) ∧ d.vSteps = d.vIndex.map (fun _ => x) ∧
      d.hKicks = d.hIndex.map (fun _ => 2000 * x) ∧ d.vKicks = d.vIndex.map (fun _ => 2000 * x) := by
  unfold locoCmStructure kicksOf
  simp [List.map_const', bind, Except.bind]

/-- quadrupole 2 and the gradient of dipole 4 in one group, the skew component of 2 in another, the quadrupole again in a third; the
gradients of all three are known -/
def Example.fit : FitParameters ℚ :=
  ⟨[[(2, "SetPointB"), (4, "SetPointB")], [(2, "SetPointA")], [(2, "SetPointB")]], [1, 0, 2], [1, 0, 2], [1, 1/100, 21/10]⟩

example : (applyLatticeCorrection Example.fit true (1/2) Example.sc).isOk = true ∧
    groupsFor Example.fit.params false 2 = [0, 2] ∧ groupsFor Example.fit.params true 2 = [1] ∧
    groupsFor Example.fit.params true 4 = [] ∧ skewLimit Example.sc.RING 2 = .fin (1/10) := by decide +kernel

/-- the example with its realised fields -/
def Example.live : SC ℚ := (updateMagnets none Example.sc).state

theorem Example.live_updated : updateMagnets none Example.live = .ok () Example.live :=
  C14_update_magnets_idempotent none Example.sc _ (ok_of_isOk (by decide +kernel))

example : (applyLatticeCorrection Example.fit true (1/2) Example.live).isOk = true ∧
    coef Example.fit.orig 2 = setpoint Example.live.RING 2 false 1 ∧ coef Example.fit.values 2 = gradient Example.live.RING 2 false ∧
    2 ∈ Example.live.ORD.Magnet ∧ HasField Example.live.RING 2 2 Example.live.RING ∧ CalFits Example.live.RING 2 ∧
    (∀ j ∈ Example.live.ORD.Magnet, Affects Example.live.RING j 2 → j = 2) ∧
    NoInducedGradient Example.live.RING 2 false ∧ gradientError Example.live.RING 2 false = 1/20 ∧
    gradient (applyLatticeCorrection Example.fit true (1/2) Example.live).state.RING 2 false - 2 = (1 - 1/2 * (21/20)) * (21/10 - 2) := by
  have hcal : CalFits Example.live.RING 2 := by simp only [CalFits]; decide +kernel
  have halone : ∀ j ∈ Example.live.ORD.Magnet, Affects Example.live.RING j 2 → j = 2 := by
    have h : ∀ j ∈ Example.live.ORD.Magnet, j ≠ 2 → Example.live.RING.attr j "MasterOf" = none := by decide +kernel
    intro j hj haff
    by_contra hne
    rcases haff with h' | ⟨l, hl, -⟩
    · exact hne h'.symm
    · rw [h j hj hne] at hl; cases hl
  refine ⟨by decide +kernel, by decide +kernel, by decide +kernel, by decide +kernel, ?_, hcal, halone, ?_, by decide +kernel, by decide +kernel⟩
  · exact C13_all_magnets _ _ Example.live_updated 2 (by decide +kernel) halone hcal
  · simp only [NoInducedGradient]; decide +kernel

/-! ### C80 -/

/-- the gains which enter the correction: outliers are replaced by 1, and if requested the corrections are shifted to mean zero -/
def Spec.usedGain (out : Outliers K) (x : K) : K :=
  match out with
  | .at t => if t ≤ |1 - x| then 1 else x
  | _ => x

/-- the mean of the corrections `1 - x` -/
def Spec.meanCorrection (l : List K) : K := (l.map (fun x => 1 - x)).sum / (l.length : K)

theorem usedGains_eq_ok {out : Outliers K} {m : Bool} {g g' : List K} (h : usedGains out m g = .ok g') :
    out ≠ .none ∧ g' = (g.map (usedGain out)).map (fun x => x + if m = true then meanCorrection (g.map (usedGain out)) else 0) := by
  unfold usedGains at h
  cases out with
  | none => cases h
  | empty =>
    have e : g.map (usedGain (K := K) .empty) = g := by
      show g.map (fun x => x) = g
      simp
    rw [e]
    refine ⟨by simp, ?_⟩
    cases m
    · simp [Except.ok_bind'] at h; simp [← h]
    · simp [Except.ok_bind'] at h; simp [← h, meanCorrection]
  | «at» t =>
    refine ⟨by simp, ?_⟩
    cases m
    · simp [Except.ok_bind'] at h; rw [← h]; simp [usedGain]
    · simp [Except.ok_bind'] at h; rw [← h]; simp [meanCorrection, usedGain, Function.comp_def]

theorem Spec.sum_corrections (l : List K) [CharZero K] (hl : l ≠ []) : (l.map (fun x => 1 - (x + meanCorrection l))).sum = 0 := by
  have e : (l.map (fun x => 1 - (x + meanCorrection l))).sum = (l.map (fun x => 1 - x)).sum - (l.length : K) * meanCorrection l := by
    generalize meanCorrection l = m
    clear hl
    induction l with
    | nil => simp
    | cons x l ih => simp only [List.map_cons, List.sum_cons, List.length_cons, ih]; push_cast; ring
  rw [e, meanCorrection, mul_div_cancel₀, sub_self]
  exact Nat.cast_ne_zero.2 (fun h => hl (List.length_eq_zero_iff.1 h))

theorem correctGains_eq_ok {d : BpmData K} {out : Outliers K} {m : Bool} {p : Nat} {s s' : SC K} {u : Unit}
    (h : correctGains d out m p s = .ok u s') :
    ∃ ords g, (if p = 0 then d.hIndex else d.vIndex).mapM (idx d.index) = .ok ords ∧
      usedGains out m (if p = 0 then d.hGain else d.vGain) = .ok g ∧ ords.length ≤ g.length ∧
      ∀ i q, calError s'.RING i q = calError s.RING i q + if q = p then sumFor ords (g.map (fun x => 1 - x)) i else 0 := by
  unfold correctGains at h
  rw [bindLift_eq_ok] at h; obtain ⟨g, hg, h⟩ := h
  rw [bindLift_eq_ok] at h; obtain ⟨ords, ho, h⟩ := h
  obtain ⟨h1, h2⟩ := gainLoop ords 0 s s' h
  refine ⟨ords, g, ho, hg, by simpa using h1, fun i q => by simpa using h2 i q⟩

theorem correctKicks_eq_ok {c : CmData K} {p : Nat} {s s' : SC K} {u : Unit} (h : correctKicks c p s = .ok u s') : s' = s := by
  unfold correctKicks at h
  by_cases hc : (if p = 0 then c.hIndex else c.vIndex).isEmpty = true
  · rw [if_pos hc] at h; cases h; rfl
  · rw [if_neg hc] at h; cases h

theorem when_eq_ok {σ : Type} {b : Bool} {m : Py σ Unit} {s s' : σ} {u : Unit} (h : Py.when b m s = .ok u s') :
    (b = true ∧ m s = .ok u s') ∨ (b = false ∧ s' = s) := by
  cases b
  · cases h; exact Or.inr ⟨rfl, rfl⟩
  · exact Or.inl ⟨rfl, h⟩

theorem correctGains_roll (d : BpmData K) (out : Outliers K) (m : Bool) (p : Nat) :
    Rel (Frame (fun i a => i ∈ d.index ∧ a = "CalError")) (correctGains d out m p) := by
  intro s
  unfold correctGains
  rw [bind_apply]
  cases hg : usedGains out m (if p = 0 then d.hGain else d.vGain) with
  | error e => exact Frame.refl _
  | ok g =>
    simp only [lift, bind_apply]
    cases ho : (if p = 0 then d.hIndex else d.vIndex).mapM (idx d.index) with
    | error e => exact Frame.refl _
    | ok ords =>
      simp only
      refine Rels.forEach (R := Frame (fun i a => i ∈ d.index ∧ a = "CalError")) (fun o hmem => Rels.bind (Rels.lift _) (fun x => ?_)) s
      refine Rel.mono (fun _ _ f => f.mono ?_) (addCalError_writes _ _ _)
      rintro i a ⟨rfl, rfl⟩
      refine ⟨?_, rfl⟩
      obtain ⟨-, h2, h3⟩ := List.mem_zipIdx hmem
      have hin : o.1 ∈ ords := by rw [h3]; exact List.getElem_mem _
      obtain ⟨j, -, hj⟩ := mapM_except_src ho hin
      rw [idx_eq_ok] at hj
      exact List.mem_iff_getElem?.2 ⟨j, hj⟩

/-- the two loops of `applyDiagnosticCorrection` -/
theorem diagnostic_eq_ok {c : CmData K} {d : BpmData K} {m : Bool} {out : Outliers K} {s s' : SC K} {u : Unit}
    (h : applyDiagnosticCorrection c d m out s = .ok u s') :
    ∃ s1 s2, (d.fitGains = true → correctGains d out m 0 s = .ok () s1 ∧ correctGains d out m 1 s1 = .ok () s2) ∧
      (d.fitGains = false → s2 = s) ∧
      ((d.fitCoupling = some false ∧ s' = s2) ∨ (d.fitCoupling = some true ∧ correctRolls d s2 = .ok () s')) := by
  unfold applyDiagnosticCorrection at h
  rw [forEach_cons, forEach_cons, bind_eq_ok] at h
  obtain ⟨⟨⟩, s2, h1, h⟩ := h
  rw [bind_eq_ok] at h1; obtain ⟨⟨⟩, s1, h0, h1⟩ := h1
  rw [bind_eq_ok] at h0; obtain ⟨⟨⟩, t0, k0, h0⟩ := h0
  rw [bind_eq_ok] at h1; obtain ⟨⟨⟩, s2', h1, hnil⟩ := h1
  obtain rfl : s2' = s2 := by simpa using hnil
  rw [bind_eq_ok] at h1; obtain ⟨⟨⟩, t1, k1, h1⟩ := h1
  have e0 : t0 = s := by
    rcases when_eq_ok k0 with ⟨-, h⟩ | ⟨-, h⟩
    · exact correctKicks_eq_ok h
    · exact h
  have e1 : t1 = s1 := by
    rcases when_eq_ok k1 with ⟨-, h⟩ | ⟨-, h⟩
    · exact correctKicks_eq_ok h
    · exact h
  subst e0 e1
  refine ⟨t1, s2', fun hb => ?_, fun hb => ?_, ?_⟩
  · rcases when_eq_ok h0 with ⟨-, h0⟩ | ⟨hf, -⟩
    · rcases when_eq_ok h1 with ⟨-, h1⟩ | ⟨hf, -⟩
      · exact ⟨h0, h1⟩
      · rw [hb] at hf; cases hf
    · rw [hb] at hf; cases hf
  · rcases when_eq_ok h0 with ⟨hf, -⟩ | ⟨-, h0⟩
    · rw [hb] at hf; cases hf
    · rcases when_eq_ok h1 with ⟨hf, -⟩ | ⟨-, h1⟩
      · rw [hb] at hf; cases hf
      · rw [h1, h0]
  · cases hc : d.fitCoupling with
    | none => rw [hc] at h; cases h
    | some b =>
      rw [hc] at h
      cases b
      · cases h; exact Or.inl ⟨rfl, rfl⟩
      · exact Or.inr ⟨rfl, h⟩

theorem correctRolls_writes (d : BpmData K) : Rel (Frame (fun i a => i ∈ d.index ∧ a = "Roll")) (correctRolls d) := by
  unfold correctRolls
  refine Rels.ite (Rels.throw _) (Rels.forEach (fun o hmem => ?_))
  refine Rels.bind (Rels.lift _) (fun _ => Rels.bind (Rels.lift _) (fun _ => Rels.bind (Rels.rd _) (fun _ => Rels.setAttr (fun _ => Frame.setAttr ?_))))
  obtain ⟨-, h2, h3⟩ := List.mem_zipIdx hmem
  exact ⟨by rw [h3]; exact List.getElem_mem _, rfl⟩

/-- **C80**: the calibration error of a BPM is reduced by the deviation of its fitted gain from one, unless this is beyond the limit for
outliers; if requested, the mean of the corrections is subtracted from each. -/
theorem C80_gains (c : CmData K) (d : BpmData K) (m : Bool) (out : Outliers K) (s s' : SC K) (hfit : d.fitGains = true)
    (h : applyDiagnosticCorrection c d m out s = .ok () s') (p : Nat) (hp : p < 2) :
    ∃ ords, (if p = 0 then d.hIndex else d.vIndex).map (fun j => d.index[j]?) = ords.map some ∧
      ords.length ≤ (if p = 0 then d.hGain else d.vGain).length ∧
      ∀ o, calError s'.RING o p = calError s.RING o p + sumFor ords ((if p = 0 then d.hGain else d.vGain).map (fun x =>
        1 - (usedGain out x + if m = true then meanCorrection ((if p = 0 then d.hGain else d.vGain).map (usedGain out)) else 0))) o := by
  obtain ⟨s1, s2, hg, -, hr⟩ := diagnostic_eq_ok h
  obtain ⟨h0, h1⟩ := hg hfit
  have hlast : ∀ o q, calError s'.RING o q = calError s2.RING o q := by
    intro o q
    rcases hr with ⟨-, rfl⟩ | ⟨-, hr⟩
    · rfl
    · have f := (correctRolls_writes d).ok hr
      unfold calError vecAt
      rw [f.attr o "CalError" (fun hh => absurd hh.2 (by decide))]
  obtain ⟨ords0, g0, ho0, hu0, hl0, hv0⟩ := correctGains_eq_ok h0
  obtain ⟨ords1, g1, ho1, hu1, hl1, hv1⟩ := correctGains_eq_ok h1
  have idxs : ∀ (l : List Nat) (ords : List Nat), l.mapM (idx d.index) = .ok ords → l.map (fun j => d.index[j]?) = ords.map some := by
    intro l ords h
    obtain ⟨hl, hg⟩ := mapM_except_eq_ok h
    refine List.ext_getElem? (fun k => ?_)
    rw [List.getElem?_map, List.getElem?_map]
    cases hk : l[k]? with
    | none =>
      rw [List.getElem?_eq_none_iff] at hk
      rw [List.getElem?_eq_none_iff.2 (by omega)]
      rfl
    | some j =>
      obtain ⟨y, hy, hw⟩ := hg k j hk
      rw [idx_eq_ok] at hy
      rw [hw, Option.map_some, Option.map_some, hy]
  have hp' : p = 0 ∨ p = 1 := by omega
  rcases hp' with rfl | rfl
  · obtain ⟨-, e⟩ := usedGains_eq_ok hu0
    refine ⟨ords0, idxs _ _ ho0, ?_, fun o => ?_⟩
    · rw [e] at hl0; simpa using hl0
    · rw [hlast, hv1, hv0, e]
      simp [Function.comp_def]
  · obtain ⟨-, e⟩ := usedGains_eq_ok hu1
    refine ⟨ords1, idxs _ _ ho1, ?_, fun o => ?_⟩
    · rw [e] at hl1; simpa using hl1
    · rw [hlast, hv1, hv0, if_neg (by decide), add_zero, if_pos rfl, e]
      simp [Function.comp_def]

/-- **C80**: fitted gains which are the true ones, and not taken for outliers, remove the calibration errors. -/
theorem C80_recovers (c : CmData K) (d : BpmData K) (out : Outliers K) (s s' : SC K) (hfit : d.fitGains = true)
    (h : applyDiagnosticCorrection c d false out s = .ok () s') (p : Nat) (hp : p < 2) (hnd : d.index.Nodup)
    (hnd' : (if p = 0 then d.hIndex else d.vIndex).Nodup) (k j o : Nat) (hk : (if p = 0 then d.hIndex else d.vIndex)[k]? = some j)
    (hj : d.index[j]? = some o) (hgain : (if p = 0 then d.hGain else d.vGain)[k]? = some (1 + calError s.RING o p))
    (hout : ∀ t, out = .at t → |calError s.RING o p| < t) : calError s'.RING o p = 0 := by
  obtain ⟨ords, ho, -, hc⟩ := C80_gains c d false out s s' hfit h p hp
  rw [hc]
  have hok : ords[k]? = some o := by
    have := congrArg (fun l => l[k]?) ho
    simp only [List.getElem?_map, hk, Option.map_some, hj] at this
    cases hh : ords[k]? with
    | none => rw [hh] at this; cases this
    | some x => rw [hh] at this; simpa using this.symm
  have hord : ords.Nodup := by
    have hm : (ords.map some).Nodup := by
      rw [← ho]
      refine List.Nodup.map_on (fun a ha b hb hab => ?_) hnd'
      have hsome : ∀ a ∈ (if p = 0 then d.hIndex else d.vIndex), a < d.index.length := by
        intro a ha
        have : d.index[a]? ∈ ords.map some := by rw [← ho]; exact List.mem_map_of_mem ha
        obtain ⟨x, -, hx⟩ := List.mem_map.1 this
        exact (List.getElem?_eq_some_iff.1 hx.symm).1
      exact (List.getElem?_inj (hsome a ha) hnd).1 hab
    exact List.Nodup.of_map _ hm
  have hu : usedGain out (1 + calError s.RING o p) = 1 + calError s.RING o p := by
    cases out with
    | none => rfl
    | empty => rfl
    | «at» t =>
      have := hout t rfl
      unfold usedGain
      simp only
      rw [if_neg]
      have e : |1 - (1 + calError s.RING o p)| = |calError s.RING o p| := by rw [sub_add_cancel_left, abs_neg]
      rw [e, not_le]
      exact this
  rw [sumFor_nodup hord hok (x := 1 - (1 + calError s.RING o p)) (by rw [List.getElem?_map, hgain, Option.map_some, hu]; simp)]
  ring

/-- **C80**: if requested, the mean of the corrections applied to the BPMs of a plane is zero. -/
theorem C80_mean [IsStrictOrderedRing K] (c : CmData K) (d : BpmData K) (out : Outliers K) (s s' : SC K) (hfit : d.fitGains = true)
    (h : applyDiagnosticCorrection c d true out s = .ok () s') (p : Nat) (hp : p < 2) (ords : List Nat) (hnd : ords.Nodup)
    (hords : (if p = 0 then d.hIndex else d.vIndex).map (fun j => d.index[j]?) = ords.map some)
    (hlen : ords.length = (if p = 0 then d.hGain else d.vGain).length) (hne : ords ≠ []) :
    (ords.map (fun o => calError s'.RING o p - calError s.RING o p)).sum = 0 := by
  obtain ⟨ords', ho, -, hc⟩ := C80_gains c d true out s s' hfit h p hp
  obtain rfl : ords' = ords := List.map_injective_iff.2 (Option.some_injective _) (ho.symm.trans hords)
  have e : (fun o => calError s'.RING o p - calError s.RING o p) = sumFor ords' ((if p = 0 then d.hGain else d.vGain).map (fun x =>
        1 - (usedGain out x + if true = true then meanCorrection ((if p = 0 then d.hGain else d.vGain).map (usedGain out)) else 0))) := by
    funext o
    rw [hc]
    ring
  rw [e, sum_sumFor hnd (by simpa using hlen)]
  simp only [if_true]
  have := sum_corrections ((if p = 0 then d.hGain else d.vGain).map (usedGain out)) (by
    intro hh
    rw [List.map_eq_nil_iff] at hh
    rw [hh] at hlen
    exact hne (List.length_eq_zero_iff.1 (by simpa using hlen)))
  simpa [Function.comp_def] using this

/-- **C80**: with the coupling fitted, the roll angle of every BPM is reduced by half the difference of its couplings, else it stays. -/
theorem C80_rolls (c : CmData K) (d : BpmData K) (m : Bool) (out : Outliers K) (s s' : SC K)
    (h : applyDiagnosticCorrection c d m out s = .ok () s') (o : Nat) :
    (d.fitCoupling = some true ∧ (∀ (k : Nat) (v w : K), d.index.Nodup → d.index[k]? = some o → d.vCoupling[k]? = some v → d.hCoupling[k]? = some w →
      numAt s'.RING o "Roll" = numAt s.RING o "Roll" - (v - w) / 2)) ∨
    (d.fitCoupling = some false ∧ s'.RING.attr o "Roll" = s.RING.attr o "Roll") := by
  obtain ⟨s1, s2, hg, hg', hr⟩ := diagnostic_eq_ok h
  have hkeep : s2.RING.attr o "Roll" = s.RING.attr o "Roll" := by
    cases hb : d.fitGains with
    | false => rw [hg' hb]
    | true =>
      obtain ⟨h0, h1⟩ := hg hb
      rw [((correctGains_roll d out m 1).ok h1).attr o "Roll" (fun hh => absurd hh.2 (by decide)),
        ((correctGains_roll d out m 0).ok h0).attr o "Roll" (fun hh => absurd hh.2 (by decide))]
  rcases hr with ⟨hc, rfl⟩ | ⟨hc, hr⟩
  · exact Or.inr ⟨hc, hkeep⟩
  · refine Or.inl ⟨hc, fun k v w hnd hk hv hw => ?_⟩
    unfold correctRolls at hr
    split at hr
    · cases hr
    · rename_i hlen
      have := rollLoop (a := d.vCoupling) (b := d.hCoupling) d.index 0 s2 s' (by simpa using hlen) hr o
      have hn : numAt s2.RING o "Roll" = numAt s.RING o "Roll" := by unfold numAt; rw [hkeep]
      rw [this, hn, sumFor_nodup hnd hk (x := (v - w) / 2)]
      rw [List.drop_zero, List.getElem?_map]
      have hz : (d.vCoupling.zip d.hCoupling)[k]? = some (v, w) := by
        rw [List.getElem?_zip_eq_some]; exact ⟨hv, hw⟩
      rw [hz]
      rfl

/-- **C80**: nothing else changes, also if the call raises. -/
theorem C80_nothing_else (c : CmData K) (d : BpmData K) (m : Bool) (out : Outliers K) (s : SC K) :
    Frame (fun i a => i ∈ d.index ∧ a ∈ ["CalError", "Roll"]) s (applyDiagnosticCorrection c d m out s).state := by
  have : Rel (Frame (fun i a => i ∈ d.index ∧ a ∈ ["CalError", "Roll"])) (applyDiagnosticCorrection c d m out) := by
    unfold applyDiagnosticCorrection
    refine Rels.bind (Rels.forEach (fun p _ => Rels.bind (Rels.when ?_) (fun _ => Rels.when ?_))) (fun _ => ?_)
    · unfold correctKicks
      exact Rels.ite (Rels.pure' _) (Rels.throw _)
    · exact Rel.mono (fun _ _ f => f.mono (fun i a h => ⟨h.1, by simp [h.2]⟩)) (correctGains_roll d out m p)
    · split
      · exact Rels.throw _
      · exact Rels.pure' _
      · exact Rel.mono (fun _ _ f => f.mono (fun i a h => ⟨h.1, by simp [h.2]⟩)) (correctRolls_writes d)
  exact this s

/-- **C80** is violated: with the structure made by `loco_bpm_structure` the correction never completes, whether gains are fitted or not;
and with the default limit for outliers gains can not be corrected. -/
theorem C80_violated_defaults (c : CmData K) (d : BpmData K) (m : Bool) (out : Outliers K) (bpms : Option (List Nat)) (fitGains : Bool) (s : SC K) :
    (applyDiagnosticCorrection c { locoBpmStructure bpms s with fitGains := fitGains } m out s).isOk = false ∧
    (d.fitGains = true → (applyDiagnosticCorrection c d m .none s).isOk = false) := by
  constructor
  · cases h : applyDiagnosticCorrection c { locoBpmStructure bpms s with fitGains := fitGains } m out s with
    | error e s' => rfl
    | ok u s' =>
      obtain ⟨_, _, -, -, ⟨hc, -⟩ | ⟨hc, -⟩⟩ := diagnostic_eq_ok h <;> cases hc
  · intro hb
    cases h : applyDiagnosticCorrection c d m .none s with
    | error e s' => rfl
    | ok u s' =>
      obtain ⟨s1, s2, hg, -, -⟩ := diagnostic_eq_ok h
      obtain ⟨_, _, -, hu, -⟩ := correctGains_eq_ok (hg hb).1
      exact absurd rfl (usedGains_eq_ok hu).1

/-- **C80** is violated: fitted kicks of correctors can not be applied. -/
theorem C80_violated_kicks (c : CmData K) (d : BpmData K) (m : Bool) (out : Outliers K) (s : SC K) (hb : c.fitKicks = true)
    (hc : c.hIndex ≠ []) : applyDiagnosticCorrection c d m out s = .error .typeError s := by
  unfold applyDiagnosticCorrection
  rw [forEach_cons, bind_apply, bind_apply, bind_apply]
  have : Py.when c.fitKicks (correctKicks c 0) s = .error .typeError s := by
    rw [hb]
    show correctKicks c 0 s = _
    unfold correctKicks
    rw [if_pos rfl, if_neg (by simpa using hc)]
    rfl
  rw [this]

/-- two BPMs (elements 0 and 1 of this small machine) with a calibration error of 10% in the horizontal plane of the first, and a roll -/
def Example.miscalibrated : SC ℚ := { Example.sc with
  RING := [Elem.ofList [("CalError", .vec [1/10, 0]), ("Roll", .num (1/100))], Elem.ofList [("CalError", .vec [0, -3]), ("Roll", .num 0)]] }

def Example.bpmData : BpmData ℚ := { locoBpmStructure (some [0, 1]) Example.sc with
  fitGains := true, hGain := [11/10, 1], vGain := [1, -2], hCoupling := [0, 0], vCoupling := [2/100, 0], fitCoupling := some true }

def Example.noCmData : CmData ℚ := ⟨[], [], false, [], [], [], [], [], []⟩

/-- the outlier is kept, the other errors are removed -/
example : (applyDiagnosticCorrection Example.noCmData Example.bpmData false (.at 1) Example.miscalibrated).isOk = true ∧
    (applyDiagnosticCorrection Example.noCmData Example.bpmData true (.at 1) Example.miscalibrated).isOk = true ∧
    (applyDiagnosticCorrection Example.noCmData Example.bpmData false (.at 1) Example.miscalibrated).state.RING.attr 0 "CalError" = some (.vec [0, 0]) ∧
    (applyDiagnosticCorrection Example.noCmData Example.bpmData false (.at 1) Example.miscalibrated).state.RING.attr 0 "Roll" = some (.num 0) ∧
    (applyDiagnosticCorrection Example.noCmData Example.bpmData false (.at 1) Example.miscalibrated).state.RING.attr 1 "CalError" = some (.vec [0, -3]) := by
  decide +kernel

end PySC
