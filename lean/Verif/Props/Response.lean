import Verif.Lemmas.ResponseModel
import Verif.Props.Rf
import Verif.Props.Bba
/-
C52 (model response matrix and dispersion), C53 (model lattice).
-/
set_option linter.unusedSectionVars false
namespace PySC
open Py Spec
variable {K : Type} [Field K] [LinearOrder K]

/-! ### C52 -/

/-- **C52**: each column of the model response matrix is the finite difference between the trajectories (orbits) in the lattice and in
the lattice with this corrector, and nothing else, changed by the step.  Horizontal correctors come first, in the given order; x comes
before y in each column and turns are one after the other.  With the design lattice the machine is left alone; otherwise the lattice is
the one of `SCgetModelRING`. -/
theorem C52_columns (B : BeamEnv K) (bpms : List Nat) (cms : List Nat × List Nat) (mode : String) (Z0 : List K) (nTurns : Nat) (dkick : K)
    (useIdeal : Bool) (s s' : SC K) (RM : List (List (Option K))) (h : modelRM B bpms cms mode Z0 nTurns dkick useIdeal s = .ok RM s') :
    ∃ r, (useIdeal = true → r = s.IDEALRING ∧ s' = s) ∧ (useIdeal = false → modelRing s = .ok r s') ∧
    RM.length = cms.1.length + cms.2.length ∧
    ∀ (j : Nat) (c : Bool × Nat), (columnsOf cms)[j]? = some c → ∃ r' col, RM[j]? = some col ∧ Kicked r r' c.2 c.1 dkick ∧
      Difference B mode Z0 (turnsOf mode nTurns) bpms dkick r r' col := by
  unfold modelRM at h
  rw [bind_eq_ok] at h; obtain ⟨r, s1, h1, h⟩ := h
  by_cases hm : mode ≠ "TBT" ∧ mode ≠ "ORB"
  · rw [if_pos hm] at h; cases h
  rw [if_neg hm] at h
  by_cases hn : (modelTrajectory B mode Z0 (if mode = "ORB" then 1 else nTurns) bpms r).any Option.isNone = true
  · rw [if_pos hn] at h; cases h
  rw [if_neg hn] at h
  rw [lift_eq_ok] at h
  obtain ⟨h, rfl⟩ := h
  obtain ⟨h2, h3⟩ := modelColumns_eq_ok h
  obtain ⟨e1, e2⟩ := chooseModel_eq_ok h1
  refine ⟨r, e1, e2, by rw [h2]; simp, fun j c hj => ?_⟩
  obtain ⟨-, r', hk, hc⟩ := h3 j c hj
  exact ⟨r', _, hc, hk, difference_of_zip B mode Z0 _ bpms dkick r r'⟩

/-- **C52**: if the trajectory in the design lattice is linear in the kicks of the correctors, every entry is exact, for every size of
the step. -/
theorem C52_exact (B : BeamEnv K) (bpms : List Nat) (cms : List Nat × List Nat) (mode : String) (Z0 : List K) (nTurns : Nat) (dkick : K)
    (s s' : SC K) (RM : List (List (Option K))) (G : Bool × Nat → Bool → Nat → Nat → K)
    (hlin : ∀ c ∈ columnsOf cms, ∀ r' d, Kicked s.IDEALRING r' c.2 c.1 d → ∀ vert t ref, ∃ x,
      inPlane vert (position B mode Z0 s.IDEALRING ref t) = some x ∧
      inPlane vert (position B mode Z0 r' ref t) = some (x + G c vert t ref * d))
    (hd : dkick ≠ 0) (h : modelRM B bpms cms mode Z0 nTurns dkick true s = .ok RM s') :
    ∀ (j : Nat) (c : Bool × Nat), (columnsOf cms)[j]? = some c → ∃ col, RM[j]? = some col ∧ ∀ (vert : Bool) (t b ref : Nat), t < turnsOf mode nTurns →
      bpms[b]? = some ref → col[rowOf bpms.length (turnsOf mode nTurns) vert t b]? = some (some (G c vert t ref)) := by
  obtain ⟨r, hr, -, -, hcol⟩ := C52_columns B bpms cms mode Z0 nTurns dkick true s s' RM h
  obtain ⟨rfl, -⟩ := hr rfl
  intro j c hj
  obtain ⟨r', col, h1, h2, h3⟩ := hcol j c hj
  refine ⟨col, h1, fun vert t b ref ht hb => ?_⟩
  obtain ⟨x, e1, e2⟩ := hlin c (List.mem_of_getElem? hj) r' dkick h2 vert t ref
  rw [h3.entry vert t b ref ht hb, e1, e2]
  simp only [quotient, Option.bind_some, Option.map_some, Option.some.injEq]
  rw [add_sub_cancel_left, mul_div_assoc, div_self hd, mul_one]

/-- **C52**: the response matrix of the design lattice is always obtained if the particle survives and the correctors can kick. -/
theorem C52_succeeds (B : BeamEnv K) (bpms : List Nat) (cms : List Nat × List Nat) (mode : String) (Z0 : List K) (nTurns : Nat) (dkick : K)
    (s : SC K) (hm : mode = "TBT" ∨ mode = "ORB") (hd : dkick ≠ 0) (hk : ∀ c ∈ columnsOf cms, CanKick s.IDEALRING c.2 c.1)
    (hsee : ∀ (vert : Bool) (t b ref : Nat), t < turnsOf mode nTurns → bpms[b]? = some ref →
      (inPlane vert (position B mode Z0 s.IDEALRING ref t)).isSome) :
    ∃ RM, modelRM B bpms cms mode Z0 nTurns dkick true s = .ok RM s := by
  obtain ⟨cols, hcols⟩ := modelColumns_total (T := modelTrajectory B mode Z0 (turnsOf mode nTurns) bpms) hd
    (Ta := modelTrajectory B mode Z0 (turnsOf mode nTurns) bpms s.IDEALRING) hk
  refine ⟨cols, ?_⟩
  have h0 : ¬ (mode ≠ "TBT" ∧ mode ≠ "ORB") := by tauto
  have h1 := modelTrajectory_some hsee
  unfold modelRM chooseModel
  simp only [bind_apply, get_apply, if_true, Py.pure, h0, if_false]
  unfold turnsOf at h1 hcols
  rw [h1]
  simp only [Bool.false_eq_true, if_false]
  rw [show (cms.1.map (fun c => (false, c)) ++ cms.2.map (fun c => (true, c))) = columnsOf cms from rfl, hcols]
  rfl

/-- **C52**: if the particle is lost in the design lattice (there is no closed orbit), ValueError is raised; unknown modes raise KeyError. -/
theorem C52_refuses (B : BeamEnv K) (bpms : List Nat) (cms : List Nat × List Nat) (mode : String) (Z0 : List K) (nTurns : Nat) (dkick : K)
    (s : SC K) :
    (mode ≠ "TBT" → mode ≠ "ORB" → modelRM B bpms cms mode Z0 nTurns dkick true s = .error .keyError s) ∧
    ∀ (vert : Bool) (t b ref : Nat), (mode = "TBT" ∨ mode = "ORB") → t < turnsOf mode nTurns → bpms[b]? = some ref →
      inPlane vert (position B mode Z0 s.IDEALRING ref t) = none →
      modelRM B bpms cms mode Z0 nTurns dkick true s = .error .valueError s := by
  constructor
  · intro h1 h2
    unfold modelRM chooseModel
    simp only [bind_apply, get_apply, if_true, Py.pure, h1, h2, ne_eq, not_false_eq_true, and_self, Py.throw]
  · intro vert t b ref hm ht hb hn
    have h0 : ¬ (mode ≠ "TBT" ∧ mode ≠ "ORB") := by tauto
    have h1 := modelTrajectory_none ht hb hn
    unfold modelRM chooseModel
    simp only [bind_apply, get_apply, if_true, Py.pure, h0, if_false]
    unfold turnsOf at h1
    rw [h1]
    simp [Py.throw]

/-- **C52**: the model dispersion is the finite difference between the lattice and the lattice with the frequencies of the given
cavities, and nothing else, changed by the step. -/
theorem C52_dispersion (B : BeamEnv K) (bpms cavs : List Nat) (hnd : cavs.Nodup) (mode : String) (Z0 : List K) (nTurns : Nat) (step : K)
    (useIdeal : Bool) (s s' : SC K) (eta : List (Option K)) (h : modelDispersion B bpms cavs mode Z0 nTurns step useIdeal s = .ok eta s') :
    ∃ r r', (useIdeal = true → r = s.IDEALRING ∧ s' = s) ∧ (useIdeal = false → modelRing s = .ok r s') ∧ step ≠ 0 ∧
      Detuned r r' cavs step ∧ Difference B mode Z0 (turnsOf mode nTurns) bpms step r r' eta := by
  unfold modelDispersion at h
  rw [bind_eq_ok] at h; obtain ⟨r, s1, h1, h⟩ := h
  by_cases hm : mode ≠ "TBT" ∧ mode ≠ "ORB"
  · rw [if_pos hm] at h; cases h
  rw [if_neg hm] at h
  by_cases hn : (modelTrajectory B mode Z0 (if mode = "ORB" then 1 else nTurns) bpms r).any Option.isNone = true
  · rw [if_pos hn] at h; cases h
  rw [if_neg hn] at h
  rw [bindLift_eq_ok] at h
  obtain ⟨r', hr', h⟩ := h
  split at h
  · cases h
  rename_i hs
  cases h
  obtain ⟨e1, e2⟩ := chooseModel_eq_ok h1
  exact ⟨r, r', e1, e2, hs, stepFrequencies_eq_ok hnd hr', difference_of_zip B mode Z0 _ bpms step r r'⟩

/-- **C52**: the dispersion of the design lattice is always obtained if the particle survives and the elements are cavities. -/
theorem C52_dispersion_succeeds (B : BeamEnv K) (bpms cavs : List Nat) (mode : String) (Z0 : List K) (nTurns : Nat) (step : K)
    (s : SC K) (hm : mode = "TBT" ∨ mode = "ORB") (hd : step ≠ 0) (hk : ∀ c ∈ cavs, ∃ f, s.IDEALRING.attr c "Frequency" = some (.num f))
    (hsee : ∀ (vert : Bool) (t b ref : Nat), t < turnsOf mode nTurns → bpms[b]? = some ref →
      (inPlane vert (position B mode Z0 s.IDEALRING ref t)).isSome) :
    ∃ eta, modelDispersion B bpms cavs mode Z0 nTurns step true s = .ok eta s := by
  obtain ⟨r', hr'⟩ := stepFrequencies_total (d := step) hk
  refine ⟨List.zipWith (diffQuot step) (modelTrajectory B mode Z0 (if mode = "ORB" then 1 else nTurns) bpms r')
    (modelTrajectory B mode Z0 (if mode = "ORB" then 1 else nTurns) bpms s.IDEALRING), ?_⟩
  have h0 : ¬ (mode ≠ "TBT" ∧ mode ≠ "ORB") := by tauto
  have h1 := modelTrajectory_some hsee
  unfold modelDispersion chooseModel
  simp only [bind_apply, get_apply, if_true, Py.pure, h0, if_false]
  unfold turnsOf at h1
  rw [h1, hr']
  simp only [Bool.false_eq_true, if_false, lift_ok_apply, bind_apply, hd]
  rfl

/-- a transfer line with a thin horizontal corrector, a thick vertical one and a bending magnet with cavity; x grows with the kick of
the first one and the frequency, y with the kick of the second -/
def Example.lineModel : Ring ℚ :=
  [Example.bpm, Elem.ofList [("PassMethod", .str "CorrectorPass"), ("KickAngle", .vec [1/1000, 0])],
   Elem.ofList [("PassMethod", .str "StrMPoleSymplectic4Pass"), ("Length", .num (1/2)), ("PolynomA", .vec [1/500, 0]), ("PolynomB", .vec [0, 1])],
   Elem.ofList [("PassMethod", .str "RFCavityPass"), ("Frequency", .num 500)], Example.bpm]

def Example.modelBeam : BeamEnv ℚ := { Example.beam with
  track := fun r Z i t => Z.map (fun _ =>
    (some ((i : ℚ) * (coef (vecAt r 1 "KickAngle") 0 + numAt r 3 "Frequency" / 1000) + t),
     some (((i : ℚ) + t) * (coef (vecAt r 2 "PolynomA") 0) * numAt r 2 "Length"))) }

def Example.modelMachine : SC ℚ := { Example.sc with IDEALRING := Example.lineModel }

example : (modelRM Example.modelBeam [0, 4] ([1], [2]) "TBT" [0, 0, 0, 0, 0, 0] 2 (1/100) true Example.modelMachine).value? =
    some [[some 0, some 4, some 0, some 4, some 0, some 0, some 0, some 0],
      [some 0, some 0, some 0, some 0, some 0, some 4, some 1, some 5]] := by decide +kernel

example : (modelDispersion Example.modelBeam [0, 4] [3] "TBT" [0, 0, 0, 0, 0, 0] 1 10 true Example.modelMachine).value? =
    some [some 0, some (1/250), some 0, some 0] := by decide +kernel

/-- the machine of the example is linear in the kicks -/
example : ∀ c ∈ columnsOf ([1], [2]), ∀ (r' : Ring ℚ) (d : ℚ), Kicked Example.modelMachine.IDEALRING r' c.2 c.1 d → ∀ (vert : Bool) (t ref : Nat), ∃ x,
    inPlane vert (position Example.modelBeam "TBT" [0, 0, 0, 0, 0, 0] Example.modelMachine.IDEALRING ref t) = some x ∧
    inPlane vert (position Example.modelBeam "TBT" [0, 0, 0, 0, 0, 0] r' ref t) =
      some (x + (if c = (false, 1) ∧ vert = false then (ref : ℚ) else if c = (true, 2) ∧ vert = true then (ref : ℚ) + t else 0) * d) := by
  intro c hc r' d hk vert t ref
  have hthin : thin Example.modelMachine.IDEALRING 1 := by unfold thin; decide +kernel
  have hthick : ¬ thin Example.modelMachine.IDEALRING 2 := by unfold thin; decide +kernel
  have hc' : c = (false, 1) ∨ c = (true, 2) := by simpa [columnsOf] using hc
  have pos : ∀ r : Ring ℚ, position Example.modelBeam "TBT" [0, 0, 0, 0, 0, 0] r ref t =
      (some ((ref : ℚ) * (coef (vecAt r 1 "KickAngle") 0 + numAt r 3 "Frequency" / 1000) + t),
       some (((ref : ℚ) + t) * (coef (vecAt r 2 "PolynomA") 0) * numAt r 2 "Length")) := fun r => rfl
  rw [pos, pos]
  rcases hc' with rfl | rfl
  · have ha : kickAttr Example.modelMachine.IDEALRING 1 false = "KickAngle" := by simp [kickAttr, hthin]
    have hn : ∀ j a, (j ≠ 1 ∨ a ≠ "KickAngle") → r'.attr j a = Example.modelMachine.IDEALRING.attr j a := fun j a h =>
      hk.other j a (by rw [ha]; exact h)
    have hthin' : thin r' 1 := by unfold thin; rw [hn 1 _ (Or.inr (by decide))]; exact hthin
    have h1 := hk.kick
    rw [realKick, realKick] at h1
    simp only [kickAttr, kickIndex, hthin, hthin', if_true, Bool.false_eq_true, and_false, if_false, kickFactor] at h1
    unfold thin at hthin hthin'
    rw [if_pos hthin, if_pos hthin', mul_one, mul_one] at h1
    have e1 : numAt r' 3 "Frequency" = numAt Example.modelMachine.IDEALRING 3 "Frequency" := numAt_congr (hn _ _ (Or.inl (by decide)))
    have e2 : numAt r' 2 "Length" = numAt Example.modelMachine.IDEALRING 2 "Length" := numAt_congr (hn _ _ (Or.inl (by decide)))
    have e3 : vecAt r' 2 "PolynomA" = vecAt Example.modelMachine.IDEALRING 2 "PolynomA" := by
      simp only [vecAt, hn _ _ (Or.inl (show (2 : Nat) ≠ 1 by decide))]
    cases vert
    · refine ⟨_, rfl, ?_⟩
      simp only [inPlane, Bool.false_eq_true, if_false, h1, e1, and_self, if_true]
      congr 1; ring
    · refine ⟨_, rfl, ?_⟩
      simp [inPlane, e2, e3]
  · have ha : kickAttr Example.modelMachine.IDEALRING 2 true = "PolynomA" := by simp [kickAttr, hthick, plane]
    have hn : ∀ j a, (j ≠ 2 ∨ a ≠ "PolynomA") → r'.attr j a = Example.modelMachine.IDEALRING.attr j a := fun j a h =>
      hk.other j a (by rw [ha]; exact h)
    have hthick' : ¬ thin r' 2 := by unfold thin; rw [hn 2 _ (Or.inr (by decide))]; exact hthick
    have h1 := hk.kick
    rw [realKick, realKick] at h1
    simp only [kickAttr, kickIndex, hthick, hthick', if_false, false_and, kickFactor] at h1
    unfold thin at hthick hthick'
    rw [if_neg hthick, if_neg hthick', if_pos trivial, if_pos trivial] at h1
    have e1 : numAt r' 3 "Frequency" = numAt Example.modelMachine.IDEALRING 3 "Frequency" := numAt_congr (hn _ _ (Or.inl (by decide)))
    have e3 : vecAt r' 1 "KickAngle" = vecAt Example.modelMachine.IDEALRING 1 "KickAngle" := by
      simp only [vecAt, hn _ _ (Or.inl (show (1 : Nat) ≠ 2 by decide))]
    have hp : ("Polynom" ++ plane true : String) = "PolynomA" := rfl
    rw [hp] at h1
    cases vert
    · refine ⟨_, rfl, ?_⟩
      simp [inPlane, e1, e3]
    · refine ⟨_, rfl, ?_⟩
      simp only [inPlane, if_true, mul_assoc, h1]
      congr 1
      simp
      ring

example : ∀ c ∈ columnsOf ([1], [2]), CanKick Example.modelMachine.IDEALRING c.2 c.1 := by
  intro c hc
  have hc' : c = (false, 1) ∨ c = (true, 2) := by simpa [columnsOf] using hc
  have hthin : thin Example.modelMachine.IDEALRING 1 := by unfold thin; decide +kernel
  have hthick : ¬ thin Example.modelMachine.IDEALRING 2 := by unfold thin; decide +kernel
  rcases hc' with rfl | rfl
  · refine ⟨⟨_, hthin⟩, ⟨[1/1000, 0], ?_, by simp [kickIndex]⟩, fun h => absurd hthin h⟩
    simp only [kickAttr, hthin, if_true]; decide +kernel
  · refine ⟨⟨"StrMPoleSymplectic4Pass", by decide +kernel⟩, ⟨[1/500, 0], ?_, by simp [kickIndex, hthick]⟩, fun _ => ⟨1/2, by decide +kernel, by norm_num⟩⟩
    simp only [kickAttr, hthick, if_false]; decide +kernel

/-! ### C53 -/

/-- **C53**: `SCgetModelRING` returns the design lattice with the multipoles of the set-points, without their dipole components, and with
the set-points of the cavities.  (Partial: the machine does not stay as it is, see below.) -/
theorem C53_model_partial (s s' : SC K) (m : Ring K) (h : modelRing s = .ok m s') : IsModel s m := (modelRing_eq_ok h).1

/-- **C53** is violated whenever a dipole component is set: the machine loses the dipole components of all its set-points, that
is, all correctors are set to zero.  (Nothing else changes.) -/
theorem C53_erases (s s' : SC K) (m : Ring K) (h : modelRing s = .ok m s') : DipolesLost s s' := (modelRing_eq_ok h).2

/-- **C53**: so the machine is as before if and only if all its dipole components were zero. -/
theorem C53_unchanged_iff (s s' : SC K) (m : Ring K) (h : modelRing s = .ok m s') :
    s' = s ↔ ∀ i skew, hasSetpoints s.RING i → setpoint s.RING i skew 0 = 0 := by
  obtain ⟨-, hd⟩ := modelRing_eq_ok h
  constructor
  · rintro rfl i skew hi
    obtain ⟨x, v, h1, h2⟩ := hd.lost i hi skew
    rw [setpoint, vecAt_of_attr h2]; rfl
  · intro hz
    have hr : s'.RING = s.RING := by
      refine Ring.ext_attr hd.rest.len (fun i a => ?_)
      by_cases hW : hasSetpoints s.RING i ∧ a ∈ ["SetPointA", "SetPointB"]
      · have : ∃ skew, a = "SetPoint" ++ plane skew := by
          have := hW.2
          simp only [List.mem_cons, List.not_mem_nil, or_false] at this
          rcases this with rfl | rfl
          · exact ⟨true, rfl⟩
          · exact ⟨false, rfl⟩
        obtain ⟨skew, rfl⟩ := this
        obtain ⟨x, v, h1, h2⟩ := hd.lost i hW.1 skew
        have := hz i skew hW.1
        rw [setpoint, vecAt_of_attr h1] at this
        rw [h1, h2, show x = 0 from this]
      · exact hd.rest.attr i a hW
    have e1 := hd.rest.ideal
    have e2 := hd.rest.inj
    have e3 := hd.rest.sig
    have e4 := hd.rest.ord
    have e5 := hd.rest.rng
    cases s'; cases s
    simp only [SC.mk.injEq]
    exact ⟨hr, e1, e2, e3, e4, e5⟩

/-- the example machine with the same lattice as design -/
def Example.modelled : SC ℚ := { Example.sc with IDEALRING := Example.sc.RING }

/-- **C53 violated**: the model of the example machine sets its corrector to zero. -/
theorem C53_violated : ∃ (m : Ring ℚ) (s' : SC ℚ), modelRing Example.modelled = .ok m s' ∧
    kick Example.modelled.RING 1 false = 1/1000 ∧ kick s'.RING 1 false = 0 := by
  obtain ⟨m, h⟩ := exists_of_isOk (r := modelRing Example.modelled) (by decide +kernel)
  refine ⟨m, _, h, by decide +kernel, ?_⟩
  decide +kernel

end PySC
