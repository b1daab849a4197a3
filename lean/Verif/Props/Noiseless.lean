import Verif.Lemmas.Noiseless
import Verif.Props.Instruments
import Verif.Props.ResponseMeasure
/-
C124, C126: without noise, nothing is left to chance.
-/
namespace PySC
set_option linter.unusedSectionVars false
variable {K : Type} [Field K] [LinearOrder K] [FloorRing K] [IsStrictOrderedRing K]
open Py Spec

theorem calm_session {N : Nat → Nat → Prop} (hN : ∀ n m, N n m → (n = 0 ↔ m = 0)) {L : Lab K} (hE : Delivers L.E) (h0 : L.B.sqrt 0 = some 0) {bp : List Nat} :
    ∀ (steps : List (Step K)), (∀ c ∈ steps, c.InControlRoom ∧ ∀ f, c = .call (.setInjection f) → CalmChange N f) →
      ∀ u v, Calm N L.B bp u v → outcomes L steps u = outcomes L steps v ∧ Calm N L.B bp (sessionOf L steps u) (sessionOf L steps v) := by
  intro steps
  induction steps with
  | nil => exact fun _ u v h => ⟨rfl, h⟩
  | cons c cs ih =>
    intro hs u v h
    have hc := hs c (by simp)
    obtain ⟨-, h2, h3⟩ := ((calm_instruments hN hE h0 bp).step hc.1 (fun f e => Or.inr (hc.2 f e))).sameRun u v h
    obtain ⟨i1, i2⟩ := ih (fun d hd => hs d (by simp [hd])) _ _ h3
    refine ⟨?_, i2⟩
    show _ :: _ = _ :: _
    rw [h2, i1]

theorem Spec.SameButGenerator.calm {B : BeamEnv K} {s t : SC K} (hq : Noiseless B s) (h : SameButGenerator s t) : Calm Eq B s.ORD.BPM s t := by
  have e : t.INJ = s.INJ := by rw [h]
  refine ⟨?_, by rw [e], hq, rfl⟩
  rw [e]
  exact h

theorem Calm.generator {B : BeamEnv K} {bp : List Nat} {s t : SC K} (h : Calm Eq B bp s t) : SameButGenerator s t := by
  have := h.same
  rw [← h.shots] at this
  exact this

theorem eq_zero_iff (n m : Nat) (h : n = m) : n = 0 ↔ m = 0 := by rw [h]

/-- **C124** On a machine without noise every session of set-points, measurements and corrections raises the same exceptions in the same
places and ends with the same machine, whatever the state of the random number generator is. -/
theorem C124_session {L : Lab K} (hE : Delivers L.E) (h0 : L.B.sqrt 0 = some 0) {steps : List (Step K)}
    (hs : ∀ c ∈ steps, c.InControlRoom ∧ c.KeepsSize) {s t : SC K} (hq : Noiseless L.B s) (h : SameButGenerator s t) :
    outcomes L steps s = outcomes L steps t ∧ SameButGenerator (sessionOf L steps s) (sessionOf L steps t) ∧ Noiseless L.B (sessionOf L steps s) := by
  obtain ⟨h1, h2⟩ := calm_session eq_zero_iff hE h0 steps (fun c hc => ⟨(hs c hc).1, fun f e j n hn => by
    have hk : Spec.KeepsSize f := by
      have := (hs c hc).2
      rw [e] at this
      exact this
    subst hn
    exact ⟨(hk j).1, (hk j).2, _, rfl, rfl⟩⟩) s t (h.calm hq)
  exact ⟨h1, h2.generator, h2.quiet⟩

/-- **C124** What is measured is the same: readings, transmissions, response matrices, dispersions, the results of scans, fits and
beam-based alignments. -/
theorem C124_measurements {E : Env K} {B : BeamEnv K} (hE : Delivers E) (h0 : B.sqrt 0 = some 0) {s t : SC K} (hq : Noiseless B s)
    (h : SameButGenerator s t) :
    (∀ bpms errors, (bpmReading E B bpms errors s).value? = (bpmReading E B bpms errors t).value?) ∧
    (∀ n m, (beamTransmission E B n m s).value? = (beamTransmission E B n m t).value?) ∧
    (∀ amp bpms cms mode n, (responseMatrix E B amp bpms cms mode n s).value? = (responseMatrix E B amp bpms cms mode n t).value?) ∧
    (∀ bpms cms i d, (measureOrbitResponse E B bpms cms i d s).value? = (measureOrbitResponse E B bpms cms i d t).value?) ∧
    (∀ i d bpms cavs n, (dispersion E B i d bpms cavs n s).value? = (dispersion E B i d bpms cavs n t).value?) ∧
    (∀ Q bpms mags par, (trajectoryBba E B Q bpms mags par s).value? = (trajectoryBba E B Q bpms mags par t).value?) ∧
    (∀ T q rel target n np nt full, (tuneScan E B T q rel target n np nt full s).value? = (tuneScan E B T q rel target n np nt full t).value?) ∧
    (fitInjectionDrift E B s).value? = (fitInjectionDrift E B t).value? ∧
    (∀ J l, (fitInjectionTrajectory E B J l s).value? = (fitInjectionTrajectory E B J l t).value?) :=
  have H := calm_instruments eq_zero_iff hE h0 s.ORD.BPM
  have hc : Calm Eq B s.ORD.BPM s t := h.calm hq
  ⟨fun _ _ => ((H.read _ _).sameRun s t hc).1, fun _ _ => ((H.survive _ _).sameRun s t hc).1, fun _ _ _ _ _ => ((H.responseMatrix _ _ _ _ _).sameRun s t hc).1,
    fun _ _ _ _ => ((H.orbitResponse _ _ _ _).sameRun s t hc).1, fun _ _ _ _ _ => ((H.dispersion _ _ _ _ _).sameRun s t hc).1,
    fun _ _ _ _ => ((H.trajectoryBba _ _ _ _).sameRun s t hc).1, fun _ _ _ _ _ _ _ _ => ((H.tuneScan _ _ _ _ _ _ _ _).sameRun s t hc).1,
    (H.injectionDrift.sameRun s t hc).1, fun _ _ => ((H.injectionTrajectory _ _).sameRun s t hc).1⟩

/-- **C124** Readings can be repeated: nothing changes from one to the next. -/
theorem C124_repeated {E : Env K} {B : BeamEnv K} (hE : Delivers E) (h0 : B.sqrt 0 = some 0) {s s' : SC K} (hq : Noiseless B s)
    (bpms : Option (List Nat)) (errors : Bool) (r : Reading K) (h : bpmReading E B bpms errors s = .ok r s') :
    ∃ s'', bpmReading E B bpms errors s' = .ok r s'' := by
  have hs : SameButGenerator s s' := ((bpmReading_onlyRng E B _ _).ok h).1
  have := (C124_measurements hE h0 hq hs).1 bpms errors
  rw [h] at this
  cases hr : bpmReading E B bpms errors s' with
  | ok r' s'' => rw [hr] at this; cases this; exact ⟨s'', rfl⟩
  | error e s'' => rw [hr] at this; cases this

/-- **C124** The measured response of a corrector does not depend on which other correctors are measured, or in which order. -/
theorem C124_columns {E : Env K} {B : BeamEnv K} (hE : Delivers E) (h0 : B.sqrt 0 = some 0) (bpms : List Nat) (cms cms' : List Nat × List Nat)
    (dkick : K) {s s' t t' : SC K} (hq : Noiseless B s) (h : SameButGenerator s t) {RM RM' : List (List (Option K))}
    (hset : ∀ c ∈ columnsOf cms ++ columnsOf cms', Settled s [c.2])
    (hlim : ∀ c ∈ columnsOf cms ++ columnsOf cms', Lim.Nonneg (kickLimit s.RING c.2 c.1) ∧ Within (kickLimit s.RING c.2 c.1) (kick s.RING c.2 c.1) ∧
      Within (kickLimit s.RING c.2 c.1) (kick s.RING c.2 c.1 + dkick))
    (hm : measureOrbitResponse E B bpms cms false dkick s = .ok RM s')
    (hm' : measureOrbitResponse E B bpms cms' false dkick t = .ok RM' t') (j j' : Nat) (c : Bool × Nat)
    (hj : (columnsOf cms)[j]? = some c) (hj' : (columnsOf cms')[j']? = some c) : RM[j]? = RM'[j']? := by
  have hr : t.RING = s.RING := by rw [h]
  have hi : t.INJ = s.INJ := by rw [h]
  obtain ⟨-, -, r0, t0, e0, hc⟩ := C54_orbit_response_partial E B bpms cms dkick s s' RM (fun c h => hset c (by simp [h])) (fun c h => hlim c (by simp [h])) hm
  obtain ⟨-, -, r0', t0', e0', hc'⟩ := C54_orbit_response_partial E B bpms cms' dkick t t' RM' (fun c h => (hset c (by simp [h])).of_ring hr)
    (fun c h => by rw [hr]; exact hlim c (by simp [h])) hm'
  obtain ⟨n, t1, r1, t2, a1, a2, a3⟩ := hc j c hj
  obtain ⟨n', t1', r1', t2', b1, b2, b3⟩ := hc' j' c hj'
  have calm : ∀ n n', Calm Eq B s.ORD.BPM { s with rng := n, INJ := { s.INJ with trackMode := "ORB" } } { t with rng := n', INJ := { t.INJ with trackMode := "ORB" } } := by
    intro n n'
    have e := h.calm hq
    exact ⟨by conv_lhs => rw [e.same], e.shots, ⟨hq.bpms, hq.jitter, hq.point⟩, rfl⟩
  have c0 := ((calm_reading eq_zero_iff hE h0 (some bpms) false).sameRun _ _ (calm s.rng t.rng)).1
  have c1 := ((calm_setCM [c.2] ⟨false, [dkick]⟩ c.1 "add").sameRun _ _ (calm n n')).2.2
  rw [a1, b1] at c1
  have c2 := ((calm_reading eq_zero_iff hE h0 (some bpms) false).sameRun _ _ c1).1
  change (bpmReading E B (some bpms) false { s with INJ := { s.INJ with trackMode := "ORB" } }).value? =
    (bpmReading E B (some bpms) false { t with INJ := { t.INJ with trackMode := "ORB" } }).value? at c0
  rw [e0, e0'] at c0
  change (bpmReading E B (some bpms) false t1).value? = (bpmReading E B (some bpms) false t1').value? at c2
  rw [a2, b2] at c2
  cases c0
  cases c2
  rw [a3, b3]

/-! ### shots -/

theorem Spec.SameButShots.calm {B : BeamEnv K} {s t : SC K} (hq : Noiseless B s) (h : SameButShots s t) :
    Calm (fun n m => n ≠ 0 ∧ m ≠ 0) B s.ORD.BPM s t := ⟨h.1, h.2, hq, rfl⟩

theorem ne_zero_iff (n m : Nat) (h : n ≠ 0 ∧ m ≠ 0) : n = 0 ↔ m = 0 := ⟨fun e => absurd e h.1, fun e => absurd e h.2⟩

/-- **C126** On a machine without noise every session of set-points, measurements and corrections raises the same exceptions in the same
places and ends with the same machine, whatever the number of shots of the BPM readings is. -/
theorem C126_session {L : Lab K} (hE : Delivers L.E) (h0 : L.B.sqrt 0 = some 0) {steps : List (Step K)}
    (hs : ∀ c ∈ steps, c.InControlRoom ∧ c.KeepsSize ∧ c.KeepsShots) {s t : SC K} (hq : Noiseless L.B s) (h : SameButShots s t) :
    outcomes L steps s = outcomes L steps t ∧ SameButShots (sessionOf L steps s) (sessionOf L steps t) := by
  obtain ⟨h1, h2⟩ := calm_session ne_zero_iff hE h0 steps (fun c hc => ⟨(hs c hc).1, fun f e j n hn => by
    obtain ⟨-, a1, a2⟩ := hs c hc
    rw [e] at a1 a2
    obtain ⟨b1, b2⟩ := a2 j hn.1
    obtain ⟨m, m1, m2⟩ := b2 n hn.2
    exact ⟨(a1 j).1, (a1 j).2, m, ⟨b1, m1⟩, m2⟩⟩) s t (h.calm hq)
  exact ⟨h1, h2.same, h2.shots⟩

/-- **C126** What is measured is the same: readings and their errors, transmissions, response matrices, dispersions, the results of scans,
fits and beam-based alignments. -/
theorem C126_measurements {E : Env K} {B : BeamEnv K} (hE : Delivers E) (h0 : B.sqrt 0 = some 0) {s t : SC K} (hq : Noiseless B s)
    (h : SameButShots s t) :
    (∀ bpms errors, (bpmReading E B bpms errors s).value? = (bpmReading E B bpms errors t).value?) ∧
    (∀ n m, (beamTransmission E B n m s).value? = (beamTransmission E B n m t).value?) ∧
    (∀ amp bpms cms mode n, (responseMatrix E B amp bpms cms mode n s).value? = (responseMatrix E B amp bpms cms mode n t).value?) ∧
    (∀ bpms cms i d, (measureOrbitResponse E B bpms cms i d s).value? = (measureOrbitResponse E B bpms cms i d t).value?) ∧
    (∀ i d bpms cavs n, (dispersion E B i d bpms cavs n s).value? = (dispersion E B i d bpms cavs n t).value?) ∧
    (∀ Q bpms mags par, (trajectoryBba E B Q bpms mags par s).value? = (trajectoryBba E B Q bpms mags par t).value?) ∧
    (∀ T q rel target n np nt full, (tuneScan E B T q rel target n np nt full s).value? = (tuneScan E B T q rel target n np nt full t).value?) ∧
    (fitInjectionDrift E B s).value? = (fitInjectionDrift E B t).value? ∧
    (∀ J l, (fitInjectionTrajectory E B J l s).value? = (fitInjectionTrajectory E B J l t).value?) :=
  have H := calm_instruments ne_zero_iff hE h0 s.ORD.BPM
  have hc := h.calm hq
  ⟨fun _ _ => ((H.read _ _).sameRun s t hc).1, fun _ _ => ((H.survive _ _).sameRun s t hc).1, fun _ _ _ _ _ => ((H.responseMatrix _ _ _ _ _).sameRun s t hc).1,
    fun _ _ _ _ => ((H.orbitResponse _ _ _ _).sameRun s t hc).1, fun _ _ _ _ _ => ((H.dispersion _ _ _ _ _).sameRun s t hc).1,
    fun _ _ _ _ => ((H.trajectoryBba _ _ _ _).sameRun s t hc).1, fun _ _ _ _ _ _ _ _ => ((H.tuneScan _ _ _ _ _ _ _ _).sameRun s t hc).1,
    (H.injectionDrift.sameRun s t hc).1, fun _ _ => ((H.injectionTrajectory _ _).sameRun s t hc).1⟩

/-! ### examples -/

theorem Example.rand_delivers : Delivers Example.rand := by
  intro cut hcut n pos
  refine ⟨((List.range n).map (fun k => Example.rand.randn (pos + k)), pos + n), ?_⟩
  unfold randncFrom resample
  rw [if_pos]
  rw [List.all_eq_true]
  intro x hx
  rw [List.mem_map] at hx
  obtain ⟨k, -, rfl⟩ := hx
  have hx : |Example.rand.randn (pos + k)| ≤ 1 := by
    show |(if (pos + k) % 3 = 0 then (1/2 : ℚ) else if (pos + k) % 3 = 1 then -1/3 else 1)| ≤ 1
    split
    · norm_num
    · split
      · rw [abs_le]; norm_num
      · norm_num
  rw [decide_eq_true_eq]
  refine hx.trans ?_
  rcases hcut with rfl | rfl <;> norm_num

theorem Example.line_noiseless (k : ℚ) (n : Nat) : Noiseless Example.lineBeam (Example.line k n) :=
  ⟨fun i hi => by
    have hi : i = 1 ∨ i = 3 := by simpa [Example.line] using hi
    rcases hi with rfl | rfl <;> exact ⟨rfl, rfl, rfl⟩, rfl, fun v hv => by cases hv⟩

-- the hypotheses of the first theorems
example : Delivers Example.controlRoom.E ∧ Example.controlRoom.B.sqrt 0 = some 0 ∧ (∀ c ∈ Example.shift, c.InControlRoom ∧ c.KeepsSize) ∧
    Noiseless Example.controlRoom.B (Example.line (1/1000) 1) ∧ SameButGenerator (Example.line (1/1000) 1) { Example.line (1/1000) 1 with rng := 1 } ∧
    outcomes Example.controlRoom Example.shift (Example.line (1/1000) 1) = [none, none, some .valueError, none, none, none] ∧
    (sessionOf Example.controlRoom Example.shift (Example.line (1/1000) 1)).rng ≠ (Example.line (1/1000) 1).rng ∧
    (bpmReading Example.rand Example.lineBeam none false (Example.line (1/1000) 1)).isOk := by
  refine ⟨Example.rand_delivers, by decide +kernel, ?_, Example.line_noiseless _ _, rfl, by decide +kernel, by decide +kernel, by decide +kernel⟩
  intro c hc
  simp only [Example.shift, List.mem_cons, List.not_mem_nil, or_false] at hc
  rcases hc with rfl | rfl | rfl | rfl | rfl | rfl <;> exact ⟨trivial, trivial⟩

-- with noise of a BPM the same machine does not read the same twice
example : let s := { Example.line (1/1000) 1 with RING := (Example.line (1/1000) 1).RING.setAttr 1 "Noise" (.vec [1/1000, 0]) }
    (bpmReading Example.rand Example.lineBeam none false s).isOk ∧
    (bpmReading Example.rand Example.lineBeam none false s).value?.map (·.x) ≠
      (bpmReading Example.rand Example.lineBeam none false { s with rng := 1 }).value?.map (·.x) := by
  decide +kernel

/-- a beam without size -/
def Example.needle : BeamEnv ℚ := { Example.kickedBeam with eig := fun _ => ([], []), sqrt := Example.qsqrt }

-- the horizontal response measured alone, after other readings, and together with the vertical one
example : Noiseless Example.needle Example.measured ∧ Example.needle.sqrt 0 = some 0 ∧
    SameButGenerator Example.measured { Example.measured with rng := 5 } ∧
    (∀ c ∈ columnsOf ([1], [1]) ++ columnsOf ([1], []), Settled Example.measured [c.2]) ∧
    (∀ c ∈ columnsOf ([1], [1]) ++ columnsOf ([1], []), Lim.Nonneg (kickLimit Example.measured.RING c.2 c.1) ∧
      Within (kickLimit Example.measured.RING c.2 c.1) (kick Example.measured.RING c.2 c.1) ∧
      Within (kickLimit Example.measured.RING c.2 c.1) (kick Example.measured.RING c.2 c.1 + 1/1000)) ∧
    (measureOrbitResponse Example.rand Example.needle [0] ([1], [1]) false (1/1000) Example.measured).value? =
      some [[some (11/5), some 0], [some 0, some 0]] ∧
    (measureOrbitResponse Example.rand Example.needle [0] ([1], []) false (1/1000) { Example.measured with rng := 5 }).value? =
      some [[some (11/5), some 0]] := by
  refine ⟨⟨?_, by decide +kernel, fun v hv => by cases hv⟩, by decide +kernel, rfl, fun c hc => Example.measured_ok.2 c.2 ?_, ?_, ?_, ?_⟩
  · decide +kernel
  · have : ∀ c ∈ columnsOf ([1], [1]) ++ columnsOf ([1], []), c.2 ∈ Example.measured.ORD.Magnet := by decide +kernel
    exact this c hc
  all_goals decide +kernel

/-- many shots -/
def Example.patient : SC ℚ := { Example.line (1/1000) 1 with INJ := { (Example.line (1/1000) 1).INJ with nShots := 3 }, rng := 2 }

-- one shot and three shots; a step which changes the number of shots is possible, too
example : SameButShots (Example.line (1/1000) 1) Example.patient ∧ (∀ c ∈ Example.shift, c.KeepsShots) ∧
    Step.KeepsShots (.call (.setInjection (fun j : Inj ℚ => { j with nShots := 2 * j.nShots, nTurns := 1 }))) ∧
    (bpmReading Example.rand Example.lineBeam none true Example.patient).isOk ∧
    (bpmReading Example.rand Example.lineBeam none true Example.patient).state.rng ≠
      (bpmReading Example.rand Example.lineBeam none true { Example.line (1/1000) 1 with rng := 2 }).state.rng := by
  refine ⟨⟨rfl, by decide, by decide⟩, ?_, ?_, by decide +kernel, by decide +kernel⟩
  · intro c hc
    simp only [Example.shift, List.mem_cons, List.not_mem_nil, or_false] at hc
    rcases hc with rfl | rfl | rfl | rfl | rfl | rfl <;> trivial
  · intro j hj
    exact ⟨by simpa using hj, fun n hn => ⟨2 * n, by simpa using hn, rfl⟩⟩

-- with noise the number of shots matters
example : let E : Env ℚ := { Example.rand with randn := fun k => if k % 5 = 0 then 1/2 else if k % 2 = 1 then -1/3 else 1 }
    let s := { Example.patient with RING := Example.patient.RING.setAttr 1 "Noise" (.vec [1/1000, 0]) }
    (bpmReading E Example.lineBeam none false s).isOk ∧
    (bpmReading E Example.lineBeam none false s).value?.map (·.x) ≠
      (bpmReading E Example.lineBeam none false { s with INJ := { s.INJ with nShots := 1 } }).value?.map (·.x) := by
  decide +kernel

end PySC
