import Verif.Lemmas.Records
import Verif.Props.Session
import Verif.Props.Orbit
/-
C102: corrections and measurements know the machine only through its control room and its instruments.
-/
namespace PySC
set_option linter.unusedSectionVars false
variable {K : Type} [Field K] [LinearOrder K] [FloorRing K]
open Py Spec

/-- **C102**: If two machines show the same in their control rooms and their instruments do not tell them apart, every session of
set-points, measurements and corrections raises the same exceptions in the same places on both, and ends with machines which again
can not be told apart. -/
theorem C102_session {L : Lab K} {R : SC K → SC K → Prop} (H : SameInstruments L.E L.B R) {steps : List (Step K)}
    (hs : ∀ c ∈ steps, c.InControlRoom) {s t : SC K} (h : R s t) :
    outcomes L steps s = outcomes L steps t ∧ R (sessionOf L steps s) (sessionOf L steps t) := by
  induction steps generalizing s t with
  | nil => exact ⟨rfl, h⟩
  | cons c cs ih =>
    obtain ⟨-, h2, h3⟩ := (H.step (hs c (by simp)) (fun _ _ => Or.inr trivial)).sameRun s t h
    obtain ⟨i1, i2⟩ := ih (fun d hd => hs d (by simp [hd])) h3
    refine ⟨?_, i2⟩
    show _ :: _ = _ :: _
    rw [h2, i1]

/-- … so that after the session all set-points agree, and so do the injection settings and the next reading (machines related by `R`
reading their BPMs with the same number of shots) -/
theorem C102_setpoints_and_readings {L : Lab K} {R : SC K → SC K → Prop} (H : SameInstruments L.E L.B R)
    (hR : ∀ s t, R s t → s.INJ.nShots = t.INJ.nShots) {steps : List (Step K)} (hs : ∀ c ∈ steps, c.InControlRoom) {s t : SC K} (h : R s t) (bpms : Option (List Nat)) (errors : Bool) :
    (∀ i, ∀ a ∈ ["SetPointA", "SetPointB", "FrequencySetPoint", "VoltageSetPoint", "TimeLagSetPoint"],
      (sessionOf L steps s).RING.attr i a = (sessionOf L steps t).RING.attr i a) ∧
    (sessionOf L steps s).INJ = (sessionOf L steps t).INJ ∧
    (bpmReading L.E L.B bpms errors (sessionOf L steps s)).value? = (bpmReading L.E L.B bpms errors (sessionOf L steps t)).value? := by
  obtain ⟨-, h2⟩ := C102_session H hs h
  exact ⟨fun i a ha => (H.view _ _ h2).panel i a (by revert a; decide), by
    have := (H.view _ _ h2).injection
    rw [hR _ _ h2] at this
    exact this, (H.reading bpms errors _ _ h2).1⟩

/-- What is measured is the same: response matrices, dispersions, the results of scans, fits and beam-based alignments, and model
responses. -/
theorem C102_measurements {E : Env K} {B : BeamEnv K} {R : SC K → SC K → Prop} (H : SameInstruments E B R) :
    (∀ amp bpms cms mode n, SameRun R (responseMatrix E B amp bpms cms mode n)) ∧
    (∀ bpms cms i d, SameRun R (measureOrbitResponse E B bpms cms i d)) ∧
    (∀ i d bpms cavs n, SameRun R (dispersion E B i d bpms cavs n)) ∧
    (∀ Q bpms mags par, SameRun R (trajectoryBba E B Q bpms mags par)) ∧
    (∀ T q rel target n np nt full, SameRun R (tuneScan E B T q rel target n np nt full)) ∧
    SameRun R (fitInjectionDrift E B) ∧
    (∀ J l, SameRun R (fitInjectionTrajectory E B J l)) ∧
    (∀ l sk, SameRun R (getCMSetpoints l sk)) ∧
    (∀ B' bpms cms mode z n d u, SameRun R (modelRM B' bpms cms mode z n d u)) ∧
    (∀ B' bpms cavs mode z n d u, SameRun R (modelDispersion B' bpms cavs mode z n d u)) ∧
    (∀ B' rows C bpms cms ch dkick dk mode u sk k method disp full,
      SameRun R (jacobian B' rows C bpms cms ch dkick dk mode u sk k method disp full)) :=
  ⟨fun _ _ _ _ _ => (H.responseMatrix _ _ _ _ _).sameRun, fun _ _ _ _ => (H.orbitResponse _ _ _ _).sameRun,
    fun _ _ _ _ _ => (H.dispersion _ _ _ _ _).sameRun, fun _ _ _ _ => (H.trajectoryBba _ _ _ _).sameRun,
    fun _ _ _ _ _ _ _ _ => (H.tuneScan _ _ _ _ _ _ _ _).sameRun, H.injectionDrift.sameRun, fun _ _ => (H.injectionTrajectory _ _).sameRun,
    fun _ _ => (H.getCM _ _).sameRun, fun _ _ _ _ _ _ _ _ => (H.modelRM _ _ _ _ _ _ _ _).sameRun,
    fun _ _ _ _ _ _ _ _ => (H.modelDispersion _ _ _ _ _ _ _ _).sameRun,
    fun _ _ _ _ _ _ _ _ _ _ _ _ _ _ _ => (H.jacobian _ _ _ _ _ _ _ _ _ _ _ _ _ _ _).sameRun⟩

/-- two histories of a correction contain the same readings -/
theorem Sync.readings {R : SC K → SC K → Prop} {m : Py (SC K) (List (Log K))} (hm : Sync R SeenAlike m m) {s t : SC K} (h : R s t) :
    (m s).value?.map (fun l => l.map (fun g => (g.x, g.y))) = (m t).value?.map (fun l => l.map (fun g => (g.x, g.y))) ∧ (m s).err? = (m t).err? := by
  rcases hm s t h with ⟨a, b, s', t', h1, h2, hv, -⟩ | ⟨e, s', t', h1, h2, -⟩
  · rw [h1, h2]; exact ⟨congrArg some hv, rfl⟩
  · rw [h1, h2]; exact ⟨rfl, rfl⟩

/-- On the way all corrections of the trajectory see the same readings. -/
theorem C102_trajectories {E : Env K} {B : BeamEnv K} {R : SC K → SC K → Prop} (H : SameInstruments E B R) (O : OrbitEnv K) {s t : SC K} (h : R s t)
    (rm : List (List K)) (ref : Option (List K)) (cms : Option CMs) (bpms : Option (List Nat)) (k n : Nat) (eps target scaleDisp : K) :
    ∀ m ∈ [firstTurn E B O rm ref cms bpms n, stitch E B O rm ref cms bpms k n, balance E B O rm ref cms bpms eps n,
        correct E B O rm ref cms bpms eps target n scaleDisp],
      (m s).value?.map (fun l => l.map (fun g => (g.x, g.y))) = (m t).value?.map (fun l => l.map (fun g => (g.x, g.y))) ∧ (m s).err? = (m t).err? := by
  intro m hm
  simp only [List.mem_cons, List.not_mem_nil, or_false] at hm
  rcases hm with rfl | rfl | rfl | rfl
  · exact (H.firstTurn _ _ _ _ _ _).readings h
  · exact (H.stitch _ _ _ _ _ _ _).readings h
  · exact (H.balance _ _ _ _ _ _ _).readings h
  · exact (H.correct _ _ _ _ _ _ _ _ _).readings h

/-- The uncertainties which were registered, and the records of how supports, magnets and BPMs are aligned, can not be found out: if
tracking does not look at them, machines which differ only in them (the total offset and the total roll of every BPM being the same)
go through every session alike. -/
theorem C102_records {L : Lab K} (hB : IgnoresRecords L.B) {steps : List (Step K)} (hs : ∀ c ∈ steps, c.InControlRoom) {s t : SC K}
    (h : Indistinct s t) : outcomes L steps s = outcomes L steps t ∧ Indistinct (sessionOf L steps s) (sessionOf L steps t) :=
  C102_session (indistinct_instruments L.E hB) hs h

/-- In particular the registered uncertainties play no part. -/
theorem C102_uncertainties {L : Lab K} (hB : IgnoresRecords L.B) {steps : List (Step K)} (hs : ∀ c ∈ steps, c.InControlRoom) (s : SC K)
    (sig : Sigs K) : outcomes L steps { s with SIG := sig } = outcomes L steps s ∧
      ∀ i a, a ∉ alignmentNames → (sessionOf L steps { s with SIG := sig }).RING.attr i a = (sessionOf L steps s).RING.attr i a := by
  have h : Indistinct { s with SIG := sig } s := ⟨rfl, rfl, rfl, rfl, ⟨rfl, fun _ _ _ => rfl⟩, fun _ => ⟨Or.inl ⟨rfl, rfl⟩, Or.inl ⟨rfl, rfl⟩⟩⟩
  obtain ⟨h1, h2⟩ := C102_records hB hs h
  exact ⟨h1, h2.ring.attr⟩

/-- Nor can anyone find out whether a BPM is displaced by itself or with its support. -/
theorem C102_bpm_or_support (s : SC K) {i : Nat} {x y sx sy : K} (hi : i < s.RING.length) (ho : s.RING.attr i "Offset" = some (.vec [x, y]))
    (hsup : s.RING.attr i "SupportOffset" = some (.vec [sx, sy])) (dx dy : K) :
    Indistinct s { s with RING := (s.RING.setAttr i "Offset" (.vec [x + dx, y + dy])).setAttr i "SupportOffset" (.vec [sx - dx, sy - dy]) } where
  ords := rfl
  injection := rfl
  design := rfl
  rng := rfl
  ring := by
    refine ⟨by simp, fun j a ha => ?_⟩
    have h1 : a ≠ "Offset" := fun h => ha (h ▸ by decide)
    have h2 : a ≠ "SupportOffset" := fun h => ha (h ▸ by decide)
    simp [Ring.attr_setAttr, h1, h2]
  total := by
    intro j
    refine ⟨?_, Or.inl (by simp [Ring.attr_setAttr])⟩
    by_cases hj : j = i
    · subst hj
      exact Or.inr ⟨x, y, sx, sy, x + dx, y + dy, sx - dx, sy - dy, ho, hsup, by simp [Ring.attr_setAttr, hi], by simp [Ring.attr_setAttr, hi],
        by ring, by ring⟩
    · exact Or.inl (by simp [Ring.attr_setAttr, hj])

/-! ### A machine and a disguised copy -/

/-- the second BPM is displaced together with its support, which cancels its own offset; other uncertainties are registered -/
def Example.disguised : SC ℚ :=
  let s := Example.line (1/1000) 1
  { s with
    RING := (s.RING.setAttr 1 "Offset" (.vec [0 + 1/5000, 0 + 1/3000])).setAttr 1 "SupportOffset" (.vec [0 - 1/5000, 0 - 1/3000])
    SIG := { s.SIG with Circumference := 1/100 } }

theorem Example.disguised_indistinct : Indistinct (Example.line (1/1000) 1) Example.disguised := by
  have h := C102_bpm_or_support (Example.line (1/1000) 1) (i := 1) (x := 0) (y := 0) (sx := 0) (sy := 0) (by decide +kernel)
    (by decide +kernel) (by decide +kernel) (1/5000) (1/3000)
  exact ⟨h.ords, h.injection, h.design, h.rng, h.ring, h.total⟩

theorem Example.lineBeam_ignores : IgnoresRecords Example.lineBeam := by
  intro r r' h
  have e : ∀ i, vecAt r i "PolynomB" = vecAt r' i "PolynomB" := fun i => by
    unfold vecAt; rw [h.attr i "PolynomB" (by decide)]
  refine ⟨?_, rfl⟩
  funext Z i t
  simp only [Example.lineBeam, e]

def Example.controlRoom : Lab ℚ := { Example.laboratory with toWorld := ⟨Example.rand, Example.lineBeam, Example.lineOrbit⟩ }

/-- a scan of the trajectory, a correction, a refused request, a change of what is subtracted from the readings, a measurement -/
def Example.shift : List (Step ℚ) :=
  [.call (.reading none true), .call (.firstTurn Example.lineRM none none none 10), .call (.setCM [0] ⟨false, [1, 2]⟩ false "abs"),
   .bpmOffsets [[1], [1]] [[some (1/1000)], [none]] [[some (1/10000)], [none]],
   .responseMatrix ([1/10000, 1/10000], [1/10000, 1/10000]) [1, 3] ([0, 2], [0, 2]) "fixedKick" 1, .call (.reading none true)]

-- what is done in the control room differs for no one; the records of the machines do differ
example : (∀ c ∈ Example.shift, c.InControlRoom) ∧ IgnoresRecords Example.controlRoom.B ∧
    Indistinct (Example.line (1/1000) 1) Example.disguised ∧
    (Example.line (1/1000) 1).RING.attr 1 "Offset" ≠ Example.disguised.RING.attr 1 "Offset" ∧
    outcomes Example.controlRoom Example.shift Example.disguised = [none, none, some .valueError, none, none, none] ∧
    (sessionOf Example.controlRoom Example.shift Example.disguised).RING.attr 0 "SetPointB" ≠ Example.disguised.RING.attr 0 "SetPointB" ∧
    (sessionOf Example.controlRoom Example.shift Example.disguised).RING.attr 1 "Offset" ≠
      (sessionOf Example.controlRoom Example.shift (Example.line (1/1000) 1)).RING.attr 1 "Offset" := by
  refine ⟨?_, Example.lineBeam_ignores, Example.disguised_indistinct, by decide +kernel, by decide +kernel, by decide +kernel, by decide +kernel⟩
  intro c hc
  simp only [Example.shift, List.mem_cons, List.not_mem_nil, or_false] at hc
  rcases hc with rfl | rfl | rfl | rfl | rfl | rfl <;> trivial

theorem Example.bbaMoved :
    let c : Step ℚ := .fakeBba [[0], [0]] [[2], [2]] none (some [some (1/10000), none])
    let t := { Example.lab with RING := Example.lab.RING.setAttr 2 "MagnetOffset" (.vec [1/100, 1/100, 0]) }
    (c.run Example.laboratory Example.lab).state.RING.attr 0 "Offset" = some (.vec [1/20000, 0]) ∧
    (c.run Example.laboratory Example.lab).state.RING.attr 0 "SupportOffset" = some (.vec [0, 0]) ∧
    (c.run Example.laboratory t).state.RING.attr 0 "Offset" = some (.vec [201/20000, 0]) ∧
    (c.run Example.laboratory t).state.RING.attr 0 "SupportOffset" = some (.vec [0, 0]) := by
  decide +kernel

/-- **C102** does not extend to `fake_bba`, which moves the BPMs towards the true positions of the magnets: there the records matter. -/
theorem C102_not_for_fake_bba : ∃ (c : Step ℚ) (s t : SC ℚ), Indistinct s t ∧ (c.run Example.laboratory s).isOk = true ∧
    (c.run Example.laboratory t).isOk = true ∧ ¬ Indistinct (c.run Example.laboratory s).state (c.run Example.laboratory t).state := by
  refine ⟨.fakeBba [[0], [0]] [[2], [2]] none (some [some (1/10000), none]), Example.lab,
    { Example.lab with RING := Example.lab.RING.setAttr 2 "MagnetOffset" (.vec [1/100, 1/100, 0]) }, ?_, by decide +kernel, by decide +kernel,
    ?_⟩
  · refine ⟨rfl, rfl, rfl, rfl, ⟨by simp, fun j a ha => ?_⟩, fun j => ⟨Or.inl (by simp [Ring.attr_setAttr]), Or.inl (by simp [Ring.attr_setAttr])⟩⟩
    have h1 : a ≠ "MagnetOffset" := fun h => ha (h ▸ by decide)
    simp [Ring.attr_setAttr, h1]
  · intro h
    rcases (h.total 0).offset with ⟨h1, -⟩ | ⟨x, y, sx, sy, x', y', sx', sy', h1, h2, h3, h4, h5, -⟩
    · revert h1; decide +kernel
    · have g1 := (Example.bbaMoved.1).symm.trans h1
      have g2 := (Example.bbaMoved.2.1).symm.trans h2
      have g3 := (Example.bbaMoved.2.2.1).symm.trans h3
      have g4 := (Example.bbaMoved.2.2.2).symm.trans h4
      simp only [Option.some.injEq, Attr.vec.injEq, List.cons.injEq] at g1 g2 g3 g4
      rw [← g1.1, ← g2.1, ← g3.1, ← g4.1] at h5
      norm_num at h5
end PySC
