import Verif.Lemmas.BbaRestore
import Verif.Lemmas.BbaEval
import Verif.Props.Orbit
import Verif.Props.Restore
import Mathlib.Tactic.IntervalCases
/-
C41-C43, C71: beam-based alignment.
-/
namespace PySC
set_option linter.unusedSectionVars false
variable {K : Type} [Field K] [LinearOrder K] [FloorRing K]
open Py Spec

/-! ### An example: a quadrupole between two BPMs, and a bending magnet -/

/-- the centre of the quadrupole (element 1) is at (0.2 mm, -0.5 mm) -/
def Example.bbaBeam : BeamEnv ℚ := { Example.lineBeam with
  track := fun r Z i t =>
    let k := coef (vecAt r 1 "PolynomB") 1
    Z.map (fun p =>
      let x := coef p 0 + coef p 1
      let y := coef p 2 + coef p 3
      if 3/2000 < |x| ∨ 3/2000 < |y| then (none, none)
      else if i = 0 ∧ t = 0 then (some x, some y)
      else (some (x - k / 2 * (x - 1/5000)), some (y + k / 2 * (y + 1/2000)))) }

/-- the offset of both BPMs is (1 mm, 0) -/
def Example.bbaMachine : SC ℚ where
  RING := [Example.bpm.set "Noise" (.vec [1/1000000, 1/1000000]),
    (Example.quad.set "MagnetOffset" (.vec [1/5000, -1/2000, 0])).set "SupportOffset" (.vec [0, 0, 0]), Example.bpm, Example.dip, Example.drift]
  IDEALRING := []
  INJ := { beamLostAt := 1/2, Z0ideal := [0, 0, 0, 0, 0, 0], Z0 := [0, 0, 0, 0, 0, 0], beamSize := [],
           randomInjectionZ := [0, 0, 0, 0, 0, 0], staticInjectionZ := [0, 0, 0, 0, 0, 0], nParticles := 1, nTurns := 2,
           nShots := 1, trackMode := "TBT" }
  SIG := ⟨[], [], [], [], [], [], 0⟩
  ORD := ⟨[0, 2], [], [1, 3], [], [], [], [], [], []⟩
  rng := 0

/-- square root to twelve decimals -/
def Example.nearSqrt (v : ℚ) : Option ℚ := if v < 0 then none else some ((Example.isqrt (v * 10 ^ 24).floor.toNat : ℚ) / 10 ^ 12)

def Example.bbaEnv : BbaEnv ℚ where
  stats := ⟨Example.nearSqrt, 6, fun _ => 1⟩
  polyfit := fun _ _ => .error .notImplemented

def Example.bbaPar : BbaPar ℚ where
  nSteps := 3
  fitOrder := 1
  order := 1
  skew := false
  method := "rel"
  qOrds := [3]
  qSetpoints := [1, 9/10]
  strengths := .same [19/20, 21/20]
  numDownstream := 2
  maxPosAngle := (9/10000, 9/10000)
  dipComp := true

def Example.rand5 : Env ℚ := { Example.rand with
  randn := fun k => if k % 5 = 0 then 1/2 else if k % 5 = 1 then -1/3 else if k % 5 = 2 then 1 else 0 }

/-! ### C41 -/

/-- **C41**: `is_bba_errored` flags exactly the rejected measurements. -/
theorem C41_flags (off err : Option K) : isBbaErrored off err = true ↔ Rejected off err := isBbaErrored_iff off err

/-- **C41**: applying the offsets adds the accepted results to the offsets of the listed BPMs in the plane of their row; nothing
else changes, in particular no rejected result is applied. -/
theorem C41_applied (bpmOrds : List (List Nat)) (offs errs : List (List (Option K))) (s s' : SC K)
    (h : applyBpmOffsets bpmOrds offs errs s = .ok () s') :
    (∀ o p, bpmOffset s'.RING o p = bpmOffset s.RING o p + acceptedSum bpmOrds offs errs o p) ∧
    Frame (fun i a => a = "Offset" ∧ ∃ row ∈ bpmOrds, i ∈ row) s s' :=
  ⟨applyBpmOffsets_ok h, (applyBpmOffsets_writes bpmOrds offs errs).ok h⟩

theorem acceptedSum_once {bpmOrds : List (List Nat)} {offs errs : List (List (Option K))} {o p j : Nat} {off err : Option K}
    (hrow : ∀ k, cellAt bpmOrds p k = some o → k = j) (ho : cellAt bpmOrds p j = some o) (hoff : cellAt offs p j = some off)
    (herr : cellAt errs p j = some err) :
    (Rejected off err → acceptedSum bpmOrds offs errs o p = 0) ∧ (¬ Rejected off err → acceptedSum bpmOrds offs errs o p = off.getD 0) := by
  classical
  have hj : j < (offs.getD p []).length := by
    simp only [cellAt, Option.bind_eq_some_iff] at hoff
    obtain ⟨row, h1, h2⟩ := hoff
    rw [List.getD_eq_getElem?_getD, h1]
    exact (List.getElem?_eq_some_iff.1 h2).1
  have hsum : ∀ g : Nat → K, (∀ k, k ≠ j → g k = 0) → ((List.range (offs.getD p []).length).map g).sum = g j := by
    intro g hg
    rw [List.sum_map_eq_nsmul_single j _ (fun k hk _ => hg k hk)]
    rw [List.nodup_range.count, if_pos (List.mem_range.2 hj), one_smul]
  unfold acceptedSum
  rw [hsum]
  · simp only [ho, hoff, herr, Option.getD_some, true_and]
    exact ⟨fun h => by simp [h], fun h => by simp [h]⟩
  · intro k hk
    rw [if_neg]
    rintro ⟨h1, -⟩
    exact hk (hrow k h1)

/-- **C41**, entry by entry: if a BPM is listed once in a row, its offset in that plane is unchanged if the result was rejected,
and changed by the result otherwise; the offsets of BPMs which are not listed in a row are unchanged in that plane. -/
theorem C41_each_entry (bpmOrds : List (List Nat)) (offs errs : List (List (Option K))) (s s' : SC K)
    (h : applyBpmOffsets bpmOrds offs errs s = .ok () s') (o p : Nat) :
    (∀ j off err, (∀ k, cellAt bpmOrds p k = some o → k = j) → cellAt bpmOrds p j = some o → cellAt offs p j = some off →
      cellAt errs p j = some err →
      (Rejected off err → bpmOffset s'.RING o p = bpmOffset s.RING o p) ∧
      (∀ x, off = some x → ¬ Rejected off err → bpmOffset s'.RING o p = bpmOffset s.RING o p + x)) ∧
    ((∀ j, cellAt bpmOrds p j ≠ some o) → bpmOffset s'.RING o p = bpmOffset s.RING o p) := by
  rw [applyBpmOffsets_ok h]
  refine ⟨fun j off err h1 h2 h3 h4 => ?_, fun hno => ?_⟩
  · obtain ⟨e1, e2⟩ := acceptedSum_once h1 h2 h3 h4
    exact ⟨fun hr => by rw [e1 hr, add_zero], fun x hx hr => by rw [e2 hr, hx]; rfl⟩
  · have : acceptedSum bpmOrds offs errs o p = 0 := by
      unfold acceptedSum
      apply List.sum_eq_zero
      intro x hx
      rw [List.mem_map] at hx
      obtain ⟨j, -, rfl⟩ := hx
      rw [if_neg (fun hh => hno j hh.1)]
    rw [this, add_zero]

/-- **C41**: it succeeds if the tables have the same shape and each listed BPM has an offset in the plane of its row. -/
theorem C41_succeeds (bpmOrds : List (List Nat)) (offs errs : List (List (Option K))) (s : SC K) (hs : shape offs = shape errs)
    (hl : ∀ p j x, cellAt offs p j = some x → ∃ o, cellAt bpmOrds p j = some o)
    (ho : ∀ p j o, cellAt bpmOrds p j = some o → ∃ v, s.RING.attr o "Offset" = some (.vec v) ∧ p < v.length) :
    ∃ s', applyBpmOffsets bpmOrds offs errs s = .ok () s' := by
  unfold applyBpmOffsets
  rw [if_neg (by simpa using hs)]
  refine (forEach_progress (I := fun t : SC K => ∀ p j o, cellAt bpmOrds p j = some o → ∃ v, t.RING.attr o "Offset" = some (.vec v) ∧ p < v.length)
    (fun e he t ht => ?_) ho).imp (fun s' hs' => hs'.1)
  obtain ⟨p, j, off, err⟩ := e
  rw [mem_cells, cellAt_zip] at he
  simp only
  cases off with
  | none => exact ⟨t, rfl, ht⟩
  | some x =>
    simp only
    by_cases hr : isBbaErrored (some x) err = true
    · rw [if_pos hr]; exact ⟨t, rfl, ht⟩
    rw [if_neg hr]
    obtain ⟨o, hbo⟩ := hl p j _ he.1
    obtain ⟨v, hv, hp⟩ := ht p j o hbo
    have hlt : o < t.RING.length := Ring.attr_some_lt hv
    refine ⟨{ t with RING := t.RING.setAttr o "Offset" (.vec (v.set p (v[p] + x))) }, ?_, ?_⟩
    · rw [bindLift_eq_ok]
      refine ⟨o, tab2_eq_ok.2 hbo, ?_⟩
      unfold changeOffset
      rw [bindRd_eq_ok]
      refine ⟨v, (Ring.getVec_eq_ok).2 hv, ?_⟩
      rw [bindLift_eq_ok]
      refine ⟨v[p], idx_eq_ok.2 (List.getElem?_eq_getElem hp), ?_⟩
      exact setAttr_eq_ok.2 ⟨hlt, rfl⟩
    · intro p' j' o' hb'
      obtain ⟨w, hw, hp'⟩ := ht p' j' o' hb'
      by_cases hoo : o' = o
      · subst hoo
        refine ⟨_, Ring.attr_setAttr_same hlt, ?_⟩
        rw [hv] at hw
        cases hw
        simpa using hp'
      · exact ⟨w, by rw [Ring.attr_setAttr_ne' hoo]; exact hw, hp'⟩

/-- one result is applied, one is too large, one is not significant, one is missing -/
example : (applyBpmOffsets [[0, 2], [0, 2]] [[some (1/1000), some (1/500)], [some (1/1000), none]]
      [[some (1/10000), none], [some (1/2000), some 0]] Example.bbaMachine).isOk = true ∧
    (let s' := (applyBpmOffsets [[0, 2], [0, 2]] [[some (1/1000), some (1/500)], [some (1/1000), none]]
      [[some (1/10000), none], [some (1/2000), some 0]] Example.bbaMachine).state
     (bpmOffset s'.RING 0 0, bpmOffset s'.RING 2 0, bpmOffset s'.RING 0 1, bpmOffset s'.RING 2 1) = (1/500, 1/1000, 0, 0)) := by
  decide +kernel

/-! ### C42 -/

section Fake
variable [IsStrictOrderedRing K]

/-- **C42**: after `fake_bba` with given sizes each flagged BPM is at most twice the size of its plane away from its magnet, and
no other offset and nothing else changes.  Where the size is NaN, nothing changes either. -/
theorem C42_given_size (E : Env K) (S : StatsEnv K) (bpmOrds magOrds : List (List Nat)) (errors : Option (List (List Bool)))
    (sizes : List (Option K)) (s s' : SC K) (hnd : ∀ row ∈ bpmOrds, row.Nodup)
    (h : fakeBba E S bpmOrds magOrds errors (some sizes) s = .ok () s') :
    (∀ p j bpm mag x, cellAt (allFlags errors bpmOrds) p j = some true → cellAt bpmOrds p j = some bpm → cellAt magOrds p j = some mag →
      sizes[p]? = some (some x) → |relativeOffset s'.RING bpm mag p| ≤ 2 * |x|) ∧
    (∀ o p, (∀ j, cellAt (allFlags errors bpmOrds) p j = some true → cellAt bpmOrds p j = some o → sizes[p]? = some none) →
      bpmOffset s'.RING o p = bpmOffset s.RING o p) ∧
    DrawFrame (fun i a => a = "Offset" ∧ ∃ p j, cellAt (allFlags errors bpmOrds) p j = some true ∧ cellAt bpmOrds p j = some i) s s' := by
  unfold fakeBba at h
  rw [if_neg (by simp)] at h
  simp only at h
  have h := fakeLoop_ok hnd h
  refine ⟨fun p j bpm mag x hf hb hm hx => ?_, fun o p hn => h.2.2 o p hn, h.1⟩
  obtain ⟨mag', bpm', f, e1, e2, e3, e4⟩ := h.2.1 p j hf
  rw [hm] at e1; cases e1
  rw [hb] at e2; cases e2
  rw [hx] at e3; cases e3
  obtain ⟨z, hz, e⟩ := e4 x rfl
  rw [e, abs_mul, mul_comm]
  exact mul_le_mul_of_nonneg_right hz (abs_nonneg x)

/-- **C42**: if no size is given, it is the root mean square distance of the other BPMs of the row from their magnets. -/
theorem C42_estimated_size (E : Env K) (S : StatsEnv K) (bpmOrds magOrds : List (List Nat)) (flags : List (List Bool)) (s s' : SC K)
    (hsqrt : SqrtSound S.sqrt) (hnd : ∀ row ∈ bpmOrds, row.Nodup) (h : fakeBba E S bpmOrds magOrds (some flags) none s = .ok () s') :
    (∀ p j bpm mag, cellAt flags p j = some true → cellAt bpmOrds p j = some bpm → cellAt magOrds p j = some mag →
      (unflaggedOffsets s.RING bpmOrds magOrds flags p = [] ∧ relativeOffset s'.RING bpm mag p = relativeOffset s.RING bpm mag p) ∨
      S.sqrt (((unflaggedOffsets s.RING bpmOrds magOrds flags p).map (fun x => x ^ 2)).sum /
        ((unflaggedOffsets s.RING bpmOrds magOrds flags p).length : K)) = none ∨
      ∃ x, 0 ≤ x ∧ x ^ 2 * ((unflaggedOffsets s.RING bpmOrds magOrds flags p).length : K) =
          ((unflaggedOffsets s.RING bpmOrds magOrds flags p).map (fun x => x ^ 2)).sum ∧
        |relativeOffset s'.RING bpm mag p| ≤ 2 * x) ∧
    (∀ o p, (∀ j, cellAt flags p j = some true → cellAt bpmOrds p j ≠ some o) → bpmOffset s'.RING o p = bpmOffset s.RING o p) ∧
    DrawFrame (fun i a => a = "Offset" ∧ ∃ p j, cellAt flags p j = some true ∧ cellAt bpmOrds p j = some i) s s' := by
  unfold fakeBba at h
  rw [if_neg (by simp)] at h
  simp only at h
  rw [bindRd_eq_ok] at h
  obtain ⟨sizes, hs, h⟩ := h
  have h := fakeLoop_ok hnd h
  simp only [allFlags, Option.getD_some] at h hs
  refine ⟨fun p j bpm mag hf hb hm => ?_, fun o p hn => h.2.2 o p (fun j hj hjo => absurd hjo (hn j hj)), h.1⟩
  obtain ⟨mag', bpm', f, e1, e2, e3, e4⟩ := h.2.1 p j hf
  rw [hm] at e1; cases e1
  rw [hb] at e2; cases e2
  have hsz := fakeSizes_ok hs e3
  by_cases hu : unflaggedOffsets s.RING bpmOrds magOrds flags p = []
  · left
    refine ⟨hu, ?_⟩
    rw [if_pos hu] at hsz
    subst hsz
    refine relativeOffset_congr (h.2.2 bpm p (fun k _ _ => e3)) (fun i a ha => ?_)
    exact h.1.attr i a (fun hh => ha hh.1)
  · right
    rw [if_neg hu] at hsz
    cases f with
    | none => left; exact hsz.symm
    | some x =>
      right
      obtain ⟨h0, h2⟩ := hsqrt _ _ hsz.symm
      obtain ⟨z, hz, e⟩ := e4 x rfl
      have hn : ((unflaggedOffsets s.RING bpmOrds magOrds flags p).length : K) ≠ 0 := by
        have : (unflaggedOffsets s.RING bpmOrds magOrds flags p).length ≠ 0 := by simpa using hu
        exact_mod_cast this
      refine ⟨x, h0, ?_, ?_⟩
      · rw [h2]; field_simp
      · rw [e, abs_mul, abs_of_nonneg h0, mul_comm]
        exact mul_le_mul_of_nonneg_right hz h0

/-- **C42**: without flags and size it refuses. -/
theorem C42_refuses (E : Env K) (S : StatsEnv K) (bpmOrds magOrds : List (List Nat)) (s : SC K) :
    fakeBba E S bpmOrds magOrds none none s = .error .valueError s := rfl

end Fake

/-- with a given size all BPMs are moved; with flags the size is that of the BPM which is not flagged; in the second row all are
flagged -/
example : ((fakeBba Example.rand5 Example.bbaEnv.stats [[0, 2], [0, 2]] [[1, 1], [1, 1]] none (some [some (1/10000), none])
      Example.bbaMachine).isOk = true ∧
    (let s' := (fakeBba Example.rand5 Example.bbaEnv.stats [[0, 2], [0, 2]] [[1, 1], [1, 1]] none (some [some (1/10000), none])
      Example.bbaMachine).state
     [relativeOffset s'.RING 0 1 0, relativeOffset s'.RING 2 1 0, relativeOffset s'.RING 0 1 1, relativeOffset s'.RING 2 1 1] =
      [1/20000, -1/30000, 1/2000, 1/2000])) ∧
    (let s' := (fakeBba Example.rand5 ⟨Example.qsqrt, 6, fun _ => 1⟩ [[0, 2], [0, 2]] [[1, 1], [1, 1]]
      (some [[true, false], [true, true]]) none Example.bbaMachine).state
     [relativeOffset s'.RING 0 1 0, relativeOffset s'.RING 2 1 0, relativeOffset s'.RING 0 1 1, relativeOffset s'.RING 2 1 1] =
      [1/2500, 4/5000, 1/2000, 1/2000]) ∧
    (fakeBba Example.rand5 ⟨Example.qsqrt, 6, fun _ => 1⟩ [[0, 2], [0, 2]] [[1, 1], [1, 1]]
      (some [[true, false], [true, true]]) none Example.bbaMachine).isOk = true ∧
    (∀ row ∈ [[0, 2], [0, 2]], List.Nodup (α := Nat) row) := by
  decide +kernel

/-! ### C43 -/

section Trace
variable [IsStrictOrderedRing K]

/-- **C43**: scaling the injection leaves the machine and the injection as they were (only random numbers are drawn).  Either
the factor is 0.8^k for some k ≤ 19 and, injecting with that factor in both directions, all BPMs up to the last one have
readings; or after 20 trials the factor is 0.8^20 and all ranges are zero. -/
theorem C43_scaling (E : Env K) (B : BeamEnv K) (p last : Nat) (m : K × K) (s s' : SC K) (out : K × List (Option K))
    (h : scaleInjection E B p last m s = .ok out s') :
    OnlyRng s s' ∧ out.2.length = s.ORD.BPM.length ∧
    ((∃ k ≤ 19, out.1 = (4 / 5) ^ k ∧ Reaches E B s p last (out.1 * m.1, out.1 * m.2) ∧
        Reaches E B s p last (-(out.1 * m.1), -(out.1 * m.2)) ∧
        (∀ b ≤ last, b < s.ORD.BPM.length → (out.2.getD b none).isSome = true)) ∨
      (out.1 = (4 / 5) ^ 20 ∧ ∀ b, b < s.ORD.BPM.length → out.2.getD b none = some 0)) := by
  obtain ⟨h1, h2, h3⟩ := scaleInjection_ok h
  refine ⟨h1, h2, h3.imp (fun ⟨k, hk, hr⟩ => ⟨k, by omega, hr⟩) id⟩

/-- the beam survives with 0.8 times the largest angle and position; in the second case never -/
example : ((scaleInjection Example.rand5 Example.bbaBeam 0 1 (9/10000, 9/10000) Example.bbaMachine).value?.map Prod.fst = some (4/5)) ∧
    ((scaleInjection Example.rand5 Example.bbaBeam 0 1 (1, 0) Example.bbaMachine).value? = some ((4/5) ^ 20, [some 0, some 0])) := by
  decide +kernel

/-- **C43**: after the measurement with one magnet everything is as it was: the injection, all errors and all set-points. -/
theorem C43_measurement (E : Env K) (B : BeamEnv K) (par : BbaPar K) (mOrd bpmInd j p : Nat) (scaling : K) (s s' : SC K)
    (out : List (List (Option K × List (Option K)))) (hsafe : Restorable s mOrd par.skew par.order par.dipComp)
    (h : dataMeasurementTbt E B par mOrd bpmInd j p scaling s = .ok out s') : NoTrace s s' := dataMeasurementTbt_ok hsafe h

/-- **C43**: the same for the scan of the phase advance. -/
theorem C43_phase_scan (E : Env K) (B : BeamEnv K) (par : BbaPar K) (p last : Nat) (s s' : SC K) (out : List (K × List (Option K)))
    (hnd : par.qOrds.Nodup) (hsafe : ∀ o ∈ par.qOrds, Restorable s o false 1 true)
    (h : phaseAdvanceScan E B par p last s = .ok out s') : NoTrace s s' := phaseAdvanceScan_ok hnd hsafe h

/-- **C43**: after trajectory BBA the injection, the model, the registrations, all set-points and all errors are as they were,
but for the offsets of the listed BPMs, to which the accepted results have been added. -/
theorem C43_trajectory_bba (E : Env K) (B : BeamEnv K) (Q : BbaEnv K) (bpmOrds magOrds : List (List Nat)) (par : BbaPar K)
    (s s' : SC K) (out : List (List (K × Option K))) (hnd : par.qOrds.Nodup) (hq : ∀ o ∈ par.qOrds, Restorable s o false 1 true)
    (hm : ∀ row ∈ magOrds, ∀ m ∈ row, Restorable s m par.skew par.order par.dipComp)
    (h : trajectoryBba E B Q bpmOrds magOrds par s = .ok out s') :
    s'.INJ = s.INJ ∧ s'.IDEALRING = s.IDEALRING ∧ s'.SIG = s.SIG ∧ s'.ORD = s.ORD ∧ s'.RING.length = s.RING.length ∧
    (∀ i skew k, setpoint s'.RING i skew k = setpoint s.RING i skew k) ∧
    (∀ i a, a ∉ ["SetPointA", "SetPointB", "PolynomA", "PolynomB", "KickAngle", "MaxOrder"] →
      ¬ (a = "Offset" ∧ ∃ row ∈ bpmOrds, i ∈ row) → s'.RING.attr i a = s.RING.attr i a) ∧
    (∀ o p, bpmOffset s'.RING o p = bpmOffset s.RING o p + acceptedSum bpmOrds (out.map (fun row => row.map (fun v => some v.1)))
      (out.map (fun row => row.map (fun v => v.2))) o p) := by
  obtain ⟨s1, n1, h2⟩ := trajectoryBba_ok hnd hq hm h
  have f := (applyBpmOffsets_writes _ _ _).ok h2
  have g := applyBpmOffsets_ok h2
  refine ⟨f.inj.trans n1.inj, f.ideal.trans n1.ideal, f.sig.trans n1.sig, f.ord.trans n1.ord, f.len.trans n1.len, fun i skew k => ?_,
    fun i a ha hno => (f.attr i a hno).trans (n1.attr i a ha), fun o p => ?_⟩
  · rw [← n1.setpoints i skew k]
    refine setpoint_congr (f.attr i _ ?_)
    rintro ⟨h, -⟩
    cases skew <;> simp [plane] at h
  · rw [g o p]
    have : bpmOffset s1.RING o p = bpmOffset s.RING o p := by
      simp only [bpmOffset, vecAt, n1.attr o "Offset" (by decide)]
    rw [this]

/-- **C43**: if the fields are up to date before and only registered magnets are used, the measurement with one magnet gives back
the very same object, but for the random numbers used. -/
theorem C43_measurement_exact (E : Env K) (B : BeamEnv K) (par : BbaPar K) (mOrd bpmInd j p : Nat) (scaling : K) (s s' : SC K)
    (out : List (List (Option K × List (Option K)))) (hsafe : Restorable s mOrd par.skew par.order par.dipComp)
    (hreg : mOrd ∈ s.ORD.Magnet) (hsep : Separate s) (hup : UpToDate s)
    (h : dataMeasurementTbt E B par mOrd bpmInd j p scaling s = .ok out s') : ∃ n, s' = { s with rng := n } := by
  have n := dataMeasurementTbt_ok hsafe h
  have t := dataMeasurementTbt_trimmed hreg h
  have hr := t.similar.same hup (t.up hsep hup) n.setpoints
  refine ⟨s'.rng, ?_⟩
  have e1 := n.ideal
  have e2 := n.inj
  have e3 := n.sig
  have e4 := n.ord
  cases s'; cases s
  simp only [SC.mk.injEq]
  exact ⟨hr, e1, e2, e3, e4, trivial⟩

/-- **C43**: if the fields are up to date before and only registered magnets are used, trajectory BBA changes no attribute of any
element but the offsets of the listed BPMs. -/
theorem C43_trajectory_bba_exact (E : Env K) (B : BeamEnv K) (Q : BbaEnv K) (bpmOrds magOrds : List (List Nat)) (par : BbaPar K)
    (s s' : SC K) (out : List (List (K × Option K))) (hnd : par.qOrds.Nodup) (hq : ∀ o ∈ par.qOrds, Restorable s o false 1 true)
    (hm : ∀ row ∈ magOrds, ∀ m ∈ row, Restorable s m par.skew par.order par.dipComp)
    (hq' : ∀ o ∈ par.qOrds, o ∈ s.ORD.Magnet) (hm' : ∀ row ∈ magOrds, ∀ m ∈ row, m ∈ s.ORD.Magnet) (hsep : Separate s) (hup : UpToDate s)
    (h : trajectoryBba E B Q bpmOrds magOrds par s = .ok out s') :
    ∀ i a, ¬ (a = "Offset" ∧ ∃ row ∈ bpmOrds, i ∈ row) → s'.RING.attr i a = s.RING.attr i a := by
  obtain ⟨s1, n1, t1, h2⟩ := trajectoryBba_trimmed hnd hq hm hq' hm' h
  have f := (applyBpmOffsets_writes _ _ _).ok h2
  intro i a ha
  rw [f.attr i a ha, t1.similar.same hup (t1.up hsep hup) n1.setpoints]

/-- **C43**: it refuses to work in other modes than two turns of turn-by-turn data, and leaves the machine alone. -/
theorem C43_refuses (E : Env K) (B : BeamEnv K) (Q : BbaEnv K) (bpmOrds magOrds : List (List Nat)) (par : BbaPar K) (s : SC K)
    (h : s.INJ.trackMode ≠ "TBT" ∨ s.INJ.nTurns ≠ 2 ∨ shape bpmOrds ≠ shape magOrds ∨ 2 < par.fitOrder) :
    trajectoryBba E B Q bpmOrds magOrds par s = .error .valueError s := by
  unfold trajectoryBba
  rw [bind_apply, get_apply]
  simp only
  by_cases h1 : shape bpmOrds ≠ shape magOrds
  · have : checkBbaInput bpmOrds magOrds par = .error .valueError := by unfold checkBbaInput; rw [if_pos h1]
    rw [this]; rfl
  by_cases h2 : 2 < par.fitOrder
  · have : checkBbaInput bpmOrds magOrds par = .error .valueError := by unfold checkBbaInput; rw [if_neg h1, if_pos h2]
    rw [this]; rfl
  · have : checkBbaInput bpmOrds magOrds par = .ok () := by unfold checkBbaInput; rw [if_neg h1, if_neg h2]
    rw [this]
    have hc : s.INJ.trackMode ≠ "TBT" ∨ s.INJ.nTurns ≠ 2 := by tauto
    show (if s.INJ.trackMode ≠ "TBT" ∨ s.INJ.nTurns ≠ 2 then Py.throw .valueError else _) s = _
    rw [if_pos hc]; rfl

end Trace

/-- the example: the BPM is found to be off by -0.8 mm and -0.5 mm from the quadrupole, which is right -/
example : (trajectoryBba Example.rand5 Example.bbaBeam Example.bbaEnv [[0], [0]] [[1], [1]] Example.bbaPar Example.bbaMachine).value?.map
      (fun out => out.map (fun row => row.map (fun v => decide (|v.1 + 8/10000| < 1/1000000 ∨ |v.1 + 5/10000| < 1/1000000)))) =
      some [[true], [true]] ∧ Example.bbaPar.qOrds.Nodup := by
  decide +kernel

example : (∀ o ∈ Example.bbaPar.qOrds, Restorable Example.bbaMachine o false 1 true) ∧
    (∀ row ∈ [[1], [1]], ∀ m ∈ row, Restorable Example.bbaMachine m Example.bbaPar.skew Example.bbaPar.order Example.bbaPar.dipComp) := by
  refine ⟨fun o ho => ⟨fun h => Bool.noConfusion h, fun _ _ _ h => by simp [show Example.bbaMachine.ORD.HCM = [] from rfl] at h⟩, fun row _ m _ =>
    ⟨fun h => Bool.noConfusion h, fun _ _ _ h => by simp [show Example.bbaMachine.ORD.HCM = [] from rfl] at h⟩⟩

/-- the machine of the example with a quadrupole that has no children -/
def Example.bbaSingle : SC ℚ :=
  { Example.bbaMachine with RING := Example.bbaMachine.RING.modify 1 (fun e a => if a = "MasterOf" then none else e a) }

/-- the same with the fields up to date -/
def Example.bbaUpToDate : SC ℚ := (updateMagnets none Example.bbaSingle).state

theorem Example.bbaUpToDate_ok : Separate Example.bbaUpToDate ∧ UpToDate Example.bbaUpToDate := by
  have hs : Separate Example.bbaSingle := by
    have hn : ∀ o ∈ Example.bbaSingle.ORD.Magnet, Example.bbaSingle.RING.attr o "MasterOf" = none := by decide +kernel
    intro o ho o' ho' t h1 h2
    simp only [Affects, hn o ho, hn o' ho', reduceCtorEq, false_and, exists_false, or_false] at h1 h2
    omega
  have h : updateMagnets none Example.bbaSingle = .ok () Example.bbaUpToDate := ok_of_isOk (by decide +kernel)
  refine ⟨?_, C72_after_update _ _ hs h⟩
  rw [updateMagnets_none] at h
  exact (updateMagnets_trimmed (fun _ h => h) h).separate hs

/-- its magnet is registered and trajectory BBA works with it -/
example : (trajectoryBba Example.rand5 Example.bbaBeam Example.bbaEnv [[0], [0]] [[1], [1]] Example.bbaPar Example.bbaUpToDate).isOk ∧
    (∀ o ∈ Example.bbaPar.qOrds, o ∈ Example.bbaUpToDate.ORD.Magnet) ∧ 1 ∈ Example.bbaUpToDate.ORD.Magnet := by
  decide +kernel

/-- **C43 violated**: an exception during the measurement (here more downstream BPMs than there are) leaves the magnet at the
first strength and the injection at the first kick. -/
theorem C43_violated_exception : ∃ s' : SC ℚ,
    trajectoryBba Example.rand5 Example.bbaBeam Example.bbaEnv [[0, 2]] [[1, 1]] { Example.bbaPar with numDownstream := 4 } Example.bbaMachine =
      .error .valueError s' ∧
    setpoint Example.bbaMachine.RING 1 false 1 = 2 ∧ setpoint s'.RING 1 false 1 = 19/10 ∧
    Example.bbaMachine.INJ.Z0 = [0, 0, 0, 0, 0, 0] ∧ s'.INJ.Z0 = [-9/12500, -9/12500, 0, 0, 0, 0] :=
  ⟨_, err_of_err? (by decide +kernel), by decide +kernel, by decide +kernel, by decide +kernel, by decide +kernel⟩

theorem exists_of_isOk {σ α : Type _} {r : Res σ α} (h : r.isOk = true) : ∃ a, r = .ok a r.state := by
  cases r with
  | ok a s => exact ⟨a, rfl⟩
  | error e s => simp [Res.isOk] at h

/-- the machine of the example with the bending magnet as a corrector, whose limit is 1 rad -/
def Example.bbaBending : SC ℚ := { Example.bbaMachine with ORD := { Example.bbaMachine.ORD with HCM := [3] } }

/-- **C43 violated**: if the compensation of the bending is limited, the corrector of the bending magnet does not return to its
set-point. -/
theorem C43_violated_limit : ∃ (out : List (List (Option ℚ × List (Option ℚ)))) (s' : SC ℚ),
    dataMeasurementTbt Example.rand5 Example.bbaBeam { Example.bbaPar with strengths := .same [12, 13] } 3 1 0 0 1 Example.bbaBending = .ok out s' ∧
    setpoint s'.RING 3 false 1 = setpoint Example.bbaBending.RING 3 false 1 ∧
    setpoint Example.bbaBending.RING 3 false 0 = 0 ∧ setpoint s'.RING 3 false 0 ≠ 0 := by
  obtain ⟨out, h⟩ := exists_of_isOk (r := dataMeasurementTbt Example.rand5 Example.bbaBeam { Example.bbaPar with strengths := .same [12, 13] }
    3 1 0 0 1 Example.bbaBending) (by decide +kernel)
  exact ⟨out, _, h, by decide +kernel, by decide +kernel, by decide +kernel⟩

/-! ### C71 -/

/-- **C71**: if the change of the reading of each downstream BPM with the strength of the magnet is proportional to the
distance of the beam from the magnet, the evaluation with a linear fit finds the centre of the magnet exactly, whatever the
statistical weights, the missing readings and the responses are.  Without dipole compensation, the bending of the magnet is
added in the horizontal plane. -/
theorem C71_centre [IsStrictOrderedRing K] (Q : BbaEnv K) (r : Ring K) (par : BbaPar K) (data : List (List (Option K × List (Option K))))
    (magVec : List K) (p mOrd : Nat) (out : K × Option K) (c : K) (α : Nat → Nat → K) (β : Nat → K) (hfit : par.fitOrder = 1)
    (hdata : ∀ i j x, i < par.nSteps → j < par.numDownstream → npMean (posAt data i) = some x →
      ∀ m w, (m, some w) ∈ magVec.zip (trajAt data i j) → w = α i j + β j * (x - c) * m)
    (h : dataEvaluation Q r par data magVec p mOrd = .ok out) :
    ∃ shift, bendingShift r par.dipComp p mOrd = .ok shift ∧ out.1 = c + shift ∧
      (par.dipComp = true ∨ p ≠ 0 ∨ coef (vecAt r mOrd "NomPolynomB") 1 = 0 → shift = 0) ∧
      (par.dipComp = false → p = 0 → coef (vecAt r mOrd "NomPolynomB") 1 ≠ 0 →
        shift = numAt r mOrd "BendingAngle" / coef (vecAt r mOrd "NomPolynomB") 1 / numAt r mOrd "Length") := by
  obtain ⟨shift, h1, h2⟩ := dataEvaluation_exact hfit hdata h
  refine ⟨shift, h1, h2, fun hc => ?_, fun hd hp hn => ?_⟩
  · unfold bendingShift at h1
    by_cases hd : (par.dipComp || decide (p ≠ 0)) = true
    · rw [if_pos hd] at h1; cases h1; rfl
    · rw [if_neg hd] at h1
      simp only [Except.bind_eq_ok'] at h1
      obtain ⟨n1, hn1, h1⟩ := h1
      rw [Ring.getVecAt_eq_ok] at hn1
      obtain ⟨v, hv, hk⟩ := hn1
      have hz : n1 = 0 := by
        rcases hc with hc | hc | hc
        · simp [hc] at hd
        · simp [hc] at hd
        · rw [vecAt_of_attr hv, coef_of_getElem? hk] at hc; exact hc
      rw [if_pos hz] at h1; cases h1; rfl
  · unfold bendingShift at h1
    rw [if_neg (by simp [hd, hp])] at h1
    simp only [Except.bind_eq_ok'] at h1
    obtain ⟨n1, hn1, h1⟩ := h1
    rw [Ring.getVecAt_eq_ok] at hn1
    obtain ⟨v, hv, hk⟩ := hn1
    have hz : coef (vecAt r mOrd "NomPolynomB") 1 = n1 := by rw [vecAt_of_attr hv, coef_of_getElem? hk]
    rw [hz] at hn ⊢
    rw [if_neg hn] at h1
    simp only [Except.bind_eq_ok'] at h1
    obtain ⟨ba, hba, l, hl, q, hq, h1⟩ := h1
    cases h1
    rw [divE_eq_ok] at hq
    have hbn : ba = numAt r mOrd "BendingAngle" := by
      simp only [bendingAngleOr0, Except.bind_eq_ok', Ring.hasA_eq_ok, Except.ite_eq_ok, Ring.getNum_eq_ok] at hba
      obtain ⟨b, ⟨-, hb⟩, hba⟩ := hba
      rcases hba with ⟨-, hba⟩ | ⟨h0, hba⟩
      · exact (numAt_of_attr hba).symm
      · cases hba
        rw [hb] at h0
        simp only [numAt]
        cases hx : r.attr mOrd "BendingAngle" with
        | none => rfl
        | some v => rw [hx] at h0; simp at h0
    rw [hq.2, hbn]
    obtain hl := (Ring.getNum_eq_ok).1 hl
    rw [numAt_of_attr hl]

/-- Five steps with two strengths.  In one step the BPM has no reading, and one reading of the second downstream BPM is missing.
The readings are exact, the positions jitter; the first downstream BPM does not see the magnet. -/
def Example.bbaData : List (List (Option ℚ × List (Option ℚ))) :=
  [[(some (-9), [some 1, some 74]), (some 1, [some 1, some (-6)]), (none, []), (some 4, [some 9, some 4]), (some 19, [some 9, some 34])],
   [(some (-11), [some 1, some 22]), (some (-1), [some 1, some (-18)]), (none, []), (some 6, [none, some 12]), (some 21, [some 9, some 102])]]

/-- the centre is at 3; the bending magnet without compensation gives another result -/
example : (dataEvaluation Example.bbaEnv Example.bbaMachine.RING { Example.bbaPar with nSteps := 5 } Example.bbaData [1, 3] 0 3).toOption.map
      Prod.fst = some 3 ∧
    (dataEvaluation Example.bbaEnv Example.bbaMachine.RING { Example.bbaPar with nSteps := 5, dipComp := false } Example.bbaData [1, 3] 0 3).toOption.map
      Prod.fst = some (3 - 1 / 20) := by
  decide +kernel

example : ∀ i j x, i < 5 → j < 2 → npMean (posAt Example.bbaData i) = some x → ∀ m w, (m, some w) ∈ [1, 3].zip (trajAt Example.bbaData i j) →
    w = (fun i j => if j = 0 then (if i < 3 then (1 : ℚ) else 9) else (if i = 0 then 100 else 0)) i j +
      (fun j => if j = 0 then (0 : ℚ) else 2) j * (x - 3) * m := by
  have h0 : npMean (posAt Example.bbaData 0) = some (-10) := by decide +kernel
  have h1 : npMean (posAt Example.bbaData 1) = some 0 := by decide +kernel
  have h2 : npMean (posAt Example.bbaData 2) = none := by decide +kernel
  have h3 : npMean (posAt Example.bbaData 3) = some 5 := by decide +kernel
  have h4 : npMean (posAt Example.bbaData 4) = some 20 := by decide +kernel
  intro i j x hi hj hx m w hm
  interval_cases i <;> simp only [h0, h1, h2, h3, h4, reduceCtorEq, Option.some.injEq] at hx <;> subst hx <;> interval_cases j <;>
    simp [trajAt, Example.bbaData] at hm <;> simp <;> grind

/-- a beam which is lost on one side -/
def Example.scrapedBeam : BeamEnv ℚ := { Example.bbaBeam with
  track := fun r Z i t => Z.map (fun p => if coef p 0 < 0 then (none, none) else ((Example.bbaBeam.track r [p] i t).getD 0 (none, none))) }

/-- **C71 violated**: if there are too few readings for one BPM, the whole procedure raises `ZeroDivisionError`, and no offset is
applied. -/
theorem C71_violated_no_data : ∃ s' : SC ℚ,
    trajectoryBba Example.rand5 Example.scrapedBeam Example.bbaEnv [[0]] [[1]] Example.bbaPar Example.bbaMachine = .error .zeroDivision s' :=
  ⟨_, err_of_err? (by decide +kernel)⟩

/-- **C71 violated**: a magnet without any effect on the beam is not recognised as such: the weights of the second fit are the
inverse variances of the slopes instead of the inverse errors, so the noise looks significant.  Here it gives an offset of -0.66 mm
with an error of 3 nm, which is accepted. -/
theorem C71_violated_no_effect :
    (∀ r Z i t v, Example.bbaBeam.track (r.setAttr 3 "PolynomB" v) Z i t = Example.bbaBeam.track r Z i t) ∧
    (trajectoryBba Example.rand5 Example.bbaBeam Example.bbaEnv [[0]] [[3]] { Example.bbaPar with numDownstream := 1 } Example.bbaMachine).value? =
      some [[(-4766871 / 7258100000, some (4681 / 1414213562373))]] ∧
    bpmOffset (trajectoryBba Example.rand5 Example.bbaBeam Example.bbaEnv [[0]] [[3]] { Example.bbaPar with numDownstream := 1 }
      Example.bbaMachine).state.RING 0 0 = bpmOffset Example.bbaMachine.RING 0 0 - 4766871 / 7258100000 := by
  refine ⟨fun r Z i t v => ?_, by decide +kernel, by decide +kernel⟩
  have : vecAt (r.setAttr 3 "PolynomB" v) 1 "PolynomB" = vecAt r 1 "PolynomB" := by
    simp only [vecAt, Ring.attr_setAttr_ne' (show (1 : Nat) ≠ 3 by decide)]
  simp only [Example.bbaBeam, this]

/-- **C71 violated**: with BPMs without noise the weights are infinite, and there is no result at all. -/
theorem C71_violated_no_noise : ∃ s' : SC ℚ,
    trajectoryBba Example.rand5 Example.bbaBeam Example.bbaEnv [[0]] [[1]] Example.bbaPar
      { Example.bbaMachine with RING := Example.bbaMachine.RING.set 0 Example.bpm } = .error .nonFinite s' :=
  ⟨_, err_of_err? (by decide +kernel)⟩

end PySC
