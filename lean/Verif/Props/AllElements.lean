import Verif.Lemmas.AllElements
import Verif.Props.Bba
/-
C75 Reading of all elements.
-/
set_option linter.unusedSectionVars false
namespace PySC
open Py Spec
variable {K : Type} [Field K] [LinearOrder K]

/-- **C75** `all_elements_reading` only consumes random numbers.  For each shot it returns the true positions of all particles at the
entrance of every element and at the end of the ring in every turn: those of the injected bunch (`Spec.IsBunch`), or the closed orbit.
The BPM readings are ordered like those of `bpm_reading`.  A column holds the mean over the shots in which the beam was seen of the
reading which the errors of the BPM make of the true positions at this BPM in the same shot and turn (`Spec.shotReading`). -/
theorem C75_reading {E : Env K} {B : BeamEnv K} {s s' : SC K} {out : AllReading K} (h6 : s.INJ.randomInjectionZ.length = 6)
    (hloss : ∀ Z i t, WholeLoss (seenAt B s Z i t)) (hn : s.INJ.nShots ≠ 0) (h : allElementsReading E B s = .ok out s') :
    (s' = { s with rng := s'.rng } ∧ s.rng ≤ s'.rng) ∧ out.positions.length = s.INJ.nShots ∧
      out.x.length = s.INJ.nTurns * s.ORD.BPM.length ∧ out.y.length = s.INJ.nTurns * s.ORD.BPM.length ∧
      ∃ e Z z, Shots E B s s' s.ORD.BPM e Z z ∧
        (∀ k < s.INJ.nShots, ∃ P, out.positions[k]? = some P ∧ ∀ i ≤ s.RING.length, ∀ t, P i t = (seenAt B s (Z k) i t).map lostWhole) ∧
        ∀ b t i, s.ORD.BPM[b]? = some i → t < s.INJ.nTurns →
          out.x[t * s.ORD.BPM.length + b]? = some ((plainMean (shotsAt B s e Z z b t i)).map Prod.fst) ∧
          out.y[t * s.ORD.BPM.length + b]? = some ((plainMean (shotsAt B s e Z z b t i)).map Prod.snd) := by
  unfold allElementsReading at h
  have h := bindGet_eq_ok.1 h
  obtain ⟨shots, s1, h1, h⟩ := bind_eq_ok.1 h
  cases h
  obtain ⟨o1, hlen, e, Z, q, z, r1, r2, r3, r4⟩ := allShots_ok h6 h1
  refine ⟨o1, by simpa using hlen, flatten2_length _ _ _, flatten2_length _ _ _, e, Z, z, ⟨r1 hn, fun hm => ⟨q, (r2 hm).1, (r2 hm).2.1, (r2 hm).2.2⟩, r3⟩,
    fun k hk => ?_, fun b t i hb ht => ?_⟩
  · obtain ⟨c, hc, hp, -⟩ := r4 k hk
    refine ⟨c.2, by simp [hc], fun i hi t => ?_⟩
    rw [hp i hi t]
    exact List.map_congr_left (fun p _ => maskY_eq p)
  · have hbl : b < s.ORD.BPM.length := (List.getElem?_eq_some_iff.1 hb).1
    have hcell : ∀ k < s.INJ.nShots, ∃ c, shots[k]? = some c ∧
        (c.1 b t).x = (shot B.cosSin s.INJ.beamLostAt (e b) (seenAt B s (Z k) i t) (z (k, 0, b, turnIx s t))
          (z (k, 1, b, turnIx s t)) (z (k, 2, b, turnIx s t))).map (fun p => p.1.1) ∧
        (c.1 b t).y = (shot B.cosSin s.INJ.beamLostAt (e b) (seenAt B s (Z k) i t) (z (k, 0, b, turnIx s t))
          (z (k, 1, b, turnIx s t)) (z (k, 2, b, turnIx s t))).map (fun p => p.1.2) := by
      intro k hk
      obtain ⟨c, hc, -, hr⟩ := r4 k hk
      have := realReading1_spec B s.INJ.beamLostAt (e b) (seenAt B s (Z k) i t) (hloss _ _ _)
        (z (k, 0, b, turnIx s t)) (z (k, 1, b, turnIx s t)) (z (k, 2, b, turnIx s t))
      refine ⟨c, hc, ?_, ?_⟩
      · rw [hr b t i hb ht]; exact this.2.2.1
      · rw [hr b t i hb ht]; exact this.2.2.2.1
    have hx : shots.map (fun c => (c.1 b t).x) = (shotsAt B s e Z z b t i).map (fun o => o.map (fun p => p.1.1)) := by
      apply List.ext_getElem (by simp [shotsAt, hlen])
      intro k hk1 hk2
      have hk : k < s.INJ.nShots := by simpa [hlen] using hk1
      obtain ⟨c, hc, h1, -⟩ := hcell k hk
      have hck : shots[k]'(by omega) = c := by
        rw [List.getElem?_eq_getElem (by omega)] at hc; simpa using hc
      simp only [List.getElem_map, hck, shotsAt, List.getElem_range]
      exact h1
    have hy : shots.map (fun c => (c.1 b t).y) = (shotsAt B s e Z z b t i).map (fun o => o.map (fun p => p.1.2)) := by
      apply List.ext_getElem (by simp [shotsAt, hlen])
      intro k hk1 hk2
      have hk : k < s.INJ.nShots := by simpa [hlen] using hk1
      obtain ⟨c, hc, -, h1⟩ := hcell k hk
      have hck : shots[k]'(by omega) = c := by
        rw [List.getElem?_eq_getElem (by omega)] at hc; simpa using hc
      simp only [List.getElem_map, hck, shotsAt, List.getElem_range]
      exact h1
    simp only
    rw [flatten2_get _ hbl ht, flatten2_get _ hbl ht, hx, hy, (nanmean_shots _).1, (nanmean_shots _).2]
    exact ⟨rfl, rfl⟩

/-- the mean over a single shot -/
theorem single_shot (B : BeamEnv K) (lostAt : K) (e : BpmErr K) (P : List (Option K × Option K)) (zx zy zs : K)
    (hf : cellInfinite e P zs = false) :
    let c := realReading1 B lostAt e P zx zy zs
    maskedAverage [(c.x, c.sum)] = nanmean [c.x] ∧ maskedAverage [(c.y, c.sum)] = nanmean [c.y] := by
  simp only
  have hnone : ∀ w : Option K, maskedAverage [((none : Option K), w)] = nanmean [(none : Option K)] := by
    intro w
    cases w <;> simp [maskedAverage, valid, nanmean]
  have hsome : ∀ x w : K, w ≠ 0 → maskedAverage [(some x, some w)] = nanmean [some x] := by
    intro x w hw
    simp [maskedAverage, valid, nanmean, hw]
  unfold realReading1
  split
  · exact ⟨hnone _, hnone _⟩
  · split
    · rename_i mx my h1 h2
      have hne : P.any (fun p => p.1.isSome) = true := by
        by_contra hcon
        have : (P.map Prod.fst).filterMap id = [] := by
          rw [List.filterMap_eq_nil_iff]
          intro a ha
          obtain ⟨p, hp, rfl⟩ := List.mem_map.1 ha
          have := List.any_eq_false.1 (by simpa using hcon : P.any (fun p => p.1.isSome) = false) p hp
          cases hq : p.1 with
          | none => rfl
          | some v => rw [hq] at this; simp at this
        unfold nanmean at h1
        rw [this] at h1
        simp at h1
      have hw : transmission e P zs ≠ 0 := by
        intro h0
        unfold cellInfinite at hf
        rw [hne, h0] at hf
        simp at hf
      exact ⟨hsome _ _ hw, hsome _ _ hw⟩
    · exact ⟨hnone _, hnone _⟩

/-- **C75** With one shot, in the modes 'TBT' and 'ORB', `all_elements_reading` and `bpm_reading` of the same machine and the same
random numbers do the same: both succeed, with the same readings and leaving the same state, or both raise the same exception. -/
theorem C75_one_shot (E : Env K) (B : BeamEnv K) (s : SC K) (h6 : s.INJ.randomInjectionZ.length = 6) (hn : s.INJ.nShots = 1)
    (hmode : s.INJ.trackMode ≠ "PORB") (hb : ∀ b ∈ s.ORD.BPM, b < s.RING.length) :
    (∀ r s', bpmReading E B none false s = .ok r s' → ∃ P, allElementsReading E B s = .ok ⟨r.x, r.y, P⟩ s') ∧
    (∀ e s', bpmReading E B none false s = .error e s' ↔ allElementsReading E B s = .error e s') := by
  have hpost := mapEach_post (fun _ : Nat => allShot E B (decide (s.INJ.trackMode = "ORB")) s.ORD.BPM (s.RING.length + 1) s.INJ.nTurns)
    (fun _ => do
      let trk ← tracking E B s.ORD.BPM
      if s.INJ.trackMode = "ORB" then do
        let c ← realBpmReading E B s.ORD.BPM 1 trk
        Py.pure (fun b (_ : Nat) => c b 0)
      else realBpmReading E B s.ORD.BPM s.INJ.nTurns trk) Prod.fst (List.range s.INJ.nShots)
    (fun _ _ s0 => allShot_fst E B (s.INJ.trackMode = "ORB") s.ORD.BPM (s.RING.length + 1) s.INJ.nTurns
      (fun b hbm => by have := hb b hbm; omega) (by omega) s0) s
  have hbpm : bpmReading E B none false s = match mapEach (List.range s.INJ.nShots)
      (fun _ : Nat => allShot E B (decide (s.INJ.trackMode = "ORB")) s.ORD.BPM (s.RING.length + 1) s.INJ.nTurns) s with
      | .ok shots s' => .ok { x := flatten2 s.ORD.BPM.length s.INJ.nTurns (fun b t => maskedAverage (shots.map (fun c => ((c.1 b t).x, (c.1 b t).sum))))
                              y := flatten2 s.ORD.BPM.length s.INJ.nTurns (fun b t => maskedAverage (shots.map (fun c => ((c.1 b t).y, (c.1 b t).sum))))
                              sums := flatten2 s.ORD.BPM.length s.INJ.nTurns (fun b t => nansum (shots.map (fun c => (c.1 b t).sum)) / (s.INJ.nShots : K))
                              errors := none } s'
      | .error e s' => .error e s' := by
    unfold bpmReading
    rw [bind_apply]
    simp only [get_apply, registeredBpms]
    rw [bind_apply]
    simp only [lift_ok_apply]
    rw [bind_apply, hpost, bind_apply]
    cases mapEach (List.range s.INJ.nShots)
        (fun _ : Nat => allShot E B (decide (s.INJ.trackMode = "ORB")) s.ORD.BPM (s.RING.length + 1) s.INJ.nTurns) s with
    | error e s1 => rfl
    | ok shots s1 =>
      simp only [Py.pure]
      rw [if_neg (by omega), if_neg hmode, if_neg (by simp)]
      simp only [List.map_map, Function.comp_def]
      rfl
  have hall : allElementsReading E B s = match mapEach (List.range s.INJ.nShots)
      (fun _ : Nat => allShot E B (decide (s.INJ.trackMode = "ORB")) s.ORD.BPM (s.RING.length + 1) s.INJ.nTurns) s with
      | .ok shots s' => .ok { x := flatten2 s.ORD.BPM.length s.INJ.nTurns (fun b t => nanmean (shots.map (fun c => (c.1 b t).x)))
                              y := flatten2 s.ORD.BPM.length s.INJ.nTurns (fun b t => nanmean (shots.map (fun c => (c.1 b t).y)))
                              positions := shots.map Prod.snd } s'
      | .error e s' => .error e s' := by
    unfold allElementsReading
    rw [bind_apply]
    simp only [get_apply]
    rw [bind_apply]
    cases mapEach (List.range s.INJ.nShots)
        (fun _ : Nat => allShot E B (decide (s.INJ.trackMode = "ORB")) s.ORD.BPM (s.RING.length + 1) s.INJ.nTurns) s <;> rfl
  rw [hbpm, hall]
  rw [bind_apply] at hpost
  cases hm : mapEach (List.range s.INJ.nShots)
      (fun _ : Nat => allShot E B (decide (s.INJ.trackMode = "ORB")) s.ORD.BPM (s.RING.length + 1) s.INJ.nTurns) s with
  | error e s1 => exact ⟨fun r s' h => by (cases h), fun e' s' => ⟨fun h => by (cases h; rfl), fun h => by (cases h; rfl)⟩⟩
  | ok shots s1 =>
    refine ⟨fun r s' h => ?_, fun e' s' => ⟨fun h => by (cases h), fun h => by (cases h)⟩⟩
    cases h
    refine ⟨shots.map Prod.snd, ?_⟩
    rw [hm] at hpost
    obtain ⟨-, hlen, e, Z, q, z, -, -, -, r4⟩ := shots_ok h6 (by omega) hpost
    simp only [List.length_map] at hlen
    rw [hn] at hlen
    obtain ⟨c, rfl⟩ := List.length_eq_one_iff.1 hlen
    obtain ⟨c', hc', hcell⟩ := r4 0 (by omega)
    have hcc : c' = c.1 := by simpa using hc'.symm
    subst hcc
    have hx : flatten2 s.ORD.BPM.length s.INJ.nTurns (fun b t => nanmean ([c].map (fun c => (c.1 b t).x))) =
        flatten2 s.ORD.BPM.length s.INJ.nTurns (fun b t => maskedAverage ([c].map (fun c => ((c.1 b t).x, (c.1 b t).sum)))) := by
      apply flatten2_congr
      intro b hbl t ht
      obtain ⟨h1, h2⟩ := hcell b t _ (List.getElem?_eq_getElem hbl) ht
      have := (single_shot B s.INJ.beamLostAt (e b) _ (z (0, 0, b, turnIx s t)) (z (0, 1, b, turnIx s t)) (z (0, 2, b, turnIx s t)) h2).1
      rw [← h1] at this
      exact this.symm
    have hy : flatten2 s.ORD.BPM.length s.INJ.nTurns (fun b t => nanmean ([c].map (fun c => (c.1 b t).y))) =
        flatten2 s.ORD.BPM.length s.INJ.nTurns (fun b t => maskedAverage ([c].map (fun c => ((c.1 b t).y, (c.1 b t).sum)))) := by
      apply flatten2_congr
      intro b hbl t ht
      obtain ⟨h1, h2⟩ := hcell b t _ (List.getElem?_eq_getElem hbl) ht
      have := (single_shot B s.INJ.beamLostAt (e b) _ (z (0, 0, b, turnIx s t)) (z (0, 1, b, turnIx s t)) (z (0, 2, b, turnIx s t)) h2).2
      rw [← h1] at this
      exact this.symm
    simp only
    rw [hx, hy]

/-- random numbers which differ between the shots -/
def Example.shotRand : Env ℚ := { Example.rand with
  randn := fun k => if k % 5 = 0 then 1/2 else if k % 5 = 1 then -1/3 else 1 }

/-- the second BPM has an error of the sum signal -/
def Example.sumErrorBpms (mode : String) (shots : Nat) : SC ℚ := { Example.twoBpms mode (3/4) with
  RING := [Example.bpm, Example.drift, Example.quad, Example.drift, Example.bpm.set "SumError" (.num (1/2))]
  INJ := { (Example.twoBpms mode (3/4)).INJ with nShots := shots } }

/-- **C75 is violated**: with several shots `all_elements_reading` and `bpm_reading` of the same machine with the same random numbers
report different readings, because the shots are not weighted with the sum signals. -/
theorem C75_violated_shots : ∃ (a : AllReading ℚ) (s' : SC ℚ) (r : Reading ℚ) (s'' : SC ℚ),
    allElementsReading Example.shotRand Example.beam (Example.sumErrorBpms "TBT" 3) = .ok a s' ∧
    bpmReading Example.shotRand Example.beam none false (Example.sumErrorBpms "TBT" 3) = .ok r s'' ∧
    a.x[1]? = some (some (41591/9000)) ∧ r.x[1]? = some (some (78983/17000)) := by
  obtain ⟨a, ha⟩ := exists_of_isOk (r := allElementsReading Example.shotRand Example.beam (Example.sumErrorBpms "TBT" 3)) (by decide +kernel)
  obtain ⟨r, hr⟩ := exists_of_isOk (r := bpmReading Example.shotRand Example.beam none false (Example.sumErrorBpms "TBT" 3)) (by decide +kernel)
  have h1 : (allElementsReading Example.shotRand Example.beam (Example.sumErrorBpms "TBT" 3)).value?.map (fun a => a.x[1]?) =
    some (some (some (41591/9000))) := by decide +kernel
  have h2 : (bpmReading Example.shotRand Example.beam none false (Example.sumErrorBpms "TBT" 3)).value?.map (fun a => a.x[1]?) =
    some (some (some (78983/17000))) := by decide +kernel
  rw [ha] at h1
  rw [hr] at h2
  exact ⟨a, _, r, _, ha, hr, Option.some.inj h1, Option.some.inj h2⟩

/-- **C75 is violated**: in 'PORB' mode `bpm_reading` returns one column per BPM, `all_elements_reading` one per BPM and turn. -/
theorem C75_violated_porb : ∃ (a : AllReading ℚ) (s' : SC ℚ) (r : Reading ℚ) (s'' : SC ℚ),
    allElementsReading Example.shotRand Example.beam (Example.sumErrorBpms "PORB" 1) = .ok a s' ∧
    bpmReading Example.shotRand Example.beam none false (Example.sumErrorBpms "PORB" 1) = .ok r s'' ∧
    a.x.length = 4 ∧ r.x.length = 2 := by
  obtain ⟨a, ha⟩ := exists_of_isOk (r := allElementsReading Example.shotRand Example.beam (Example.sumErrorBpms "PORB" 1)) (by decide +kernel)
  obtain ⟨r, hr⟩ := exists_of_isOk (r := bpmReading Example.shotRand Example.beam none false (Example.sumErrorBpms "PORB" 1)) (by decide +kernel)
  have h1 : (allElementsReading Example.shotRand Example.beam (Example.sumErrorBpms "PORB" 1)).value?.map (fun a => a.x.length) =
    some 4 := by decide +kernel
  have h2 : (bpmReading Example.shotRand Example.beam none false (Example.sumErrorBpms "PORB" 1)).value?.map (fun a => a.x.length) =
    some 2 := by decide +kernel
  rw [ha] at h1
  rw [hr] at h2
  exact ⟨a, _, r, _, ha, hr, Option.some.inj h1, Option.some.inj h2⟩

/-- the hypotheses of `C75_reading` and `C75_one_shot` are met, with losses on the way and in both modes -/
example : (∀ Z i t, WholeLoss (seenAt Example.beam (Example.sumErrorBpms "TBT" 3) Z i t)) ∧
    (allElementsReading Example.shotRand Example.beam (Example.sumErrorBpms "TBT" 3)).isOk ∧
    (bpmReading Example.shotRand Example.beam none false (Example.sumErrorBpms "TBT" 1)).isOk ∧
    (bpmReading Example.shotRand Example.beam none false (Example.sumErrorBpms "ORB" 1)).isOk ∧
    (∀ b ∈ (Example.sumErrorBpms "ORB" 1).ORD.BPM, b < (Example.sumErrorBpms "ORB" 1).RING.length) ∧
    (allElementsReading Example.shotRand Example.beam (Example.sumErrorBpms "TBT" 3)).value?.map (fun r => (r.positions.map (fun p => p 4 1))) =
      some [[(some (19/5), some 3), (none, none), (some (23/5), some (5/3)), (none, none)],
        [(some (23/5), some (5/3)), (none, none), (some 4, some 3), (none, none)],
        [(some 4, some 3), (none, none), (some (101/15), some (5/2)), (none, none)]] := by
  refine ⟨Example.beam_loss _, by decide +kernel, by decide +kernel, by decide +kernel, by decide +kernel, by decide +kernel⟩

end PySC
