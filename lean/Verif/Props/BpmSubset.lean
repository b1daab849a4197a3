import Verif.Lemmas.BpmSubset
import Verif.Props.Noiseless
import Verif.Props.Agreement
/-
C127: without noise, readings of some BPMs are part of the readings of all.
-/
namespace PySC
set_option linter.unusedSectionVars false
variable {K : Type} [Field K] [LinearOrder K] [FloorRing K] [IsStrictOrderedRing K]
open Py Spec

theorem registeredBpms_read {bp : List Nat} {req : Option (List Nat)} {l : List Nat} (h : registeredBpms bp req = .ok l) : l = readBpms bp req := by
  cases req with
  | none => cases h; rfl
  | some m =>
    unfold registeredBpms at h
    simp only at h
    split at h
    · cases h
    · cases h; rfl

theorem registeredBpms_some {bp : List Nat} {req : Option (List Nat)} (h : readBpms bp req ≠ []) : registeredBpms bp req = .ok (readBpms bp req) := by
  cases req with
  | none => rfl
  | some m =>
    have h' : bp.filter (fun i => decide (i ∈ m)) ≠ [] := h
    unfold registeredBpms readBpms
    simp only
    rw [if_neg (by simpa using h')]

theorem readBpms_sublist {bp l : List Nat} (h : l.Sublist bp) (hd : bp.Nodup) : readBpms bp (some l) = l := by
  show bp.filter (fun i => decide (i ∈ l)) = l
  induction h with
  | slnil => rfl
  | cons a h ih =>
    rw [List.nodup_cons] at hd
    rw [List.filter_cons_of_neg (by simpa using fun ha => hd.1 (h.subset ha)), ih hd.2]
  | cons_cons a h ih =>
    rw [List.nodup_cons] at hd
    rw [List.filter_cons_of_pos (by simp)]
    congr 1
    conv_rhs => rw [← ih hd.2]
    refine List.filter_congr (fun i hi => ?_)
    have : i ≠ a := fun e => hd.1 (e ▸ hi)
    simp [this]

/-- **C127** On a machine without noise, if the BPMs `req` can be read, then any of them can be read alone, and the result is that part of
the reading of all of them: positions, sum signals and errors, turn by turn, in every tracking mode. -/
theorem C127_reading {E : Env K} {B : BeamEnv K} (hE : Delivers E) (h0 : B.sqrt 0 = some 0) {s : SC K} (hq : Noiseless B s)
    {req req' : Option (List Nat)} (hs : ∀ i ∈ readBpms s.ORD.BPM req', i ∈ readBpms s.ORD.BPM req) (hne : readBpms s.ORD.BPM req' ≠ [])
    {errors : Bool} {out : Reading K} {s' : SC K} (h : bpmReading E B req errors s = .ok out s') :
    ∃ out' s'', bpmReading E B req' errors s = .ok out' s'' ∧ ChosenReading (readBpms s.ORD.BPM req) (readBpms s.ORD.BPM req') out out' := by
  obtain ⟨all, shots, ha, -⟩ := bpmReading_shots h
  have e := registeredBpms_read ha
  subst e
  obtain ⟨out', s'', h1, h2, -⟩ := follow_reading hE h0 ha (registeredBpms_some hne) hs errors s s (Calm.refl hq rfl) out s' h
  exact ⟨out', s'', h1, h2⟩

/-- In which order the BPMs were asked for, how often each, and whether other elements were asked for, too, plays no part. -/
theorem C127_request (E : Env K) (B : BeamEnv K) {l l' : List Nat} {s : SC K} (h : ∀ i ∈ s.ORD.BPM, i ∈ l ↔ i ∈ l') (errors : Bool) :
    bpmReading E B (some l) errors s = bpmReading E B (some l') errors s := by
  have e : registeredBpms s.ORD.BPM (some l) = registeredBpms s.ORD.BPM (some l') := by
    have : s.ORD.BPM.filter (fun i => decide (i ∈ l)) = s.ORD.BPM.filter (fun i => decide (i ∈ l')) :=
      List.filter_congr (fun i hi => by simp [h i hi])
    unfold registeredBpms
    simp only [this]
  unfold bpmReading
  show (Py.get >>= _) s = (Py.get >>= _) s
  rw [bind_apply, bind_apply]
  simp only [Py.get, e]

theorem follow_ravel {E : Env K} {B : BeamEnv K} (hE : Delivers E) (h0 : B.sqrt 0 = some 0) {bp all part : List Nat} (hd : bp.Nodup)
    (ha : all.Sublist bp) (hp : part.Sublist all) (hne : part ≠ []) :
    Follows (Calm Eq B bp) (Chosen all part) (ravelReading E B all) (ravelReading E B part) := by
  have hna : all ≠ [] := fun e => hne (by rw [e] at hp; exact List.sublist_nil.1 hp)
  have e1 := readBpms_sublist ha hd
  have e2 := readBpms_sublist (hp.trans ha) hd
  have g1 := registeredBpms_some (bp := bp) (req := some all) (by rw [e1]; exact hna)
  have g2 := registeredBpms_some (bp := bp) (req := some part) (by rw [e2]; exact hne)
  rw [e1] at g1
  rw [e2] at g2
  unfold ravelReading
  exact Follows.bind (follow_reading hE h0 g1 g2 (fun i hi => hp.subset hi) false) (fun r r' h => Follows.pure (h.x.append h.y))

/-- **C127** The orbit responses of some BPMs are those rows of the orbit responses of all. -/
theorem C127_orbit_response {E : Env K} {B : BeamEnv K} (hE : Delivers E) (h0 : B.sqrt 0 = some 0) {s : SC K} (hq : Noiseless B s)
    (hd : s.ORD.BPM.Nodup) {all part : List Nat} (ha : all.Sublist s.ORD.BPM) (hp : part.Sublist all) (hne : part ≠ [])
    {cms : List Nat × List Nat} {isInt : Bool} {dkick : K} {M : List (List (Option K))} {s' : SC K}
    (h : measureOrbitResponse E B all cms isInt dkick s = .ok M s') :
    ∃ M' s'', measureOrbitResponse E B part cms isInt dkick s = .ok M' s'' ∧ SameButGenerator s' s'' ∧ List.Forall₂ (Chosen all part) M M' := by
  have hna : all ≠ [] := fun e => hne (by rw [e] at hp; exact List.sublist_nil.1 hp)
  have H := calm_instruments (N := Eq) eq_zero_iff hE h0 s.ORD.BPM
  have key : Follows (Calm Eq B s.ORD.BPM) (List.Forall₂ (Chosen all part)) (measureOrbitResponse E B all cms isInt dkick)
      (measureOrbitResponse E B part cms isInt dkick) := by
    unfold measureOrbitResponse
    refine Follows.seq (H.inj (fun j => { j with trackMode := "ORB" }) (fun _ => ⟨rfl, rfl, rfl, fun _ => rfl⟩)) (fun _ =>
      Follows.bind (follow_ravel hE h0 hd ha hp hne) (fun o o' ho => Follows.mapEach (fun c _ => ?_)))
    unfold orbitColumn
    refine Follows.seq (calm_setCM _ _ _ _) (fun _ => Follows.bind (follow_ravel hE h0 hd ha hp hne) (fun r r' hr =>
      Follows.seq (calm_setCM _ _ _ _) (fun _ => ?_)))
    split
    · exact Follows.throw _ _
    split
    · exact Follows.throw _ _
    · rename_i hl
      rw [if_neg]
      · exact Follows.pure (hr.zipWith _ ho)
      · obtain ⟨n, n1, n2, -⟩ := ho
        have : n = 2 := Nat.eq_of_mul_eq_mul_right (List.length_pos_iff.2 hna) (by rw [← n1]; exact not_not.1 hl)
        rw [n2, this]
        simp
  obtain ⟨M', s'', h1, h2, h3⟩ := key s s (Calm.refl hq rfl) M s' h
  exact ⟨M', s'', h1, h3.generator, h2⟩

/-- **C127** The dispersions at some BPMs are part of the dispersions at all. -/
theorem C127_dispersion {E : Env K} {B : BeamEnv K} (hE : Delivers E) (h0 : B.sqrt 0 = some 0) {s : SC K} (hq : Noiseless B s)
    (hd : s.ORD.BPM.Nodup) {all part : List Nat} (ha : all.Sublist s.ORD.BPM) (hp : part.Sublist all) (hne : part ≠ [])
    {isInt : Bool} {step : K} {cavs : Option (List Nat)} {n : Nat} {D : List (Option K)} {s' : SC K}
    (h : dispersion E B isInt step (some all) cavs n s = .ok D s') :
    ∃ D' s'', dispersion E B isInt step (some part) cavs n s = .ok D' s'' ∧ SameButGenerator s' s'' ∧ Chosen all part D D' := by
  have key : Follows (Calm Eq B s.ORD.BPM) (Chosen all part) (dispersion E B isInt step (some all) cavs n)
      (dispersion E B isInt step (some part) cavs n) := by
    unfold dispersion
    refine Follows.bind Follows.get (fun u v huv => ?_)
    rw [huv.ord]
    refine Follows.bind (follow_ravel hE h0 hd ha hp hne) (fun o o' ho => ?_)
    split
    · refine Follows.seq (calm_setCavity _ _ _ _) (fun _ => Follows.bind (follow_ravel hE h0 hd ha hp hne) (fun r r' hr =>
        Follows.seq (calm_setCavity _ _ _ _) (fun _ => ?_)))
      split
      · exact Follows.throw _ _
      · exact Follows.pure (hr.zipWith _ ho)
    · refine Follows.seq (calm_rd _) (fun st => Follows.seq (calm_rd _) (fun rf => Follows.bind (V := fun _ _ => True) ?_ (fun _ _ _ =>
        Follows.seq (calm_setCavity _ _ _ _) (fun _ => Follows.throw _ _))))
      induction List.range n with
      | nil => exact Follows.pure trivial
      | cons k l ih =>
        exact Follows.bind (V := fun _ _ => True) (Follows.seq (calm_setCavity _ _ _ _) (fun _ => Follows.bind (follow_ravel hE h0 hd ha hp hne)
          (fun _ _ _ => Follows.pure trivial))) (fun _ _ _ => ih)
  obtain ⟨D', s'', h1, h2, h3⟩ := key s s (Calm.refl hq rfl) D s' h
  exact ⟨D', s'', h1, h3.generator, h2⟩

/-- a point-like beam whose orbit depends on the optics -/
def Example.thread : BeamEnv ℚ := { Example.opticalBeam with eig := fun _ => ([], []), sqrt := Example.qsqrt }

/-- two turns and three shots at the BPMs 0 and 4 -/
def Example.replay : SC ℚ := { Example.clean [] with INJ := { (Example.clean []).INJ with nTurns := 2, nShots := 3 } }

-- the second BPM alone (7 is no BPM) and both BPMs
example : Noiseless Example.thread Example.replay ∧ Example.thread.sqrt 0 = some 0 ∧ Delivers Example.rand ∧
    (∀ i ∈ readBpms Example.replay.ORD.BPM (some [7, 4]), i ∈ readBpms Example.replay.ORD.BPM none) ∧
    readBpms Example.replay.ORD.BPM (some [7, 4]) = [4] ∧
    (bpmReading Example.rand Example.thread none true Example.replay).value? =
      some { x := [some (501/1000), some (21/200), some (501/500), some (21/100)], y := [some 0, some (4/125), some 0, some (4/125)],
             sums := [1, 1, 1, 1], errors := some ([some 0, some 0, some 0, some 0], [some 0, some 0, some 0, some 0]) } ∧
    (bpmReading Example.rand Example.thread (some [7, 4]) true Example.replay).value? =
      some { x := [some (21/200), some (21/100)], y := [some (4/125), some (4/125)], sums := [1, 1],
             errors := some ([some 0, some 0], [some 0, some 0]) } := by
  refine ⟨⟨fun i hi => ?_, rfl, fun v hv => by cases hv⟩, by decide +kernel, Example.rand_delivers, by decide +kernel, by decide +kernel,
    by decide +kernel, by decide +kernel⟩
  have hi : i = 0 ∨ i = 4 := by simpa [Example.replay, Example.clean] using hi
  rcases hi with rfl | rfl <;> exact ⟨rfl, rfl, rfl⟩

-- the orbit responses and dispersions of the second BPM alone and of both BPMs
example : Noiseless Example.thread (Example.clean []) ∧ (Example.clean []).ORD.BPM.Nodup ∧ [0, 4].Sublist (Example.clean []).ORD.BPM ∧
    [4].Sublist [0, 4] ∧
    (measureOrbitResponse Example.rand Example.thread [0, 4] ([1], [1, 2]) false (1/2000) (Example.clean [])).value? =
      some [[some 1, some 5, some 0, some 0], [some 0, some 0, some 2, some 6], [some 0, some 0, some 0, some 8]] ∧
    (measureOrbitResponse Example.rand Example.thread [4] ([1], [1, 2]) false (1/2000) (Example.clean [])).value? =
      some [[some 5, some 0], [some 0, some 6], [some 0, some 8]] ∧
    (dispersion Example.rand Example.thread false 10 (some [0, 4]) (some [3]) 2 (Example.clean [])).value? =
      some [some (1/1000), some (1/5000), some 0, some 0] ∧
    (dispersion Example.rand Example.thread false 10 (some [4]) (some [3]) 2 (Example.clean [])).value? = some [some (1/5000), some 0] := by
  refine ⟨⟨fun i hi => ?_, rfl, fun v hv => by cases hv⟩, by decide +kernel, by decide +kernel, by decide +kernel, by decide +kernel,
    by decide +kernel, by decide +kernel, by decide +kernel⟩
  have hi : i = 0 ∨ i = 4 := by simpa [Example.clean] using hi
  rcases hi with rfl | rfl <;> exact ⟨rfl, rfl, rfl⟩

-- with noise the BPM read alone gets random numbers which otherwise go to the other BPM
example : let s := { Example.replay with RING := Example.replay.RING.setAttr 4 "Noise" (.vec [1/1000, 0]) }
    let E : Env ℚ := { Example.rand with randn := fun k => if k % 5 = 0 then 1/2 else if k % 2 = 1 then -1/3 else 1 }
    (bpmReading E Example.thread (some [4]) false s).isOk ∧
    (bpmReading E Example.thread (some [4]) false s).value?.map (fun r => r.x[0]?) ≠ (bpmReading E Example.thread none false s).value?.map (fun r => r.x[1]?) := by
  decide +kernel

-- the order in which BPMs are asked for, and other elements, make no difference
example : ∀ i ∈ Example.replay.ORD.BPM, i ∈ [4, 0, 4, 9] ↔ i ∈ [0, 4] := by decide +kernel

end PySC
