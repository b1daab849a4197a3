import Verif.Lemmas.ResponseMeasure
import Verif.Lemmas.ResponseColumns
import Verif.Props.Response
/-
C54: measured dispersion and response matrices.
-/
set_option linter.unusedSectionVars false
namespace PySC
open Py Spec
variable {K : Type} [Field K] [LinearOrder K] [FloorRing K]

/-! ### dispersion -/

/-- **C54**: a measurement of the dispersion (with the default number of steps) returns the change of the readings when the set-points of
the frequencies of the cavities are shifted by the step, divided by it, and leaves the machine as it was, up to the random numbers
used. -/
theorem C54_dispersion [IsStrictOrderedRing K] (E : Env K) (B : BeamEnv K) (isInt : Bool) (step : K) (bpms cavs : Option (List Nat)) (s s' : SC K)
    (out : List (Option K)) (hr : ∀ i ∈ cavs.getD s.ORD.RF, CavityReady s.RING i) (hreal : ∀ i ∈ cavs.getD s.ORD.RF, Realised s.RING i)
    (h : dispersion E B isInt step bpms cavs 2 s = .ok out s') :
    s' = { s with rng := s'.rng } ∧ ∃ r0 t0 t1 r1 t2, bpmReading E B (some (bpms.getD s.ORD.BPM)) false s = .ok r0 t0 ∧
      Shifted (cavs.getD s.ORD.RF) "Frequency" step s t1 ∧ bpmReading E B (some (bpms.getD s.ORD.BPM)) false t1 = .ok r1 t2 ∧
      step ≠ 0 ∧ out = List.zipWith (quotient step) (r1.x ++ r1.y) (r0.x ++ r0.y) := by
  unfold dispersion at h
  rw [bindGet_eq_ok] at h
  rw [bind_eq_ok] at h; obtain ⟨bref, t0, e0, h⟩ := h
  rw [if_pos rfl] at h
  rw [bind_eq_ok] at h; obtain ⟨_, t1, e1, h⟩ := h
  rw [bind_eq_ok] at h; obtain ⟨b, t2, e2, h⟩ := h
  rw [bind_eq_ok] at h; obtain ⟨_, t3, e3, h⟩ := h
  by_cases hd : step = 0
  · rw [if_pos hd] at h; cases h
  rw [if_neg hd] at h
  cases h
  obtain ⟨r0, f0, rfl, o0⟩ := ravelReading_eq_ok e0
  obtain ⟨r1, f1, rfl, o1⟩ := ravelReading_eq_ok e2
  have hF : "Frequency" ∈ ["Voltage", "Frequency", "TimeLag"] := by simp
  obtain ⟨S1, q1⟩ := setCavity_shifted hF e1 (CavityReady.onlyRng o0 hr)
  obtain ⟨S2, q2⟩ := setCavity_shifted hF e3 (CavityReady.onlyRng o1 q1)
  have S01 : Shifted (cavs.getD s.ORD.RF) "Frequency" step s t1 := by simpa using (o0.shifted _ "Frequency").trans S1
  have S : Shifted (cavs.getD s.ORD.RF) "Frequency" 0 s s' := by
    have := (S01.trans (o1.shifted _ "Frequency")).trans S2
    simpa using this
  exact ⟨S.rest.sameRest.eq (S.ring_eq hF hr q2 hreal), r0, t0, t1, r1, t2, f0, S01, f1, hd, zipWith_quotient _ _ _⟩

/-- **C54 violated**: with another number of steps than two the measurement never returns. -/
theorem C54_violated_steps (E : Env K) (B : BeamEnv K) (isInt : Bool) (step : K) (bpms cavs : Option (List Nat)) (nSteps : Nat) (hn : nSteps ≠ 2)
    (s : SC K) : (dispersion E B isInt step bpms cavs nSteps s).isOk = false := by
  cases h : dispersion E B isInt step bpms cavs nSteps s with
  | error e s' => rfl
  | ok out s' =>
    unfold dispersion at h
    rw [bindGet_eq_ok] at h
    rw [bind_eq_ok] at h; obtain ⟨bref, t0, e0, h⟩ := h
    rw [if_neg hn] at h
    rw [bindRd_eq_ok] at h; obtain ⟨_, _, h⟩ := h
    rw [bindRd_eq_ok] at h; obtain ⟨_, _, h⟩ := h
    rw [bind_eq_ok] at h; obtain ⟨_, _, _, h⟩ := h
    rw [bind_eq_ok] at h; obtain ⟨_, _, _, h⟩ := h
    cases h

/-- **C54 violated**: a step given as an integer raises (in numpy floats cannot be added to an array of integers in place), but leaves
the machine as it was. -/
theorem C54_violated_integer (E : Env K) (B : BeamEnv K) (step : K) (bpms cavs : Option (List Nat)) (s : SC K) :
    (dispersion E B true step bpms cavs 2 s).isOk = false ∧
    (dispersion E B true step bpms cavs 2 s).state = { s with rng := (dispersion E B true step bpms cavs 2 s).state.rng } := by
  have hset : ∀ l (d : K) (t : SC K), ∃ e, setCavitySetpoints l ⟨true, [d]⟩ "Frequency" "add" t = .error e t := by
    intro l d t
    unfold setCavitySetpoints
    have : ∃ e, cavityRequest t.RING l ⟨true, [d]⟩ "Frequency" "add" = .error e := by
      cases hq : cavityRequest t.RING l ⟨true, [d]⟩ "Frequency" "add" with
      | error e => exact ⟨e, rfl⟩
      | ok v =>
        exfalso
        unfold cavityRequest at hq
        rw [Except.bind_eq_ok'] at hq
        obtain ⟨sps, h1, hq⟩ := hq
        rw [if_neg (by decide), if_pos rfl, Except.bind_eq_ok'] at hq
        obtain ⟨w, -, hq⟩ := hq
        have hi : sps.isInt = true := by
          unfold checkInput at h1
          repeat' split at h1
          all_goals first | cases h1; rfl | cases h1
        unfold inPlace at hq
        rw [if_pos hi] at hq
        cases hq
    obtain ⟨e, he⟩ := this
    refine ⟨e, ?_⟩
    rw [bind_apply, show rd (fun r => cavityRequest r l ⟨true, [d]⟩ "Frequency" "add") t = .error e t from rd_eq_error.2 ⟨he, rfl⟩]
  unfold dispersion
  rw [bind_apply, get_apply]
  simp only
  rw [bind_apply]
  cases h0 : ravelReading E B (bpms.getD s.ORD.BPM) s with
  | error e t0 =>
    refine ⟨rfl, ?_⟩
    have : OnlyRng s t0 := by
      unfold ravelReading at h0
      rw [bind_apply] at h0
      cases h1 : bpmReading E B (some (bpms.getD s.ORD.BPM)) false s with
      | error e' t' =>
        rw [h1] at h0
        cases h0
        exact (bpmReading_onlyRng E B _ _).error h1
      | ok r t' => rw [h1] at h0; cases h0
    exact this.1
  | ok bref t0 =>
    obtain ⟨-, -, -, o0⟩ := ravelReading_eq_ok h0
    simp only [if_true]
    obtain ⟨e, he⟩ := hset (cavs.getD s.ORD.RF) step t0
    rw [bind_apply, he]
    exact ⟨rfl, o0.1⟩

/-! ### orbit response matrix -/

/-- **C54**: a measurement of the orbit response matrix returns, for horizontal and then vertical correctors, the change of the readings
when this corrector is changed by the step, divided by it, and leaves the machine as it was, if the fields of the correctors were
up to date and their limits are not hit - with the exception of the tracking mode, see below. -/
theorem C54_orbit_response_partial [IsStrictOrderedRing K] (E : Env K) (B : BeamEnv K) (bpms : List Nat) (cms : List Nat × List Nat) (dkick : K)
    (s s' : SC K) (RM : List (List (Option K)))
    (hs : ∀ c ∈ columnsOf cms, Settled s [c.2])
    (hlim : ∀ c ∈ columnsOf cms, Lim.Nonneg (kickLimit s.RING c.2 c.1) ∧ Within (kickLimit s.RING c.2 c.1) (kick s.RING c.2 c.1) ∧
      Within (kickLimit s.RING c.2 c.1) (kick s.RING c.2 c.1 + dkick))
    (h : measureOrbitResponse E B bpms cms false dkick s = .ok RM s') :
    s' = { s with rng := s'.rng, INJ := { s.INJ with trackMode := "ORB" } } ∧ RM.length = cms.1.length + cms.2.length ∧
    ∃ r0 t0, bpmReading E B (some bpms) false { s with INJ := { s.INJ with trackMode := "ORB" } } = .ok r0 t0 ∧
    ∀ (j : Nat) (c : Bool × Nat), (columnsOf cms)[j]? = some c → ∃ n t1 r1 t2,
      setCMSetpoints [c.2] ⟨false, [dkick]⟩ c.1 "add" { s with rng := n, INJ := { s.INJ with trackMode := "ORB" } } = .ok () t1 ∧
      bpmReading E B (some bpms) false t1 = .ok r1 t2 ∧ RM[j]? = some (List.zipWith (quotient dkick) (r1.x ++ r1.y) (r0.x ++ r0.y)) := by
  unfold measureOrbitResponse at h
  rw [bind_eq_ok] at h; obtain ⟨_, s0, e0, h⟩ := h
  have hs0 : s0 = { s with INJ := { s.INJ with trackMode := "ORB" } } := by cases e0; rfl
  rw [bind_eq_ok] at h; obtain ⟨orbit0, t0, e1, h⟩ := h
  obtain ⟨r0, f0, rfl, o0⟩ := ravelReading_eq_ok e1
  obtain ⟨hlen, st, hst0, hstn, hst⟩ := mapEach_chain h
  have key : ∀ k, k ≤ (columnsOf cms).length → st k = { s with rng := (st k).rng, INJ := { s.INJ with trackMode := "ORB" } } := by
    intro k
    induction k with
    | zero =>
      intro _
      rw [hst0]
      conv_lhs => rw [o0.1, hs0]
    | succ k ih =>
      intro hk
      have hprev := ih (by omega)
      have hc : (columnsOf cms)[k]? = some (columnsOf cms)[k] := List.getElem?_eq_getElem (by omega)
      obtain ⟨y, -, hy⟩ := hst k _ hc
      have hmem := List.mem_of_getElem? hc
      have hr : (st k).RING = s.RING := by rw [hprev]
      obtain ⟨a1, a2, a3⟩ := hlim _ hmem
      have := (orbitColumn_ok ((hs _ hmem).of_ring hr) (by rw [hr]; exact a1) (by rw [hr]; exact a2) (by rw [hr]; exact a3) hy).1
      conv_lhs => rw [this, hprev]
  refine ⟨?_, by rw [hlen]; simp, r0, t0, by rw [← hs0]; exact f0, fun j c hc => ?_⟩
  · have := key (columnsOf cms).length (le_refl _)
    rw [show st (columnsOf cms).length = s' from hstn] at this
    exact this
  · obtain ⟨y, hy1, hy⟩ := hst j c hc
    have hmem := List.mem_of_getElem? hc
    have hprev := key j (by have := (List.getElem?_eq_some_iff.1 hc).1; omega)
    have hr : (st j).RING = s.RING := by rw [hprev]
    obtain ⟨a1, a2, a3⟩ := hlim _ hmem
    obtain ⟨-, t1, r1, t2, b1, b2, -, -, b3⟩ := orbitColumn_ok ((hs _ hmem).of_ring hr) (by rw [hr]; exact a1) (by rw [hr]; exact a2)
      (by rw [hr]; exact a3) hy
    refine ⟨(st j).rng, t1, r1, t2, by rw [← hprev]; exact b1, b2, by rw [hy1, b3]⟩

/-! ### response matrix -/

/-- **C54**: a measurement of a response matrix by `response_matrix` which returns leaves the machine as it was (fields up to date,
correctors registered and within their limits) ... -/
theorem C54_response_matrix_partial [IsStrictOrderedRing K] (E : Env K) (B : BeamEnv K) (amp : List K × List K) (bpms : List Nat)
    (cms : List Nat × List Nat) (mode : String) (nSteps : Nat) (s s' : SC K) (RM : List (List K)) (hsep : Separate s) (hup : UpToDate s)
    (hreg : ∀ c ∈ columnsOf cms, c.2 ∈ s.ORD.Magnet)
    (hlim : ∀ c ∈ columnsOf cms, Lim.Nonneg (kickLimit s.RING c.2 c.1) ∧ Within (kickLimit s.RING c.2 c.1) (kick s.RING c.2 c.1))
    (h : responseMatrix E B amp bpms cms mode nSteps s = .ok RM s') : s' = { s with rng := s'.rng } := by
  unfold responseMatrix at h
  rw [bindGet_eq_ok] at h
  by_cases ha : amp.1.length ≠ cms.1.length ∨ amp.2.length ≠ cms.2.length
  · rw [if_pos ha] at h; cases h
  rw [if_neg ha] at h
  rw [bind_eq_ok] at h; obtain ⟨bref, t0, e0, h⟩ := h
  by_cases hb : s.INJ.trackMode = "ORB" ∧ bref.any Option.isNone = true
  · rw [if_pos hb] at h; cases h
  rw [if_neg hb] at h
  rw [bind_eq_ok] at h; obtain ⟨hh, t1, e1, h⟩ := h
  rw [bind_eq_ok] at h; obtain ⟨hv, t2, e2, h⟩ := h
  cases h
  obtain ⟨-, -, -, o0⟩ := ravelReading_eq_ok e0
  have memH : ∀ o ∈ cms.1, (false, o) ∈ columnsOf cms := fun o ho => by simp [columnsOf, ho]
  have memV : ∀ o ∈ cms.2, (true, o) ∈ columnsOf cms := fun o ho => by simp [columnsOf, ho]
  have T0 : Trimmed s t0 := o0.trimmed
  have x1 := responsePlane_ok (T0.separate hsep) (T0.up hsep hup) (fun o ho => by rw [T0.ord]; exact hreg _ (memH o ho))
    (fun o ho => by rw [o0.ring]; exact hlim _ (memH o ho)) e1
  have r1 : t1.RING = s.RING := by rw [x1]; exact o0.ring
  have q1 : t1.ORD = s.ORD := by rw [x1]; exact T0.ord
  have T1 : Trimmed s t1 := Trimmed.of_ring r1 q1
  have x2 := responsePlane_ok (T1.separate hsep) (T1.up hsep hup) (fun o ho => by rw [T1.ord]; exact hreg _ (memV o ho))
    (fun o ho => by rw [r1]; exact hlim _ (memV o ho)) e2
  conv_lhs => rw [x2, x1, o0.1]

/-- **C54**: every column of the matrix is the change of the reading of a machine which differs from the measured one in the kick of the
corrector only, divided by the change of the kick (missing readings count as zero).  With fixed kicks the step is the amplitude, with the sign
for which it is within the limits, and the opposite step is measured; with a fixed offset it is scaled from an earlier reading such that the
largest change would be the amplitude. -/
theorem C54_response_columns_partial [IsStrictOrderedRing K] (E : Env K) (B : BeamEnv K) (amp : List K × List K) (bpms : List Nat)
    (cms : List Nat × List Nat) (mode : String) (nSteps : Nat) (s s' : SC K) (RM : List (List K)) (hsep : Separate s) (hup : UpToDate s)
    (hreg : ∀ c ∈ columnsOf cms, c.2 ∈ s.ORD.Magnet)
    (hlim : ∀ c ∈ columnsOf cms, Lim.Nonneg (kickLimit s.RING c.2 c.1) ∧ Within (kickLimit s.RING c.2 c.1) (kick s.RING c.2 c.1))
    (h : responseMatrix E B amp bpms cms mode nSteps s = .ok RM s') :
    RM.length = cms.1.length + cms.2.length ∧ ∃ r0 t0, bpmReading E B (some bpms) false s = .ok r0 t0 ∧
    ∀ (j : Nat) (c : Bool × Nat) (a : K), (columnsOf cms)[j]? = some c → (amp.1 ++ amp.2)[j]? = some a → ∃ n col m t r t',
      RM[j]? = some col ∧
      KickedTo c.2 c.1 (clip (kickLimit s.RING c.2 c.1) (kick s.RING c.2 c.1 - m)) { s with rng := n } t ∧
      bpmReading E B (some bpms) false t = .ok r t' ∧ kick t.RING c.2 c.1 - kick s.RING c.2 c.1 ≠ 0 ∧
      col = List.zipWith (fun y y0 => (quotient (kick t.RING c.2 c.1 - kick s.RING c.2 c.1) y y0).getD 0) (r.x ++ r.y) (r0.x ++ r0.y) ∧
      ((mode = "fixedKick" ∧ m = inRange (kickLimit s.RING c.2 c.1) (kick s.RING c.2 c.1) a) ∨
        (mode = "fixedOffset" ∧ Scaled E B bpms (r0.x ++ r0.y) a c.2 c.1 { s with rng := n } m)) := by
  unfold responseMatrix at h
  rw [bindGet_eq_ok] at h
  by_cases ha : amp.1.length ≠ cms.1.length ∨ amp.2.length ≠ cms.2.length
  · rw [if_pos ha] at h; cases h
  rw [if_neg ha] at h
  simp only [not_or, not_not] at ha
  rw [bind_eq_ok] at h; obtain ⟨bref, t0, e0, h⟩ := h
  by_cases hb : s.INJ.trackMode = "ORB" ∧ bref.any Option.isNone = true
  · rw [if_pos hb] at h; cases h
  rw [if_neg hb] at h
  rw [bind_eq_ok] at h; obtain ⟨hh, t1, e1, h⟩ := h
  rw [bind_eq_ok] at h; obtain ⟨hv, t2, e2, h⟩ := h
  cases h
  obtain ⟨r0, f0, rfl, o0⟩ := ravelReading_eq_ok e0
  have memH : ∀ o ∈ cms.1, (false, o) ∈ columnsOf cms := fun o ho => by simp [columnsOf, ho]
  have memV : ∀ o ∈ cms.2, (true, o) ∈ columnsOf cms := fun o ho => by simp [columnsOf, ho]
  have T0 : Trimmed s t0 := o0.trimmed
  have hH1 : ∀ o ∈ cms.1, o ∈ t0.ORD.Magnet := fun o ho => by rw [T0.ord]; exact hreg _ (memH o ho)
  have hH2 : ∀ o ∈ cms.1, Lim.Nonneg (kickLimit t0.RING o false) ∧ Within (kickLimit t0.RING o false) (kick t0.RING o false) :=
    fun o ho => by rw [o0.ring]; exact hlim _ (memH o ho)
  have x1 := responsePlane_ok (T0.separate hsep) (T0.up hsep hup) hH1 hH2 e1
  obtain ⟨l1, c1⟩ := responsePlane_columns (T0.separate hsep) (T0.up hsep hup) hH1 ha.1 hH2 e1
  have r1 : t1.RING = s.RING := by rw [x1]; exact o0.ring
  have q1 : t1.ORD = s.ORD := by rw [x1]; exact T0.ord
  have T1 : Trimmed s t1 := Trimmed.of_ring r1 q1
  obtain ⟨l2, c2⟩ := responsePlane_columns (T1.separate hsep) (T1.up hsep hup) (fun o ho => by rw [T1.ord]; exact hreg _ (memV o ho)) ha.2
    (fun o ho => by rw [r1]; exact hlim _ (memV o ho)) e2
  have s0 : t0 = { s with rng := t0.rng } := o0.1
  have s1 : t1 = { s with rng := t1.rng } := by conv_lhs => rw [x1, s0]
  refine ⟨by rw [List.length_append, l1, l2], r0, t0, f0, fun j c a hc hj => ?_⟩
  by_cases hlt : j < cms.1.length
  · rw [columnsOf, List.getElem?_append_left (by simpa using hlt), List.getElem?_map, Option.map_eq_some_iff] at hc
    obtain ⟨cm, hcm, rfl⟩ := hc
    rw [List.getElem?_append_left (by omega)] at hj
    obtain ⟨n, col, hcol, m, t, r, t', k⟩ := c1 j cm a hcm hj
    rw [s0] at k
    exact ⟨n, col, m, t, r, t', by rw [List.getElem?_append_left (by omega)]; exact hcol, k⟩
  · rw [columnsOf, List.getElem?_append_right (by simpa using hlt), List.getElem?_map, Option.map_eq_some_iff] at hc
    obtain ⟨cm, hcm, rfl⟩ := hc
    rw [List.length_map] at hcm
    rw [List.getElem?_append_right (by omega), ha.1] at hj
    obtain ⟨n, col, hcol, m, t, r, t', k⟩ := c2 _ cm a hcm hj
    rw [s1] at k
    exact ⟨n, col, m, t, r, t', by rw [List.getElem?_append_right (by omega), l1]; exact hcol, k⟩

/-- **C54 violated**: ... but it never returns with another number of steps than one, in particular not with the default number of two,
when there is a corrector. -/
theorem C54_violated_response_matrix (E : Env K) [IsStrictOrderedRing K] (B : BeamEnv K) (amp : List K × List K) (bpms : List Nat) (cms : List Nat × List Nat)
    (hc : cms.1 ≠ [] ∨ cms.2 ≠ []) (mode : String) (nSteps : Nat) (hn : nSteps ≠ 1) (s : SC K) :
    (responseMatrix E B amp bpms cms mode nSteps s).isOk = false := by
  cases h : responseMatrix E B amp bpms cms mode nSteps s with
  | error e s' => rfl
  | ok out s' =>
    exfalso
    unfold responseMatrix at h
    rw [bindGet_eq_ok] at h
    by_cases ha : amp.1.length ≠ cms.1.length ∨ amp.2.length ≠ cms.2.length
    · rw [if_pos ha] at h; cases h
    rw [if_neg ha] at h
    rw [bind_eq_ok] at h; obtain ⟨bref, t0, e0, h⟩ := h
    by_cases hb : s.INJ.trackMode = "ORB" ∧ bref.any Option.isNone = true
    · rw [if_pos hb] at h; cases h
    rw [if_neg hb] at h
    rw [bind_eq_ok] at h; obtain ⟨hh, t1, e1, h⟩ := h
    rw [bind_eq_ok] at h; obtain ⟨hv, t2, e2, h⟩ := h
    have key : ∀ {skew : Bool} {cs : List Nat} {am : List K} {t t' : SC K} {o : List (List K)} {rows : Nat}, cs ≠ [] → am.length = cs.length →
        responsePlane E B bref bpms rows mode nSteps skew cs am t = .ok o t' → False := by
      intro skew cs am t t' o rows hne hl hp
      unfold responsePlane getCMSetpoints at hp
      rw [bindRd_eq_ok] at hp; obtain ⟨starts, hst, hp⟩ := hp
      have hls := (mapM_except_eq_ok hst).1
      obtain ⟨-, st, -, -, hch⟩ := mapEach_chain hp
      have h0 : 0 < (cs.zip (starts.zip am)).length := by
        have := List.length_pos_iff.2 hne
        simp [hls, hl, this]
      obtain ⟨y, -, hy⟩ := hch 0 _ (List.getElem?_eq_getElem h0)
      exact hn (responseColumn_steps hy)
    simp only [not_or, not_not] at ha
    rcases hc with hc | hc
    · exact key hc ha.1 e1
    · exact key hc ha.2 e2

/-! ### examples -/

/-- orbit and trajectory depend on the first corrector and the frequency -/
def Example.kickedBeam : BeamEnv ℚ := { Example.beam with
  track := fun r Z i _ => Z.map (fun _ => (some (coef (vecAt r 1 "KickAngle") 0 * (i + 3) + numAt r 5 "Frequency" / 100), some (i : ℚ)))
  orbit := fun r i => (some (coef (vecAt r 1 "KickAngle") 0 * (i + 2) + numAt r 5 "Frequency" / 1000), some (i : ℚ)) }

/-- the example machine with fields of magnets and cavities up to date -/
def Example.measured : SC ℚ := (updateMagnets none (updateCavities none Example.sc).state).state

example : (∀ i ∈ (none : Option (List Nat)).getD Example.measured.ORD.RF, CavityReady Example.measured.RING i ∧ Realised Example.measured.RING i) ∧
    (dispersion Example.rand Example.kickedBeam false 10 none none 2 Example.measured).value? = some [some (1/100), some 0] := by
  refine ⟨?_, by decide +kernel⟩
  intro i hi
  have : i = 5 := by
    have e : (none : Option (List Nat)).getD Example.measured.ORD.RF = [5] := by decide +kernel
    rw [e] at hi; simpa using hi
  subst this
  constructor
  · intro f hf part hp
    fin_cases hf <;> fin_cases hp <;> exact ⟨_, rfl⟩
  · intro f hf
    fin_cases hf <;> decide +kernel

theorem Example.measured_ok : Separate Example.measured ∧ UpToDate Example.measured := by
  have h : updateCavities none Example.sc = .ok () (updateCavities none Example.sc).state := ok_of_isOk (by decide +kernel)
  have hs : Separate (updateCavities none Example.sc).state := by
    have f := (updateCavities_modifies none).ok h
    have e : ∀ o, (updateCavities none Example.sc).state.RING.attr o "MasterOf" = Example.sc.RING.attr o "MasterOf" :=
      fun o => f.attr _ _ (fun hh => by simp [rfProperties] at hh)
    intro o ho o' ho' t h1 h2
    rw [f.ord] at ho ho'
    unfold Affects at h1 h2
    rw [e] at h1 h2
    exact Example.sc_separate o ho o' ho' t h1 h2
  have h2 : updateMagnets none (updateCavities none Example.sc).state = .ok () Example.measured := ok_of_isOk (by decide +kernel)
  refine ⟨?_, C72_after_update _ _ hs h2⟩
  rw [updateMagnets_none] at h2
  exact (updateMagnets_trimmed (fun _ h => h) h2).separate hs

/-- the corrector of the example, measured horizontally (with a limit) and vertically -/
example : (∀ c ∈ columnsOf ([1], [1]), Settled Example.measured [c.2]) ∧
    (∀ c ∈ columnsOf ([1], [1]), Lim.Nonneg (kickLimit Example.measured.RING c.2 c.1) ∧
      Within (kickLimit Example.measured.RING c.2 c.1) (kick Example.measured.RING c.2 c.1) ∧
      Within (kickLimit Example.measured.RING c.2 c.1) (kick Example.measured.RING c.2 c.1 + 1/1000)) ∧
    (∀ c ∈ columnsOf ([1], [1]), c.2 ∈ Example.measured.ORD.Magnet) ∧
    (measureOrbitResponse Example.rand Example.kickedBeam [0] ([1], [1]) false (1/1000) Example.measured).value? =
      some [[some (11/5), some 0], [some 0, some 0]] ∧
    (responseMatrix Example.rand Example.kickedBeam ([1/1000], [1/1000]) [0] ([1], [1]) "fixedKick" 1 Example.measured).value? =
      some [[33/10, 0], [0, 0]] := by
  refine ⟨fun c hc => Example.measured_ok.2 c.2 ?_, ?_, ?_, ?_, ?_⟩
  · have : ∀ c ∈ columnsOf ([1], [1]), c.2 ∈ Example.measured.ORD.Magnet := by decide +kernel
    exact this c hc
  all_goals decide +kernel

/-- the corrector at 1 mrad with a limit of 2 mrad: a fixed offset, and a fixed kick which is possible in the negative direction only -/
example : (responseMatrix Example.rand Example.kickedBeam ([1/1000], []) [0] ([1], []) "fixedOffset" 1 Example.measured).value? =
      some [[33/10, 0]] ∧
    (responseMatrix Example.rand Example.kickedBeam ([3/2000], []) [0] ([1], []) "fixedKick" 1 Example.measured).value? =
      some [[33/10, 0]] ∧
    inRange (kickLimit Example.measured.RING 1 false) (kick Example.measured.RING 1 false) (1/1000) = 1/1000 ∧
    inRange (kickLimit Example.measured.RING 1 false) (kick Example.measured.RING 1 false) (3/2000) = -3/2000 := by
  unfold inRange; decide +kernel

/-- **C54 violated**: the tracking mode is left at 'ORB'. -/
theorem C54_violated_trackmode : ∃ (RM : List (List (Option ℚ))) (s' : SC ℚ),
    measureOrbitResponse Example.rand Example.kickedBeam [0] ([1], [1]) false (1/1000) Example.measured = .ok RM s' ∧
    Example.measured.INJ.trackMode = "TBT" ∧ s'.INJ.trackMode = "ORB" := by
  obtain ⟨RM, h⟩ := exists_of_isOk (r := measureOrbitResponse Example.rand Example.kickedBeam [0] ([1], [1]) false (1/1000) Example.measured)
    (by decide +kernel)
  exact ⟨RM, _, h, by decide +kernel, by decide +kernel⟩

/-- **C54 violated**: a corrector which reaches its limit does not return. -/
theorem C54_violated_limit : ∃ (RM : List (List (Option ℚ))) (s' : SC ℚ),
    measureOrbitResponse Example.rand Example.kickedBeam [0] ([1], [1]) false (5/1000) Example.measured = .ok RM s' ∧
    kick Example.measured.RING 1 false = 1/1000 ∧ kick s'.RING 1 false = -2/1000 := by
  obtain ⟨RM, h⟩ := exists_of_isOk (r := measureOrbitResponse Example.rand Example.kickedBeam [0] ([1], [1]) false (5/1000) Example.measured)
    (by decide +kernel)
  exact ⟨RM, _, h, by decide +kernel, by decide +kernel⟩

/-- the corrector without vertical limit is set to 1 mrad -/
def Example.steered : SC ℚ := (setCMSetpoints [1] ⟨false, [1/1000]⟩ true "abs" Example.measured).state

/-- **C54 violated**: a step given as an integer loses the fractional part of the kick, although there is no limit. -/
theorem C54_violated_integer_kick : ∃ (RM : List (List (Option ℚ))) (s' : SC ℚ),
    measureOrbitResponse Example.rand Example.kickedBeam [0] ([], [1]) true 1 Example.steered = .ok RM s' ∧
    kickLimit Example.steered.RING 1 true = .inf ∧ kick Example.steered.RING 1 true = 1/1000 ∧ kick s'.RING 1 true = 0 := by
  obtain ⟨RM, h⟩ := exists_of_isOk (r := measureOrbitResponse Example.rand Example.kickedBeam [0] ([], [1]) true 1 Example.steered)
    (by decide +kernel)
  exact ⟨RM, _, h, by decide +kernel, by decide +kernel, by decide +kernel⟩

/-- **C54 violated**: `response_matrix` with its default of two steps raises an exception after the corrector was kicked, and leaves it so. -/
theorem C54_violated_default_steps : ∃ s' : SC ℚ,
    responseMatrix Example.rand Example.kickedBeam ([1/2000], [1/1000]) [0] ([1], [1]) "fixedKick" 2 Example.measured = .error .indexError s' ∧
    kick Example.measured.RING 1 false = 1/1000 ∧ kick s'.RING 1 false = 3/2000 :=
  ⟨_, err_of_err? (by decide +kernel), by decide +kernel, by decide +kernel⟩

/-- the beam is lost if the corrector is kicked by more than 1.5 mrad -/
def Example.fragileBeam : BeamEnv ℚ := { Example.kickedBeam with
  track := fun r Z i t => if 3/2000 < coef (vecAt r 1 "KickAngle") 0 then Z.map (fun _ => (none, none)) else Example.kickedBeam.track r Z i t }

/-- **C54 violated**: if the kick loses the beam, `response_matrix` does not try a smaller one: the log message raises (format of integers
for a float) and the corrector stays kicked. -/
theorem C54_violated_lost_beam : ∃ s' : SC ℚ,
    responseMatrix Example.rand Example.fragileBeam ([1/1000], [1/1000]) [0] ([1], [1]) "fixedKick" 1 Example.measured = .error .valueError s' ∧
    kick Example.measured.RING 1 false = 1/1000 ∧ kick s'.RING 1 false = 2/1000 :=
  ⟨_, err_of_err? (by decide +kernel), by decide +kernel, by decide +kernel⟩

end PySC
