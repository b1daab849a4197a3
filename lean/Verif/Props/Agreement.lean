import Verif.Lemmas.Agreement
import Verif.Props.Response
import Verif.Props.ResponseMeasure
import Verif.Props.Commute
/-
C93 On a machine without errors the measured response is the response of the model.
-/
set_option linter.unusedSectionVars false
namespace PySC
open Py Spec
variable {K : Type} [Field K] [LinearOrder K] [FloorRing K] [IsStrictOrderedRing K]

/-- **C93** (part): on a machine without errors the measured orbit response matrix is, entry by entry, the orbit response matrix of the
design lattice for the same BPMs, correctors and step.  Missing: correctors must not drive other magnets
(see the violation below) and must not reach their limits.  (pyAT wants the BPMs in the order of the ring.) -/
theorem C93_orbit_response_partial (E : Env K) (B : BeamEnv K) (bpms : List Nat) (cms : List Nat × List Nat) (dkick : K) (Z0 : List K) (nt : Nat)
    (s s' s'' : SC K) (RM RM' : List (List (Option K))) (hB : TrueTracking B) (hf : Faultless s) (hnt : s.INJ.nTurns = 1)
    (hreg : Increasing s.ORD.BPM) (hinc : Increasing bpms) (hsub : ∀ i ∈ bpms, i ∈ s.ORD.BPM)
    (hset : ∀ c ∈ columnsOf cms, Settled s [c.2]) (htrue : ∀ c ∈ columnsOf cms, TrueCorrector s.RING c.2 c.1)
    (hlim : ∀ c ∈ columnsOf cms, Lim.Nonneg (kickLimit s.RING c.2 c.1) ∧ Within (kickLimit s.RING c.2 c.1) (kick s.RING c.2 c.1) ∧
      Within (kickLimit s.RING c.2 c.1) (kick s.RING c.2 c.1 + dkick))
    (h : measureOrbitResponse E B bpms cms false dkick s = .ok RM s')
    (h' : modelRM B bpms cms "ORB" Z0 nt dkick true s = .ok RM' s'') : RM = RM' := by
  obtain ⟨-, hlen, r0, t0, e0, hcol⟩ := C54_orbit_response_partial E B bpms cms dkick s s' RM hset hlim h
  have hmodel : RM'.length = (columnsOf cms).length ∧ ∀ (j : Nat) (c : Bool × Nat), (columnsOf cms)[j]? = some c → dkick ≠ 0 ∧ ∃ r',
      Kicked s.IDEALRING r' c.2 c.1 dkick ∧ RM'[j]? = some (List.zipWith (diffQuot dkick) (modelTrajectory B "ORB" Z0 1 bpms r')
        (modelTrajectory B "ORB" Z0 1 bpms s.IDEALRING)) := by
    unfold modelRM at h'
    rw [bind_eq_ok] at h'; obtain ⟨r, s1, h1, h'⟩ := h'
    obtain ⟨rfl, -⟩ := (chooseModel_eq_ok h1).1 rfl
    rw [if_neg (by simp)] at h'
    simp only [if_true] at h'
    by_cases hn : (modelTrajectory B "ORB" Z0 1 bpms s.IDEALRING).any Option.isNone = true
    · rw [if_pos hn] at h'; cases h'
    rw [if_neg hn, lift_eq_ok] at h'
    exact modelColumns_eq_ok h'.1
  have hZ : ∀ r, modelTrajectory B "ORB" Z0 1 bpms r = modelTrajectory B "ORB" s.INJ.Z0 1 bpms r := fun r => by
    unfold modelTrajectory modelPosition; simp
  have ht : TrueBpms B s := hf.bpmsTrue hB
  have R0 := trueReading (s := { s with INJ := { s.INJ with trackMode := "ORB" } }) (ht.keep rfl rfl rfl rfl (fun _ _ _ => rfl)) (Or.inl rfl)
    hreg hinc hsub e0
  dsimp only at R0
  rw [hnt] at R0
  refine List.ext_getElem? (fun j => ?_)
  cases hj : (columnsOf cms)[j]? with
  | none =>
    have hj' := List.getElem?_eq_none_iff.1 hj
    have hl2 : (columnsOf cms).length = cms.1.length + cms.2.length := by simp [columnsOf]
    rw [List.getElem?_eq_none (by omega), List.getElem?_eq_none (by omega)]
  | some c =>
    have hc := List.mem_of_getElem? hj
    obtain ⟨n, t1, r1, t2, g1, g2, g3⟩ := hcol j c hj
    obtain ⟨-, r', k1, k2⟩ := hmodel.2 j c hj
    have hm : Moved s.RING t1.RING c.2 c.1 dkick := moved_of_set
      (s := { s with rng := n, INJ := { s.INJ with trackMode := "ORB" } }) ((hset c hc).of_ring rfl) (htrue c hc) (hlim c hc).1 (hlim c hc).2.2 g1
    have hso := sameOptics_kick hf.optics k1 hm
    have fr := (setCMSetpoints_modifies _ _ _ _).ok g1
    have hord := fr.ord
    have hinj := fr.inj
    dsimp only at hord hinj
    have R1 := trueReading (s := t1) (E := E) (ht.keep hord (by rw [hinj]) (by rw [hinj]) (by rw [hinj]) (fun i a ha => hm.other i a (Or.inr (by
      simp only [List.mem_cons, List.not_mem_nil, or_false] at ha
      rcases ha with rfl | rfl | rfl | rfl | rfl | rfl | rfl | rfl <;>
        exact ⟨ne_setPoint (by simp [spNames]) _, polynom_ne _ (by simp), fun _ => by decide⟩)))) (Or.inl (by rw [hinj]))
      (by rw [hord]; exact hreg) hinc (by rw [hord]; exact hsub) g2
    rw [hinj] at R1
    dsimp only at R1
    rw [hnt] at R1
    rw [g3, k2, R0, R1, zipWith_diffQuot, hZ, hZ, trajectory_optics hB hso, trajectory_optics hB hf.optics]

/-- **C93** (part): on a machine without errors the measured dispersion is, entry by entry, the dispersion of the design lattice, for
closed orbits and for the turns of a single particle which is always injected in the same way.  (pyAT wants the BPMs in
the order of the ring.) -/
theorem C93_dispersion_partial (E : Env K) (B : BeamEnv K) (bpms cavs : List Nat) (step : K)
    (s s' s'' : SC K) (eta eta' : List (Option K)) (hB : TrueTracking B) (hf : Faultless s)
    (hmode : (s.INJ.trackMode = "ORB" ∧ s.INJ.nTurns = 1) ∨ (s.INJ.trackMode = "TBT" ∧ SteadyInjection B s))
    (hreg : Increasing s.ORD.BPM) (hinc : Increasing bpms) (hsub : ∀ i ∈ bpms, i ∈ s.ORD.BPM) (hnd : cavs.Nodup)
    (hready : ∀ i ∈ cavs, CavityReady s.RING i) (hreal : ∀ i ∈ cavs, Realised s.RING i)
    (hcal : ∀ i ∈ cavs, numAt s.RING i "FrequencyCalError" = 0)
    (h : dispersion E B false step (some bpms) (some cavs) 2 s = .ok eta s')
    (h' : modelDispersion B bpms cavs s.INJ.trackMode s.INJ.Z0 s.INJ.nTurns step true s = .ok eta' s'') : eta = eta' := by
  obtain ⟨-, r0, t0, t1, r1, t2, e0, hsh, e1, hne, rfl⟩ := C54_dispersion E B false step (some bpms) (some cavs) s s' eta hready hreal h
  simp only [Option.getD_some] at e0 e1 hsh
  have hmodel : ∃ r', Detuned s.IDEALRING r' cavs step ∧ eta' = List.zipWith (diffQuot step)
      (modelTrajectory B s.INJ.trackMode s.INJ.Z0 s.INJ.nTurns bpms r') (modelTrajectory B s.INJ.trackMode s.INJ.Z0 s.INJ.nTurns bpms s.IDEALRING) := by
    have hn1 : (if s.INJ.trackMode = "ORB" then 1 else s.INJ.nTurns) = s.INJ.nTurns := by
      rcases hmode with ⟨h1, h2⟩ | ⟨h1, -⟩
      · rw [if_pos h1, h2]
      · rw [if_neg (by rw [h1]; decide)]
    unfold modelDispersion at h'
    rw [bind_eq_ok] at h'; obtain ⟨r, s1, h1, h'⟩ := h'
    obtain ⟨rfl, -⟩ := (chooseModel_eq_ok h1).1 rfl
    rw [hn1] at h'
    split at h'
    · cases h'
    dsimp only at h'
    split at h'
    · cases h'
    rw [bindLift_eq_ok] at h'
    obtain ⟨r', hr', h'⟩ := h'
    cases h'
    exact ⟨r', stepFrequencies_eq_ok hnd hr', rfl⟩
  obtain ⟨r', hd, rfl⟩ := hmodel
  have ht : TrueBpms B s := hf.bpmsTrue hB
  have hm : s.INJ.trackMode = "ORB" ∨ (s.INJ.trackMode = "TBT" ∧ SteadyInjection B s) := by
    rcases hmode with ⟨h1, -⟩ | h1
    · exact Or.inl h1
    · exact Or.inr h1
  have R0 := trueReading ht hm hreg hinc hsub e0
  have hinj := hsh.rest.inj
  have hord := hsh.rest.ord
  have R1 := trueReading (s := t1) (E := E) (ht.keep hord (by rw [hinj]) (by rw [hinj]) (by rw [hinj]) (fun i a ha => hsh.rest.attr i a (by
      rintro ⟨-, hx⟩
      simp only [List.mem_cons, List.not_mem_nil, or_false] at ha
      rcases ha with rfl | rfl | rfl | rfl | rfl | rfl | rfl | rfl <;> simp at hx)))
    (by
      rcases hm with h1 | ⟨h1, h2⟩
      · left; rw [hinj]; exact h1
      · right; exact ⟨by rw [hinj]; exact h1, ⟨by rw [hinj]; exact h2.jitter, by rw [hinj]; exact h2.six, by rw [hinj]; exact h2.single, h2.post⟩⟩)
    (by rw [hord]; exact hreg) hinc (by rw [hord]; exact hsub) e1
  rw [hinj] at R1
  rw [R0, R1, zipWith_diffQuot, trajectory_optics hB hf.optics, trajectory_optics hB (sameOptics_detune hf.optics hd hsh hreal hcal)]

/-! ### examples -/

/-- an element with additional attributes -/
def Elem.extend (e : Elem K) (x : List (String × Attr K)) : Elem K := x.foldl (fun e p => e.set p.1 p.2) e

theorem Elem.extend_spec (x : List (String × Attr K)) (e : Elem K) (a : String) :
    (a ∉ x.map Prod.fst → e.extend x a = e a) ∧ (a ∈ x.map Prod.fst → ∃ p ∈ x, p.1 = a ∧ e.extend x a = some p.2) := by
  induction x generalizing e with
  | nil => simp [Elem.extend]
  | cons p x ih =>
    have he : e.extend (p :: x) = (e.set p.1 p.2).extend x := rfl
    obtain ⟨i1, i2⟩ := ih (e.set p.1 p.2)
    rw [he]
    constructor
    · intro h
      simp only [List.map_cons, List.mem_cons, not_or] at h
      rw [i1 h.2, Elem.set_apply, if_neg h.1]
    · intro h
      by_cases hx : a ∈ x.map Prod.fst
      · obtain ⟨q, hq, h1, h2⟩ := i2 hx
        exact ⟨q, by simp [hq], h1, h2⟩
      · have hp : a = p.1 := by
          simp only [List.map_cons, List.mem_cons] at h
          exact h.resolve_right hx
        exact ⟨p, by simp, hp.symm, by rw [i1 hx, Elem.set_apply, if_pos hp]⟩

/-- decides `NoTransformation` -/
def noTransformationB : Attr K → Bool
  | .vec v => decide (v = [0, 0, 0, 0, 0, 0])
  | .mat m => decide (m = [[1, 0, 0, 0, 0, 0], [0, 1, 0, 0, 0, 0], [0, 0, 1, 0, 0, 0], [0, 0, 0, 1, 0, 0], [0, 0, 0, 0, 1, 0], [0, 0, 0, 0, 0, 1]])
  | _ => false

theorem noTransformation_of {v : Attr K} (h : noTransformationB v = true) : NoTransformation (some v) := by
  cases v with
  | vec v =>
    simp only [noTransformationB, decide_eq_true_eq] at h
    subst h
    refine ⟨rfl, fun k => ?_⟩
    match k with
    | 0 | 1 | 2 | 3 | 4 | 5 => rfl
    | k + 6 => simp [coef]
  | mat m =>
    simp only [noTransformationB, decide_eq_true_eq] at h
    subst h
    refine ⟨rfl, fun i j hi => ?_⟩
    match i, hi with
    | 0, _ | 1, _ | 2, _ | 3, _ | 4, _ | 5, _ =>
      match j with
      | 0 | 1 | 2 | 3 | 4 | 5 => simp [coef]
      | j + 6 => simp [coef]
  | _ => simp [noTransformationB] at h

/-- decides whether an additional attribute of an element is noticed by the beam -/
def unnoticed (d : Elem K) (p : String × Attr K) : Bool :=
  decide (p.1 ∈ bookkeeping) ||
  (decide (p.1 ∈ ["PolynomA", "PolynomB", "MaxOrder"]) && decide (d "PassMethod" = some (.str "CorrectorPass"))) ||
  (decide (p.1 ∈ ["T1", "T2", "R1", "R2"]) && noTransformationB p.2 && decide (d p.1 = none))

theorem sameOptics_extend (l : List (Elem K × List (String × Attr K)))
    (h : l.all (fun e => e.2.all (unnoticed e.1)) = true) :
    SameOptics (l.map (fun e => e.1.extend e.2)) (l.map (fun e => e.1)) := by
  refine ⟨by simp, fun i a hn => ?_⟩
  cases hi : l[i]? with
  | none => left; simp [Ring.attr, hi]
  | some e =>
    have h1 : ∀ a, Ring.attr (l.map (fun e => e.1.extend e.2)) i a = e.1.extend e.2 a := fun a => by simp [Ring.attr, hi]
    have h2 : ∀ a, Ring.attr (l.map (fun e => e.1)) i a = e.1 a := fun a => by simp [Ring.attr, hi]
    have hall : ∀ p ∈ e.2, unnoticed e.1 p = true := by
      rw [List.all_eq_true] at h
      have := h e (List.mem_of_getElem? hi)
      rwa [List.all_eq_true] at this
    by_cases ha : a ∈ e.2.map Prod.fst
    · have hpass : "PassMethod" ∉ e.2.map Prod.fst := by
        intro hp
        obtain ⟨p, hp, hp1⟩ := List.mem_map.1 hp
        have := hall p hp
        simp [unnoticed, hp1, bookkeeping] at this
      have hth : thin (l.map (fun e => e.1.extend e.2)) i ↔ e.1 "PassMethod" = some (.str "CorrectorPass") := by
        unfold thin; rw [h1, (Elem.extend_spec _ _ _).1 hpass]
      right
      have key : ∀ p ∈ e.2, p.1 = a → a ∈ ["T1", "T2", "R1", "R2"] ∧ NoTransformation (some p.2) ∧ e.1 a = none := by
        intro p hp hpa
        have := hall p hp
        simp only [unnoticed, Bool.or_eq_true, Bool.and_eq_true, decide_eq_true_eq, hpa] at this
        rcases this with (h | h) | h
        · exact absurd h hn.1
        · exact absurd ⟨hth.2 h.2, h.1⟩ hn.2
        · exact ⟨h.1.1, noTransformation_of h.1.2, h.2⟩
      obtain ⟨p, hp, hpa, he⟩ := (Elem.extend_spec _ e.1 _).2 ha
      obtain ⟨k1, k2, k3⟩ := key p hp hpa
      rw [h1, h2, he, k3]
      exact ⟨k1, k2, trivial⟩
    · left
      rw [h1, h2, (Elem.extend_spec _ _ _).1 ha]

/-- a magnet whose fields are those of its set-points and errors -/
theorem settled_of {s : SC K} {c : Nat} {L : List (String × Attr K)} (hm : s.RING.attr c "MasterOf" = none) (hc : c < s.RING.length)
    (hL : magnetValues s.RING c c = .ok L) (hA : ∀ p ∈ L, s.RING.attr c p.1 = some p.2) : Settled s [c] := by
  have hr : s.RING.assign c L = s.RING := by
    clear hL
    induction L with
    | nil => rfl
    | cons p L ih =>
      have : s.RING.assign c (p :: L) = (s.RING.setAttr c p.1 p.2).assign c L := rfl
      rw [this, Ring.setAttr_eq_self (hA p (by simp))]
      exact ih (fun q hq => hA q (by simp [hq]))
  have h1 : updateMagnet c c s = .ok () s := by
    rw [updateMagnet_eq_ok]
    refine ⟨hc, L, hL, ?_⟩
    rw [hr]
  have h2 : childrenOf s.RING c = .ok [] := by
    unfold childrenOf
    rw [Ring.hasA_of_lt hc, hm]
    rfl
  unfold Settled updateMagnets
  rw [bindGet_eq_ok]
  simp only [Option.getD_some, forEach_cons, forEach_nil, bind_eq_ok]
  refine ⟨(), s, ?_, rfl⟩
  unfold updateMagnetAndChildren
  rw [bind_eq_ok]
  refine ⟨(), s, h1, ?_⟩
  rw [bindRd_eq_ok]
  exact ⟨[], h2, rfl⟩

/-- BPM attributes without errors -/
def Example.cleanBpm : List (String × Attr ℚ) :=
  [("Noise", .vec [0, 0]), ("NoiseCO", .vec [0, 0]), ("Offset", .vec [0, 0]), ("SupportOffset", .vec [0, 0]),
   ("Roll", .num 0), ("SupportRoll", .num 0), ("CalError", .vec [0, 0]), ("SumError", .num 0)]

/-- a trim quadrupole of the design -/
def Example.trimQuad : Elem ℚ := Elem.ofList
  [("PassMethod", .str "StrMPoleSymplectic4Pass"), ("Length", .num (1/2)), ("PolynomA", .vec [1/500, 0]), ("PolynomB", .vec [0, 1]), ("MaxOrder", .int 1)]

/-- set-points, limits and vanishing errors of a trim quadrupole -/
def Example.cleanQuad : List (String × Attr ℚ) :=
  [("SetPointA", .vec [1/500, 0]), ("SetPointB", .vec [0, 1]), ("NomPolynomA", .vec [1/500, 0]), ("NomPolynomB", .vec [0, 1]),
   ("CalErrorA", .vec [0]), ("CalErrorB", .vec [0, 0]), ("CMlimit", .lims [.inf, .fin (1/100)]), ("T1", .vec [0, 0, 0, 0, 0, 0]),
   ("R1", .mat [[1, 0, 0, 0, 0, 0], [0, 1, 0, 0, 0, 0], [0, 0, 1, 0, 0, 0], [0, 0, 0, 1, 0, 0], [0, 0, 0, 0, 1, 0], [0, 0, 0, 0, 0, 1]])]

/-- Elements of the design with what is added in the machine: a BPM, a thin corrector, a trim quadrupole (`master` are the attributes
which make it the master of another one), a cavity, a BPM, a quadrupole. -/
def Example.cleanElems (master : List (String × Attr ℚ)) : List (Elem ℚ × List (String × Attr ℚ)) :=
  [(Elem.ofList [("PassMethod", .str "IdentityPass"), ("Length", .num 0)], Example.cleanBpm),
   (Elem.ofList [("PassMethod", .str "CorrectorPass"), ("Length", .num 0), ("KickAngle", .vec [1/1000, 0])],
    [("PolynomA", .vec [0]), ("PolynomB", .vec [1/1000]), ("MaxOrder", .int 0), ("SetPointA", .vec [0]), ("SetPointB", .vec [1/1000]),
     ("CalErrorA", .vec [0]), ("CalErrorB", .vec [0]), ("CMlimit", .lims [.fin (2/1000), .inf])]),
   (Example.trimQuad, Example.cleanQuad ++ master),
   (Elem.ofList [("PassMethod", .str "RFCavityPass"), ("Voltage", .num 1000), ("Frequency", .num 500), ("TimeLag", .num 2)],
    [("VoltageSetPoint", .num 1000), ("VoltageCalError", .num 0), ("VoltageOffset", .num 0),
     ("FrequencySetPoint", .num 500), ("FrequencyCalError", .num 0), ("FrequencyOffset", .num 0),
     ("TimeLagSetPoint", .num 2), ("TimeLagCalError", .num 0), ("TimeLagOffset", .num 0)]),
   (Elem.ofList [("PassMethod", .str "IdentityPass"), ("Length", .num 0)], Example.cleanBpm),
   (Example.trimQuad, [])]

def Example.clean (master : List (String × Attr ℚ)) : SC ℚ := { Example.sc with
  RING := (Example.cleanElems master).map (fun e => e.1.extend e.2)
  IDEALRING := (Example.cleanElems master).map (fun e => e.1)
  ORD := ⟨[0, 4], [3], [1, 2], [], [1], [1, 2], [], [], []⟩ }

/-- skew dipole component of a thick magnet -/
def Example.skewDipole (r : Ring ℚ) (i : Nat) : ℚ :=
  if r.attr i "PassMethod" = some (.str "CorrectorPass") then 0 else coef (vecAt r i "PolynomA") 0

/-- x and y at a reference point -/
def Example.opticalX (r : Ring ℚ) (ref : Nat) : ℚ := (ref + 1) * coef (vecAt r 1 "KickAngle") 0 + numAt r 3 "Frequency" / (1000 * (ref + 1))
def Example.opticalY (r : Ring ℚ) (ref : Nat) : ℚ :=
  (ref + 2) * coef (vecAt r 1 "KickAngle") 1 + ref * (Example.skewDipole r 2 + 3 * Example.skewDipole r 5)

/-- a beam whose orbit depends on the optics -/
def Example.opticalBeam : BeamEnv ℚ := { Example.beam with
  track := fun r Z i t => Z.map (fun z => (some (coef z 0 + (t + 1) * Example.opticalX r i), some (coef z 2 + Example.opticalY r i)))
  orbit := fun r i => (some (Example.opticalX r i), some (Example.opticalY r i)) }

theorem Example.optical_same {r r' : Ring ℚ} (h : SameOptics r r') : Example.opticalX r = Example.opticalX r' ∧ Example.opticalY r = Example.opticalY r' := by
  have e1 : vecAt r 1 "KickAngle" = vecAt r' 1 "KickAngle" := by
    unfold vecAt; rw [h.noticed (by simp) ⟨by simp [bookkeeping], by simp⟩]
  have e2 : numAt r 3 "Frequency" = numAt r' 3 "Frequency" := by
    unfold numAt; rw [h.noticed (by simp) ⟨by simp [bookkeeping], by simp⟩]
  have e3 : ∀ i, Example.skewDipole r i = Example.skewDipole r' i := by
    intro i
    unfold Example.skewDipole
    rw [← h.pass]
    by_cases ht : r.attr i "PassMethod" = some (.str "CorrectorPass")
    · rw [if_pos ht, if_pos ht]
    · rw [if_neg ht, if_neg ht]
      unfold vecAt; rw [h.noticed (by simp) ⟨by simp [bookkeeping], fun hh => ht hh.1⟩]
  constructor
  · funext ref; unfold Example.opticalX; rw [e1, e2]
  · funext ref; unfold Example.opticalY; rw [e1, e3, e3]

theorem Example.opticalBeam_true : TrueTracking Example.opticalBeam := by
  refine ⟨fun r r' h => ?_, fun r r' h => ?_, fun r Z ref t => ⟨_, rfl⟩, fun r ref => rfl, fun r Z ref t p hp => ?_, rfl⟩
  · simp only [Example.opticalBeam, (Example.optical_same h).1, (Example.optical_same h).2]
  · simp only [Example.opticalBeam, (Example.optical_same h).1, (Example.optical_same h).2]
  · simp only [Example.opticalBeam, List.mem_map] at hp
    obtain ⟨z, -, rfl⟩ := hp
    rfl

theorem Example.clean_faultless {master : List (String × Attr ℚ)} (h : master.all (unnoticed Example.trimQuad) = true)
    (hb : master.all (fun p => p.1 == "MasterOf") = true) : Faultless (Example.clean master) := by
  refine ⟨sameOptics_extend _ ?_, ?_, ?_, ?_, ?_⟩
  · have : (Example.cleanElems []).all (fun e => e.2.all (unnoticed e.1)) = true := by decide +kernel
    simp only [Example.cleanElems, List.all_cons, List.all_append, Bool.and_eq_true, List.all_nil, and_true] at this h ⊢
    tauto
  · intro i hi noise hno
    have hi' : i = 0 ∨ i = 4 := by simpa [Example.clean] using hi
    have hno' : noise = "Noise" ∨ noise = "NoiseCO" := by simpa using hno
    rcases hi' with rfl | rfl <;> rcases hno' with rfl | rfl <;>
      exact ⟨rfl, ⟨0, 0, 0, 0, rfl, rfl, by decide +kernel⟩, ⟨0, 0, rfl, rfl, by decide +kernel⟩, rfl, rfl⟩
  · show 0 ≤ Example.sc.INJ.beamLostAt
    decide +kernel
  · show 0 < Example.sc.INJ.nShots
    decide +kernel
  · show Example.sc.INJ.randomInjectionZ.length = 6
    decide +kernel

theorem Example.clean_settled : ∀ c ∈ [1, 2], Settled (Example.clean []) [c] := by
  intro c hc
  have hc' : c = 1 ∨ c = 2 := by simpa using hc
  rcases hc' with rfl | rfl
  · refine settled_of (L := [("PolynomA", .vec [0]), ("PolynomB", .vec [1/1000]), ("KickAngle", .vec [1/1000, 0]), ("MaxOrder", .int 0)]) ?_ ?_ ?_ ?_ <;>
      decide +kernel
  · refine settled_of (L := [("PolynomA", .vec [1/500, 0]), ("PolynomB", .vec [0, 1]), ("MaxOrder", .int 1)]) ?_ ?_ ?_ ?_ <;>
      decide +kernel

theorem Example.clean_true : ∀ c ∈ columnsOf ([1], [1, 2]), TrueCorrector (Example.clean []).RING c.2 c.1 := by
  intro c hc
  have hc' : c = (false, 1) ∨ c = (true, 1) ∨ c = (true, 2) := by simpa [columnsOf] using hc
  rcases hc' with rfl | rfl | rfl
  · exact ⟨⟨[0], by decide +kernel, by decide +kernel, by decide +kernel⟩, by decide +kernel⟩
  · exact ⟨⟨[0], by decide +kernel, by decide +kernel, by decide +kernel⟩, by decide +kernel⟩
  · exact ⟨⟨[0], by decide +kernel, by decide +kernel, by decide +kernel⟩, by decide +kernel⟩

/-- a thin corrector in both planes and a thick vertical one -/
example : TrueTracking Example.opticalBeam ∧ Faultless (Example.clean []) ∧ (Example.clean []).INJ.nTurns = 1 ∧
    Increasing (Example.clean []).ORD.BPM ∧ Increasing [0, 4] ∧ (∀ i ∈ [0, 4], i ∈ (Example.clean []).ORD.BPM) ∧
    (∀ c ∈ columnsOf ([1], [1, 2]), Settled (Example.clean []) [c.2]) ∧
    (∀ c ∈ columnsOf ([1], [1, 2]), TrueCorrector (Example.clean []).RING c.2 c.1) ∧
    (∀ c ∈ columnsOf ([1], [1, 2]), Lim.Nonneg (kickLimit (Example.clean []).RING c.2 c.1) ∧
      Within (kickLimit (Example.clean []).RING c.2 c.1) (kick (Example.clean []).RING c.2 c.1) ∧
      Within (kickLimit (Example.clean []).RING c.2 c.1) (kick (Example.clean []).RING c.2 c.1 + 1/2000)) ∧
    (measureOrbitResponse Example.rand Example.opticalBeam [0, 4] ([1], [1, 2]) false (1/2000) (Example.clean [])).value? =
      some [[some 1, some 5, some 0, some 0], [some 0, some 0, some 2, some 6], [some 0, some 0, some 0, some 8]] ∧
    (modelRM Example.opticalBeam [0, 4] ([1], [1, 2]) "ORB" [0, 0, 0, 0, 0, 0] 1 (1/2000) true (Example.clean [])).value? =
      some [[some 1, some 5, some 0, some 0], [some 0, some 0, some 2, some 6], [some 0, some 0, some 0, some 8]] := by
  refine ⟨Example.opticalBeam_true, Example.clean_faultless rfl rfl, by decide +kernel, by unfold Increasing; decide +kernel, by unfold Increasing; decide,
    by decide +kernel, ?_, Example.clean_true, ?_, by decide +kernel, by decide +kernel⟩
  · intro c hc
    refine Example.clean_settled c.2 ?_
    have : ∀ c ∈ columnsOf ([1], [1, 2]), c.2 ∈ [1, 2] := by decide +kernel
    exact this c hc
  · decide +kernel

example : (Example.clean []).INJ.trackMode = "TBT" ∧ SteadyInjection Example.opticalBeam (Example.clean []) ∧
    (∀ i ∈ [3], CavityReady (Example.clean []).RING i ∧ Realised (Example.clean []).RING i ∧ numAt (Example.clean []).RING i "FrequencyCalError" = 0) ∧
    (dispersion Example.rand Example.opticalBeam false 10 (some [0, 4]) (some [3]) 2 (Example.clean [])).value? =
      some [some (1/1000), some (1/5000), some 0, some 0] ∧
    (modelDispersion Example.opticalBeam [0, 4] [3] "TBT" [0, 0, 0, 0, 0, 0] 1 10 true (Example.clean [])).value? =
      some [some (1/1000), some (1/5000), some 0, some 0] := by
  refine ⟨by decide +kernel, ⟨by decide +kernel, by decide +kernel, by decide +kernel, fun _ => rfl⟩, ?_, by decide +kernel, by decide +kernel⟩
  intro i hi
  have : i = 3 := by simpa using hi
  subst this
  refine ⟨?_, ?_, by decide +kernel⟩
  · intro f hf part hp
    fin_cases hf <;> fin_cases hp <;> exact ⟨_, rfl⟩
  · intro f hf
    fin_cases hf <;> decide +kernel

/-- **C93 violated**: a corrector which drives another magnet kicks twice in the machine, but once in the model. -/
theorem C93_violated_children : TrueTracking Example.opticalBeam ∧ Faultless (Example.clean [("MasterOf", .ords [5])]) ∧ ∃ RM RM' s' s'',
    measureOrbitResponse Example.rand Example.opticalBeam [0, 4] ([], [2]) false (1/2000) (Example.clean [("MasterOf", .ords [5])]) = .ok RM s' ∧
    modelRM Example.opticalBeam [0, 4] ([], [2]) "ORB" [0, 0, 0, 0, 0, 0] 1 (1/2000) true (Example.clean [("MasterOf", .ords [5])]) = .ok RM' s'' ∧
    RM = [[some 0, some 0, some 0, some 32]] ∧ RM' = [[some 0, some 0, some 0, some 8]] :=
  ⟨Example.opticalBeam_true, Example.clean_faultless (by decide +kernel) (by decide +kernel), _, _, _, _, ok_of_value (by decide +kernel),
    ok_of_value (by decide +kernel), rfl, rfl⟩

end PySC
