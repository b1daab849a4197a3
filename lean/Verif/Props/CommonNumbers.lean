import Verif.Lemmas.CommonNumbers
import Verif.Props.Beam
import Verif.Props.BeamLoss
/-
C94 Measurements with the same random numbers.
-/
set_option linter.unusedSectionVars false
namespace PySC
open Py Spec
variable {K : Type} [Field K] [LinearOrder K]

/-- **C94** Two machines with the same BPMs and settings and with the generator in the same state are measured with the same bunches and
the same random numbers, whatever their lattices are and wherever the beam goes; the generator is left in the same state. -/
theorem C94_same_numbers (E : Env K) (B : BeamEnv K) (req : Option (List Nat)) (ce : Bool) (s t s' t' : SC K) (out out' : Reading K)
    (hsame : SameSettings s t) (hloss : ∀ Z i j, WholeLoss (seenAt B s Z i j)) (hloss' : ∀ Z i j, WholeLoss (seenAt B t Z i j))
    (h : bpmReading E B req ce s = .ok out s') (h' : bpmReading E B req ce t = .ok out' t') :
    s'.rng = t'.rng ∧ s' = { s with rng := s'.rng } ∧ t' = { t with rng := t'.rng } ∧
    ∃ ords Z z, Requested s.ORD.BPM req ords ∧ (∀ k < s.INJ.nShots, s.INJ.trackMode ≠ "ORB" → Injected E B s.INJ (Z k)) ∧
      MadeWith B s ords Z z out ∧ MadeWith B t ords Z z out' := by
  obtain ⟨ords, shots, h1, h2, h3, h4, h5⟩ := bpmReading_shots h
  obtain ⟨ords', shots', h1', h2', h3', h4', h5'⟩ := bpmReading_shots h'
  rw [← hsame.bpms, h1] at h1'
  cases h1'
  have h3'' := h3'
  rw [← hsame.inj] at h3''
  obtain ⟨p1, p2, p3, l1, l2, Z, z, p4, p5⟩ := shots_pair hsame.rng hsame.inj h3 h3''
  refine ⟨p1, p2.1, p3.1, ords, Z, z, registeredBpms_ok h1, p4, ?_, ?_⟩
  · exact madeWith_of_shots h2 l1 hloss (fun k hk => by
      obtain ⟨c, c', a, -, b, -⟩ := p5 k hk
      exact ⟨c, a, b⟩) h4 h5
  · exact madeWith_of_shots h2' (by rw [l2, hsame.inj]) hloss' (fun k hk => by
      obtain ⟨c, c', -, a, -, b⟩ := p5 k (by rw [hsame.inj]; exact hk)
      exact ⟨c', a, b⟩) h4' h5'

variable [IsStrictOrderedRing K]

/-- **C94** If a change of the lattice displaces the beam by `d` at a BPM whose errors are the same, without any loss, then the reading
taken with the same random numbers changes exactly by the displacement, rotated with the BPM and calibrated: the noise cancels. -/
theorem C94_displacement (E : Env K) (B : BeamEnv K) (req : Option (List Nat)) (ce : Bool) (s t s' t' : SC K) (out out' : Reading K)
    (hsame : SameSettings s t) (hmode : s.INJ.trackMode ≠ "PORB") (hloss : ∀ Z i j, WholeLoss (seenAt B s Z i j)) (hloss' : ∀ Z i j, WholeLoss (seenAt B t Z i j))
    (h : bpmReading E B req ce s = .ok out s') (h' : bpmReading E B req ce t = .ok out' t')
    (i j : Nat) (d : K × K) (e : BpmErr K) (he : BpmAt s.RING (if s.INJ.trackMode = "ORB" then "NoiseCO" else "Noise") i e)
    (hattr : ∀ a ∈ ["Noise", "NoiseCO", "Offset", "SupportOffset", "Roll", "SupportRoll", "CalError", "SumError"], s.RING.attr i a = t.RING.attr i a)
    (hd : ∀ Z, s.INJ.trackMode = "ORB" ∨ Injected E B s.INJ Z → AllArrive (seenAt B s Z i j) ∧ AllArrive (seenAt B t Z i j) ∧
      centre (seenAt B t Z i j) = ((centre (seenAt B s Z i j)).1 + d.1, (centre (seenAt B s Z i j)).2 + d.2)) (hj : j < s.INJ.nTurns) :
    ∃ ords, Requested s.ORD.BPM req ords ∧ ∀ b, ords[b]? = some i → ∃ x y,
      out.x[j * ords.length + b]? = some x ∧ out.y[j * ords.length + b]? = some y ∧
      out'.x[j * ords.length + b]? = some (x.map (fun v => v + (rolled (B.cosSin e.roll) d).1 * (1 + e.cal.1))) ∧
      out'.y[j * ords.length + b]? = some (y.map (fun v => v + (rolled (B.cosSin e.roll) d).2 * (1 + e.cal.2))) := by
  obtain ⟨-, -, -, ords, Z, z, hreq, hinj, ⟨f, hf, hm, -⟩, ⟨f', hf', hm', -⟩⟩ := C94_same_numbers E B req ce s t s' t' out out' hsame hloss hloss' h h'
  replace hm := (hm hmode).2.2
  replace hm' := (hm' (by rw [← hsame.inj]; exact hmode)).2.2
  refine ⟨ords, hreq, fun b hb => ?_⟩
  have e1 : f b = e := BpmAt_unique (hf b i hb) he
  have e2 : f' b = e := by
    refine BpmAt_unique (hf' b i hb) (bpmAt_of_attr ?_ (hsame.inj ▸ he))
    intro a ha
    apply hattr
    simp only [List.mem_cons, List.not_mem_nil, or_false] at ha ⊢
    rw [← hsame.inj] at ha
    split at ha <;> tauto
  obtain ⟨hx, hy, -⟩ := hm b j i hb hj
  obtain ⟨hx', hy', -⟩ := hm' b j i hb (by rw [← hsame.inj]; exact hj)
  have hs : shotMean (shotsAt B t f' Z z b j i) = (shotMean (shotsAt B s f Z z b j i)).map (fun p =>
      (p.1 + (rolled (B.cosSin e.roll) d).1 * (1 + e.cal.1), p.2 + (rolled (B.cosSin e.roll) d).2 * (1 + e.cal.2))) := by
    refine shotMean_shift (d := ((rolled (B.cosSin e.roll) d).1 * (1 + e.cal.1), (rolled (B.cosSin e.roll) d).2 * (1 + e.cal.2))) ?_
    unfold shotsAt
    rw [e1, e2, List.map_map, ← hsame.inj]
    refine List.map_congr_left (fun k hk => ?_)
    have hk' : k < s.INJ.nShots := by simpa using hk
    have hZ := hd (Z k) (by
      by_cases hm : s.INJ.trackMode = "ORB"
      · exact Or.inl hm
      · exact Or.inr (hinj k hk' hm))
    have ht : turnIx t j = turnIx s j := by unfold turnIx; rw [hsame.inj]
    simp only [Function.comp]
    rw [ht]
    exact shot_shift hZ.1 hZ.2.1 hZ.2.2 _ _ _
  refine ⟨_, _, hx, hy, ?_, ?_⟩
  · rw [hx', hs]
    simp only [Option.map_map, Function.comp_def]
  · rw [hy', hs]
    simp only [Option.map_map, Function.comp_def]

/-- **C94** The transmission of two machines is determined with the same bunch, and the generator is left in the same state. -/
theorem C94_transmission (E : Env K) (B : BeamEnv K) (np nt : Option Nat) (s t s' t' : SC K) (out out' : Nat × List K) (hinj : s.INJ = t.INJ) (hrng : s.rng = t.rng)
    (h : beamTransmission E B np nt s = .ok out s') (h' : beamTransmission E B np nt t = .ok out' t') :
    s'.rng = t'.rng ∧ ∃ Z, out.2 = (List.range (nt.getD s.INJ.nTurns)).map (fun j => aliveFraction (B.track s.RING Z s.RING.length j)) ∧
      out'.2 = (List.range (nt.getD s.INJ.nTurns)).map (fun j => aliveFraction (B.track t.RING Z t.RING.length j)) := by
  unfold beamTransmission at h h'
  have h := bindGet_eq_ok.1 h
  have h' := bindGet_eq_ok.1 h'
  rw [← hinj] at h'
  obtain ⟨Z, s1, a1, h⟩ := bind_eq_ok.1 h
  obtain ⟨Z', t1, a1', h'⟩ := bind_eq_ok.1 h'
  obtain ⟨rfl, r, -, -⟩ := generateBunches_same hrng hinj a1 a1'
  split at h
  · cases h
  rename_i hZ
  rw [if_neg hZ] at h'
  dsimp only at h h'
  split at h
  · cases h
  rename_i hn
  rw [if_neg hn] at h'
  cases h; cases h'
  exact ⟨r, Z, rfl, rfl⟩

/-! ### examples -/

/-- the quadrupole displaces the beam: more at the BPMs behind it -/
def Example.deflected : BeamEnv ℚ := { Example.beam with
  track := fun r Z i t => Z.map (fun p => (some (coef p 0 + (i + t) * coef (vecAt r 2 "PolynomB") 1), some (coef p 2)))
  orbit := fun r i => (some (1 + i * coef (vecAt r 2 "PolynomB") 1), some 2) }

/-- one particle injected with jitter -/
def Example.jittery (mode : String) : SC ℚ := { Example.twoBpms mode (1/4) with
  INJ := { (Example.twoBpms mode (1/4)).INJ with nParticles := 1, randomInjectionZ := [1/10, 0, 1/20, 0, 0, 0] } }

/-- the same machine with another quadrupole strength -/
def Example.restrengthened (mode : String) : SC ℚ := { Example.jittery mode with RING := (Example.jittery mode).RING.setAttr 2 "PolynomB" (.vec [0, 3]) }

theorem Example.deflected_loss (s : SC ℚ) : ∀ Z i t, WholeLoss (seenAt Example.deflected s Z i t) := by
  intro Z i t p hp
  unfold seenAt at hp
  split at hp
  · simp only [Example.deflected, List.mem_singleton] at hp; subst hp; simp
  · simp only [Example.deflected, List.mem_map] at hp
    obtain ⟨q, -, rfl⟩ := hp
    simp

/-- one particle is injected -/
theorem Example.jittery_single {mode : String} {Z : List (List ℚ)} (h : Injected Example.rand Example.deflected (Example.jittery mode).INJ Z) : ∃ c, Z = [c] := by
  obtain ⟨u, u', hu, h⟩ := h
  obtain ⟨-, h⟩ := generateBunches_ok (by rw [hu]; rfl) h
  obtain ⟨mid, c, z, -, -, -, -, h | h⟩ := h
  · exact ⟨c, h.2⟩
  · exact absurd (by rw [Option.getD_none, hu]; rfl) h.1

/-- a noisy measurement of two machines whose quadrupoles differ -/
example : SameSettings (Example.jittery "TBT") (Example.restrengthened "TBT") ∧
    (∀ Z, (Example.jittery "TBT").INJ.trackMode = "ORB" ∨ Injected Example.rand Example.deflected (Example.jittery "TBT").INJ Z →
      AllArrive (seenAt Example.deflected (Example.jittery "TBT") Z 4 1) ∧ AllArrive (seenAt Example.deflected (Example.restrengthened "TBT") Z 4 1) ∧
      centre (seenAt Example.deflected (Example.restrengthened "TBT") Z 4 1) =
        ((centre (seenAt Example.deflected (Example.jittery "TBT") Z 4 1)).1 + 5, (centre (seenAt Example.deflected (Example.jittery "TBT") Z 4 1)).2 + 0)) ∧
    (bpmReading Example.rand Example.deflected none false (Example.jittery "TBT")).isOk ∧
    (bpmReading Example.rand Example.deflected none false (Example.restrengthened "TBT")).isOk := by
  refine ⟨⟨rfl, rfl, rfl⟩, fun Z hZ => ?_, by decide +kernel, by decide +kernel⟩
  rcases hZ with hZ | hZ
  · exact absurd hZ (by decide)
  obtain ⟨c, rfl⟩ := Example.jittery_single hZ
  have e1 : seenAt Example.deflected (Example.jittery "TBT") [c] 4 1 = [(some (coef c 0 + 10), some (coef c 2))] := by
    have : ((4 : Nat) + (1 : Nat) : ℚ) * coef (vecAt (Example.jittery "TBT").RING 2 "PolynomB") 1 = 10 := by decide +kernel
    unfold seenAt
    rw [if_neg (by decide)]
    simp only [Example.deflected, List.map_cons, List.map_nil]
    rw [this]
  have e2 : seenAt Example.deflected (Example.restrengthened "TBT") [c] 4 1 = [(some (coef c 0 + 15), some (coef c 2))] := by
    have : ((4 : Nat) + (1 : Nat) : ℚ) * coef (vecAt (Example.restrengthened "TBT").RING 2 "PolynomB") 1 = 15 := by decide +kernel
    unfold seenAt
    rw [if_neg (by decide)]
    simp only [Example.deflected, List.map_cons, List.map_nil]
    rw [this]
  rw [e1, e2]
  refine ⟨⟨by simp, by simp⟩, ⟨by simp, by simp⟩, ?_⟩
  simp only [centre, survivors, List.filterMap_cons, List.filterMap_nil, List.map_cons, List.map_nil, List.sum_cons, List.sum_nil, List.length_cons,
    List.length_nil, Prod.mk.injEq]
  constructor <;> ring

/-- the readings differ by the displacement although they are noisy -/
example : (bpmReading Example.rand Example.deflected none false (Example.jittery "TBT")).value?.map (fun r => r.x.getD 3 none) = some (some (11049/1000)) ∧
    (bpmReading Example.rand Example.deflected none false (Example.restrengthened "TBT")).value?.map (fun r => r.x.getD 3 none) = some (some (16049/1000)) := by
  decide +kernel

example : (beamTransmission Example.rand Example.beam (some 4) (some 2) (Example.twoBpms "TBT" (1/4))).isOk ∧
    (beamTransmission Example.rand Example.beam (some 4) (some 2) (Example.twoBpms "TBT" (1/4))).value?.map Prod.snd = some [1/2, 1/2] := by
  decide +kernel

end PySC
