import Verif.Spec.ReadingLaw
/-
Machines on which measurements can be made (C99).
-/
namespace PySC.Spec
variable {K : Type} [Field K] [LinearOrder K]

/-- settings from which bunches of `n` particles can be made: six coordinates, and if there is a bunch to be filled the
eigenvalues of the beam size have square roots -/
structure BunchInOrder (B : BeamEnv K) (inj : Inj K) (n : Nat) : Prop where
  jitter : inj.randomInjectionZ.length = 6
  centre : inj.Z0.length = 6
  size : n ≠ 1 → ∃ m, bunchMatrix B inj.beamSize = .ok m ∧ m.length = 6

/-- the name of the noise which a BPM has in the measurement mode of machine `s` -/
def noiseName (s : SC K) : String := if s.INJ.trackMode = "ORB" then "NoiseCO" else "Noise"

/-- a machine whose BPMs `req` can be read: the request contains a registered BPM, there are shots, all BPMs have their errors and none
of the sum signals can vanish, bunches can be injected and their particles, lost or not, are known everywhere -/
structure ReadingInOrder (B : BeamEnv K) (s : SC K) (req : Option (List Nat)) : Prop where
  asked : ∀ l, req = some l → ∃ i ∈ s.ORD.BPM, i ∈ l
  shots : s.INJ.nShots ≠ 0
  bpm : ∀ i ∈ s.ORD.BPM, ∃ e, BpmAt s.RING (noiseName s) i e ∧ 2 * |e.sum| < 1
  bunch : s.INJ.trackMode ≠ "ORB" → BunchInOrder B s.INJ s.INJ.nParticles
  particles : s.INJ.trackMode ≠ "ORB" → ∀ z w Z, BunchFrom B s.INJ z w Z → ∀ i ∈ s.ORD.BPM, ∀ t < s.INJ.nTurns, B.track s.RING Z i t ≠ []

/-- every BPM sees all particles in some turn, whatever the random numbers -/
def SeenInSomeTurn (B : BeamEnv K) (s : SC K) : Prop :=
  ∀ i ∈ s.ORD.BPM, ∃ t < s.INJ.nTurns, ∀ z w Z, BunchFrom B s.INJ z w Z → AllArrive (B.track s.RING Z i t) ∧
    ∀ e, BpmAt s.RING (noiseName s) i e → 2 * |e.sum| ≤ s.INJ.beamLostAt

/-- there is a BPM among the requested ones which no particle reaches in any turn -/
def OutOfReach (B : BeamEnv K) (s : SC K) (req : Option (List Nat)) : Prop :=
  ∃ i ∈ s.ORD.BPM, (∀ l, req = some l → i ∈ l) ∧
    ∀ z w Z, BunchFrom B s.INJ z w Z → ∀ t < s.INJ.nTurns, ∀ p ∈ B.track s.RING Z i t, p.1 = none

/-- the reading of a BPM without noise: (rotated position - offset) * (1 + calibration error) -/
def quietReading (cosSin : K → K × K) (e : BpmErr K) (P : List (Option K × Option K)) : K × K :=
  (((rolled (cosSin e.roll) (centre P)).1 - e.offset.1) * (1 + e.cal.1), ((rolled (cosSin e.roll) (centre P)).2 - e.offset.2) * (1 + e.cal.2))

/-- the horizontal (0) or vertical (1) component -/
def ofPlane (p : Fin 2) (v : K × K) : K := if p = 0 then v.1 else v.2

/-- the beam is the same in every shot: a closed orbit, or a single particle injected without jitter -/
def SameEveryShot (s : SC K) : Prop :=
  s.INJ.trackMode = "ORB" ∨ (s.INJ.nParticles = 1 ∧ ∀ k < 6, coef s.INJ.randomInjectionZ k = 0)

/-- what BPM `i` sees of such a beam in turn `t` -/
def steadySeen (B : BeamEnv K) (s : SC K) (i t : Nat) : List (Option K × Option K) := seenAt B s (B.postFun [s.INJ.Z0]) i t

/-- the BPM `i` has the errors `e`, its signal cannot vanish, and all particles reach it in every turn -/
structure AlwaysSeen (B : BeamEnv K) (s : SC K) (i : Nat) (e : BpmErr K) : Prop where
  errors : BpmAt s.RING (noiseName s) i e
  signal : 2 * |e.sum| < 1
  visible : 2 * |e.sum| ≤ s.INJ.beamLostAt
  arrives : ∀ t < s.INJ.nTurns, AllArrive (steadySeen B s i t)

end PySC.Spec
