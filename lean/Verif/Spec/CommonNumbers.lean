import Verif.Spec.Beam
/-
Readings of two machines taken with the same random numbers (C94).
-/
namespace PySC.Spec
variable {K : Type} [Field K] [LinearOrder K]

/-- Same registered BPMs, same injection and measurement settings, and the random generator in the same state.  The lattices may be
different. -/
structure SameSettings (s t : SC K) : Prop where
  bpms : s.ORD.BPM = t.ORD.BPM
  inj : s.INJ = t.INJ
  rng : s.rng = t.rng

/-- the mean sum signal of the shots at the BPM number `b` (ordinate `i`) in turn `t`, lost beam counting as zero -/
noncomputable def signalAt (B : BeamEnv K) (s : SC K) (e : Nat → BpmErr K) (Z : Nat → List (List K)) (z : Nat × ZIx → K) (b t i : Nat) : K :=
  (((shotsAt B s e Z z b t i).filterMap id).map Prod.snd).sum / (s.INJ.nShots : K)

/-- `out` is the reading of machine `s` made with the bunches `Z` (one for each shot) and the random numbers `z` (for each shot, plane
or sum signal, BPM and turn): the mean over the shots for each turn and BPM; in 'PORB' mode the mean of those over the turns, weighted with
the sum signals -/
def MadeWith (B : BeamEnv K) (s : SC K) (ords : List Nat) (Z : Nat → List (List K)) (z : Nat × ZIx → K) (out : Reading K) : Prop :=
  ∃ e : Nat → BpmErr K,
    (∀ b i, ords[b]? = some i → BpmAt s.RING (if s.INJ.trackMode = "ORB" then "NoiseCO" else "Noise") i (e b)) ∧
    (s.INJ.trackMode ≠ "PORB" → out.x.length = s.INJ.nTurns * ords.length ∧ out.y.length = s.INJ.nTurns * ords.length ∧
      ∀ b t i, ords[b]? = some i → t < s.INJ.nTurns →
        out.x[t * ords.length + b]? = some ((shotMean (shotsAt B s e Z z b t i)).map Prod.fst) ∧
        out.y[t * ords.length + b]? = some ((shotMean (shotsAt B s e Z z b t i)).map Prod.snd) ∧
        out.sums[t * ords.length + b]? = some (signalAt B s e Z z b t i)) ∧
    (s.INJ.trackMode = "PORB" → out.x.length = ords.length ∧ out.y.length = ords.length ∧
      ∀ b i, ords[b]? = some i →
        out.x[b]? = some (turnMean ((List.range s.INJ.nTurns).map (fun t =>
          ((shotMean (shotsAt B s e Z z b t i)).map Prod.fst, signalAt B s e Z z b t i)))) ∧
        out.y[b]? = some (turnMean ((List.range s.INJ.nTurns).map (fun t =>
          ((shotMean (shotsAt B s e Z z b t i)).map Prod.snd, signalAt B s e Z z b t i)))) ∧
        out.sums[b]? = some (((List.range s.INJ.nTurns).map (fun t => signalAt B s e Z z b t i)).sum / (s.INJ.nTurns : K)))

/-- a bunch which may be injected with the given settings -/
def Injected (E : Env K) (B : BeamEnv K) (inj : Inj K) (Z : List (List K)) : Prop :=
  ∃ u u' : SC K, u.INJ = inj ∧ generateBunches E B none u = .ok Z u'

/-- all particles arrive, and there are some -/
def AllArrive (P : List (Option K × Option K)) : Prop := P ≠ [] ∧ ∀ p ∈ P, p.1.isSome = true ∧ p.2.isSome = true

end PySC.Spec
