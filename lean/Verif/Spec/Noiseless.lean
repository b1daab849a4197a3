import Verif.Spec.Instruments
/-
Machines on which nothing is left to chance once their errors are there (C124).
-/
namespace PySC.Spec
variable {K : Type} [Field K] [LinearOrder K]

/-- the BPMs have neither noise nor errors of the sum signal, the injection does not jitter, and the beam has no size.  All other errors
may be present. -/
structure Noiseless (B : BeamEnv K) (s : SC K) : Prop where
  bpms : ∀ i ∈ s.ORD.BPM, s.RING.attr i "Noise" = some (.vec [0, 0]) ∧ s.RING.attr i "NoiseCO" = some (.vec [0, 0]) ∧
    s.RING.attr i "SumError" = some (.num 0)
  jitter : s.INJ.randomInjectionZ = List.replicate 6 0
  point : ∀ v ∈ (B.eig s.INJ.beamSize).1, v = 0

/-- the machines are the same, but not the state of the random number generator -/
def SameButGenerator (s t : SC K) : Prop := t = { s with rng := t.rng }

/-- truncated random numbers are always found -/
def Delivers (E : Env K) : Prop := ∀ cut : K, cut = 2 ∨ cut = 3 → ∀ n pos, ∃ p, randncFrom E cut n pos = .ok p

/-- changes of the injection settings which concern neither the size nor the jitter of the injected beam -/
def KeepsSize (f : Inj K → Inj K) : Prop := ∀ j, (f j).randomInjectionZ = j.randomInjectionZ ∧ (f j).beamSize = j.beamSize

/-- steps of a control room which change neither the size nor the jitter of the injected beam -/
def Step.KeepsSize : Step K → Prop
  | .call (.setInjection f) => Spec.KeepsSize f
  | _ => True

/-- the machines are the same, but neither the state of the random number generator nor the number of shots of a BPM reading, which is
not zero -/
def SameButShots (s t : SC K) : Prop :=
  t = { s with rng := t.rng, INJ := { s.INJ with nShots := t.INJ.nShots } } ∧ s.INJ.nShots ≠ 0 ∧ t.INJ.nShots ≠ 0

/-- changes of the injection settings which leave at least one shot, and for which no other setting depends on the number of shots -/
def KeepsShots (f : Inj K → Inj K) : Prop :=
  ∀ j, j.nShots ≠ 0 → (f j).nShots ≠ 0 ∧ ∀ n, n ≠ 0 → ∃ m, m ≠ 0 ∧ f { j with nShots := n } = { f j with nShots := m }

/-- steps of a control room which leave at least one shot, with no other setting depending on their number -/
def Step.KeepsShots : Step K → Prop
  | .call (.setInjection f) => Spec.KeepsShots f
  | _ => True

end PySC.Spec
