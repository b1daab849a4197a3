import Verif.Spec.Response
import Verif.Spec.Restore
import Verif.Spec.Beam
/-
A machine without errors as seen by the beam, compared with the design lattice (C93).
-/
namespace PySC.Spec
variable {K : Type} [Field K] [LinearOrder K]

/-- attributes in which pySC keeps set-points, limits and errors; pyAT does not know them -/
def bookkeeping : List String :=
  ["SetPointA", "SetPointB", "NomPolynomA", "NomPolynomB", "CalErrorA", "CalErrorB", "CMlimit", "SkewQuadLimit", "MasterOf",
   "CombinedFunction", "BendingAngleError", "PolynomAOffset", "PolynomBOffset", "SysPolAFromA", "SysPolAFromB", "SysPolBFromA",
   "SysPolBFromB", "MagnetOffset", "MagnetRoll", "SupportOffset", "SupportRoll", "Noise", "NoiseCO", "Offset", "Roll", "CalError",
   "SumError", "VoltageSetPoint", "VoltageOffset", "VoltageCalError", "FrequencySetPoint", "FrequencyOffset", "FrequencyCalError",
   "TimeLagSetPoint", "TimeLagOffset", "TimeLagCalError", "GirderOffset", "GirderRoll", "PlinthOffset", "PlinthRoll",
   "SectionOffset", "SectionRoll"]

/-- the beam notices attribute `a` of element `i`: thin correctors kick by their `KickAngle`, not by multipoles -/
def Noticed (r : Ring K) (i : Nat) (a : String) : Prop :=
  a ∉ bookkeeping ∧ ¬ (thin r i ∧ a ∈ ["PolynomA", "PolynomB", "MaxOrder"])

/-- a coordinate transformation which does nothing, or is not there -/
def NoTransformation : Option (Attr K) → Prop
  | none => True
  | some (.vec v) => v.length = 6 ∧ ∀ k, coef v k = 0
  | some (.mat m) => m.length = 6 ∧ ∀ i j, i < 6 → coef (m.getD i []) j = if i = j then 1 else 0
  | _ => False

/-- the two lattices are the same for the beam -/
structure SameOptics (r r' : Ring K) : Prop where
  len : r.length = r'.length
  attr : ∀ i a, Noticed r i a → r.attr i a = r'.attr i a ∨
    (a ∈ ["T1", "T2", "R1", "R2"] ∧ NoTransformation (r.attr i a) ∧ NoTransformation (r'.attr i a))

/-- What is assumed of particle tracking: it depends on nothing but the optics, a single particle stays a single particle, a particle
is lost in both planes or not at all, and a rotation by zero does nothing. -/
structure TrueTracking (B : BeamEnv K) : Prop where
  orbit : ∀ r r', SameOptics r r' → B.orbit r = B.orbit r'
  track : ∀ r r', SameOptics r r' → B.track r = B.track r'
  one : ∀ r Z ref t, ∃ p, B.track r [Z] ref t = [p]
  wholeOrbit : ∀ r ref, (B.orbit r ref).1.isSome = (B.orbit r ref).2.isSome
  wholeTrack : ∀ r Z ref t, ∀ p ∈ B.track r Z ref t, p.1.isSome = p.2.isSome
  level : B.cosSin 0 = (1, 0)

/-- Neither beam nor BPMs notice an error: the lattice has the optics of the design, and the BPMs have no errors and no noise. -/
structure Faultless (s : SC K) : Prop where
  optics : SameOptics s.RING s.IDEALRING
  bpms : ∀ i ∈ s.ORD.BPM, ∀ noise ∈ ["Noise", "NoiseCO"], BpmAt s.RING noise i noBpmErr
  lost : 0 ≤ s.INJ.beamLostAt
  shots : 0 < s.INJ.nShots
  six : s.INJ.randomInjectionZ.length = 6

/-- a single particle is injected, always the same -/
structure SteadyInjection (B : BeamEnv K) (s : SC K) : Prop where
  jitter : s.INJ.randomInjectionZ = List.replicate 6 0
  six : s.INJ.Z0.length = 6
  single : s.INJ.nParticles = 1
  post : ∀ Z, B.postFun Z = Z

/-- the corrector does what it is told: no calibration error of the dipole component, no multipole errors which depend on it, and it
drives nothing else -/
structure TrueCorrector (r : Ring K) (i : Nat) (skew : Bool) : Prop where
  cal : ∃ v, r.attr i ("CalError" ++ plane skew) = some (.vec v) ∧
    v.length ≤ (vecAt r i ("SetPoint" ++ plane skew)).length ∧ coef v 0 = 0
  clean : ∀ a ∈ ["PolynomAOffset", "PolynomBOffset", "SysPolAFromA", "SysPolAFromB", "SysPolBFromA", "SysPolBFromB", "MasterOf"],
    r.attr i a = none

end PySC.Spec
