import Verif.Model.Basic
import Mathlib.Algebra.Order.Ring.Rat
import Mathlib.Data.Rat.Floor
/-
A small concrete machine over the rational numbers, used to show that the hypotheses of the theorems are met by
non-trivial cases.
-/
namespace PySC.Example

def bpm : Elem ℚ := Elem.ofList
  [("FamName", .str "BPM"), ("PassMethod", .str "IdentityPass"), ("Length", .num 0),
   ("Noise", .vec [0, 0]), ("NoiseCO", .vec [0, 0]), ("Offset", .vec [1/1000, 0]), ("SupportOffset", .vec [0, 0]),
   ("Roll", .num 0), ("SupportRoll", .num 0), ("CalError", .vec [0, 0]), ("SumError", .num 0)]

/-- a thin corrector with a 2 mrad horizontal limit and no vertical limit -/
def cm : Elem ℚ := Elem.ofList
  [("FamName", .str "CM"), ("PassMethod", .str "CorrectorPass"), ("Length", .num 0),
   ("NomPolynomA", .vec [0]), ("NomPolynomB", .vec [0]), ("PolynomA", .vec [0]), ("PolynomB", .vec [0]),
   ("SetPointA", .vec [0]), ("SetPointB", .vec [1/1000]), ("CalErrorA", .vec [0]), ("CalErrorB", .vec [1/10]),
   ("KickAngle", .vec [0, 0]), ("CMlimit", .lims [.fin (2/1000), .inf])]

/-- a quadrupole with trim coils, a skew limit and one child magnet -/
def quad : Elem ℚ := Elem.ofList
  [("FamName", .str "QF"), ("PassMethod", .str "StrMPoleSymplectic4Pass"), ("Length", .num (1/2)),
   ("NomPolynomA", .vec [0, 0]), ("NomPolynomB", .vec [0, 2]), ("PolynomA", .vec [0, 0]), ("PolynomB", .vec [0, 2]),
   ("SetPointA", .vec [0, 0]), ("SetPointB", .vec [0, 2]), ("CalErrorA", .vec [0]), ("CalErrorB", .vec [1/10, 1/20]),
   ("PolynomBOffset", .vec [0, 0, 3]), ("SysPolBFromB", .multip [(1, [0, 0, 0, 1/100])]),
   ("CMlimit", .lims [.fin (1/100), .inf]), ("SkewQuadLimit", .num (1/10)), ("MasterOf", .ords [3])]

def child : Elem ℚ := Elem.ofList
  [("FamName", .str "QFc"), ("PassMethod", .str "StrMPoleSymplectic4Pass"), ("Length", .num (1/2)),
   ("PolynomA", .vec [0, 0]), ("PolynomB", .vec [0, 2]), ("PolynomAOffset", .vec [1/7])]

/-- a combined function dipole which is also a horizontal corrector -/
def dip : Elem ℚ := Elem.ofList
  [("FamName", .str "BM"), ("PassMethod", .str "BndMPoleSymplectic4Pass"), ("Length", .num 2),
   ("BendingAngle", .num (1/10)), ("BendingAngleError", .num (1/100)), ("CombinedFunction", .flag true),
   ("NomPolynomA", .vec [0, 0]), ("NomPolynomB", .vec [0, -1]), ("PolynomA", .vec [0, 0]), ("PolynomB", .vec [0, -1]),
   ("SetPointA", .vec [0, 0]), ("SetPointB", .vec [0, -1]), ("CalErrorA", .vec [0, 0]), ("CalErrorB", .vec [0, 1/20]),
   ("CMlimit", .lims [.fin 1, .fin 0])]

def cav : Elem ℚ := Elem.ofList
  [("FamName", .str "CAV"), ("PassMethod", .str "RFCavityPass"), ("Length", .num 0),
   ("Voltage", .num 0), ("Frequency", .num 0), ("TimeLag", .num 0),
   ("VoltageSetPoint", .num 1000), ("VoltageCalError", .num (1/100)), ("VoltageOffset", .num 0),
   ("FrequencySetPoint", .num 500), ("FrequencyCalError", .num 0), ("FrequencyOffset", .num 3),
   ("TimeLagSetPoint", .num 0), ("TimeLagCalError", .num 0), ("TimeLagOffset", .num 7)]

def drift : Elem ℚ := Elem.ofList
  [("FamName", .str "D"), ("PassMethod", .str "DriftPass"), ("Length", .num 3)]

def ring : Ring ℚ := [bpm, cm, quad, child, dip, cav, drift]

def inj : Inj ℚ where
  beamLostAt := 1
  Z0ideal := [0, 0, 0, 0, 0, 0]
  Z0 := [0, 0, 0, 0, 0, 0]
  beamSize := []
  randomInjectionZ := [0, 0, 0, 0, 0, 0]
  staticInjectionZ := [0, 0, 0, 0, 0, 0]
  nParticles := 1
  nTurns := 1
  nShots := 1
  trackMode := "TBT"

def sc : SC ℚ where
  RING := ring
  IDEALRING := ring
  INJ := inj
  SIG := ⟨[], [], [], [], [0, 0, 0, 0, 0, 0], [0, 0, 0, 0, 0, 0], 0⟩
  ORD := ⟨[0], [5], [1, 2, 4], [2], [1, 2, 4], [1, 2], [], [], []⟩
  rng := 0

/-- a lattice as it comes from the user, before any registration -/
def rawRing : Ring ℚ :=
  [Elem.ofList [("FamName", .str "BPM"), ("PassMethod", .str "IdentityPass"), ("Length", .num 0)],
   Elem.ofList [("FamName", .str "CM"), ("PassMethod", .str "CorrectorPass"), ("Length", .num 0),
     ("PolynomA", .vec [0]), ("PolynomB", .vec [0]), ("KickAngle", .vec [0, 0])],
   Elem.ofList [("FamName", .str "QF"), ("PassMethod", .str "StrMPoleSymplectic4Pass"), ("Length", .num (1/2)),
     ("PolynomA", .vec [0, 0]), ("PolynomB", .vec [0, 2, 1/3])],
   Elem.ofList [("FamName", .str "BM"), ("PassMethod", .str "BndMPoleSymplectic4Pass"), ("Length", .num 2),
     ("BendingAngle", .num (1/10)), ("PolynomA", .vec [0, 0]), ("PolynomB", .vec [0, -1])],
   Elem.ofList [("FamName", .str "CAV"), ("PassMethod", .str "RFCavityPass"), ("Length", .num 0),
     ("Voltage", .num 1000), ("Frequency", .num 500), ("TimeLag", .num 0)],
   Elem.ofList [("FamName", .str "GS"), ("PassMethod", .str "IdentityPass"), ("Length", .num 0)],
   Elem.ofList [("FamName", .str "D"), ("PassMethod", .str "DriftPass"), ("Length", .num 3)],
   Elem.ofList [("FamName", .str "GE"), ("PassMethod", .str "IdentityPass"), ("Length", .num 0)]]

end PySC.Example
