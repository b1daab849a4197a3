import Verif.Spec.Setpoints
import Verif.Spec.Errors
import Verif.Model.Tune
/-
Vocabulary for C46.
-/
namespace PySC.Spec
variable {K : Type} [Field K] [LinearOrder K] [FloorRing K]

/-- nominal quadrupole strength -/
def nominalQuad (r : Ring K) (i : Nat) : K := coef (vecAt r i "NomPolynomB") 1

/-- the two families of quadrupoles are set to the given multiples of their nominal strengths -/
def FamiliesAt (r : Ring K) (q : List Nat × List Nat) (f : K × K) : Prop :=
  (∀ o ∈ q.1, setpoint r o false 1 = f.1 * nominalQuad r o) ∧ (∀ o ∈ q.2, setpoint r o false 1 = f.2 * nominalQuad r o)

/-- what a scan of the quadrupoles `q` may change: their normal set-points and realised fields -/
def scanWrites (q : List Nat × List Nat) (i : Nat) (a : String) : Prop :=
  ((i ∈ q.1 ∨ i ∈ q.2) ∧ a = "SetPointB") ∨ a ∈ ["PolynomA", "PolynomB", "KickAngle", "MaxOrder"]

/-- of all set-points only those of the quadrupole component of `q` changed, and nothing but set-points, realised fields and
the random stream -/
structure OnlyQuads (q : List Nat × List Nat) (s s' : SC K) : Prop where
  frame : DrawFrame (scanWrites q) s s'
  other : ∀ i sk k, ¬ ((i ∈ q.1 ∨ i ∈ q.2) ∧ sk = false ∧ k = 1) → setpoint s'.RING i sk k = setpoint s.RING i sk k

/-- the factors of a grid point -/
def factorsAt (rel : List K × List K) (ind : Nat × Nat) (f : K × K) : Prop := rel.1[ind.1]? = some f.1 ∧ rel.2[ind.2]? = some f.2

/-- the entry was measured in the machine `s` with its quadrupoles set according to its grid point -/
def Measured (E : Env K) (B : BeamEnv K) (q : List Nat × List Nat) (rel : List K × List K) (np nt : Nat) (s : SC K)
    (p : ScanPoint K) : Prop :=
  ∃ f sm sm', factorsAt rel p.ind f ∧ OnlyQuads q s sm ∧ FamiliesAt sm.RING q f ∧
    beamTransmission E B (some np) (some nt) sm = .ok (p.turns, p.transmission) sm'

/-- fraction of particles left after the last turn -/
def transmitted (p : ScanPoint K) : K := coef p.transmission (p.transmission.length - 1)

/-- the latest entry for its grid point -/
def Latest (results : List (ScanPoint K)) (p : ScanPoint K) : Prop :=
  ∃ a b, results = a ++ p :: b ∧ ∀ x ∈ b, x.ind ≠ p.ind

end PySC.Spec
