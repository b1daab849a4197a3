import Verif.Model.PhaseSpace
import Verif.Spec.Supports
import Verif.Spec.Beam
/-
What the phase space figure is to show (C121).
-/
namespace PySC.Spec
variable {K : Type} [Field K] [LinearOrder K]

/-- coordinate `k`; missing coordinates and NaN are `none` -/
def coordinate (z : List (Option K)) (k : Nat) : Option K := z.getD k none

/-- by how much a particle in step with the cavity gets ahead per turn: `c h / f` minus the circumference; without
cavity nothing is subtracted -/
def SlipPerTurn (s : SC K) (x : K) : Prop :=
  ∃ cav, s.ORD.RF.head? = some cav ∧
    (s.RING.attr cav "PassMethod" = some (.str "RFCavityPass") →
      numAt s.RING cav "Frequency" ≠ 0 ∧
      x = 299792458 * numAt s.RING cav "HarmNumber" / numAt s.RING cav "Frequency" - circumference s.RING) ∧
    (s.RING.attr cav "PassMethod" ≠ some (.str "RFCavityPass") → x = 0)

/-- `p` is how a particle with the coordinates `z` (x, x', y, y', energy, path length) appears after being late by `late`:
micrometres and microradians, path length before energy, which is in percent; lost particles do not appear -/
def Appears (late : K) (z p : List (Option K)) : Prop :=
  (coordinate z 0 = none → ∀ k, coordinate p k = none) ∧
  (coordinate z 0 ≠ none → (∀ k < 4, coordinate p k = (coordinate z k).map (fun x => 1000000 * x)) ∧
    coordinate p 4 = (coordinate z 5).map (fun x => x - late) ∧
    coordinate p 5 = (coordinate z 4).map (fun x => 100 * x))

/-- there is a cavity, and if it is on its harmonic number and frequency are numbers, the frequency not being zero -/
def CavityKnown (s : SC K) : Prop :=
  ∃ cav, s.ORD.RF.head? = some cav ∧ ∃ pm, s.RING.attr cav "PassMethod" = some (.str pm) ∧
    (pm = "RFCavityPass" → ∃ h f, s.RING.attr cav "HarmNumber" = some (.num h) ∧ s.RING.attr cav "Frequency" = some (.num f) ∧ f ≠ 0)

/-- the particles of a figure: those of the user, or a bunch made with fresh random numbers -/
def ShownBunch (E : Env K) (B : BeamEnv K) (s t : SC K) (bunch : Option (List (List K))) (np : Option Nat) (Z : List (List K)) (n : Nat) : Prop :=
  match bunch with
  | some rows => t = s ∧ n = (rows.headD []).length ∧ Z.length = n ∧ ∀ i < n, ∀ k, (Z.getD i []).getD k 0 = (rows.getD k []).getD i 0
  | none => n = np.getD s.INJ.nParticles ∧ IsBunch B E.randn s.rng t.rng s.INJ n Z

end PySC.Spec
