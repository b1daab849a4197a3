import Verif.Spec.Setpoints
import Verif.Spec.Errors
import Verif.Spec.Rf
import Verif.Model.Response
/-
Vocabulary for response matrices (C52-C54).
-/
namespace PySC.Spec
variable {K : Type} [Field K] [LinearOrder K]

/-- is the corrector a thin one? -/
def thin (r : Ring K) (i : Nat) : Prop := r.attr i "PassMethod" = some (.str "CorrectorPass")

open Classical in
/-- the attribute by which the corrector kicks in one plane -/
noncomputable def kickAttr (r : Ring K) (i : Nat) (skew : Bool) : String := if thin r i then "KickAngle" else "Polynom" ++ plane skew

open Classical in
/-- its entry in question -/
noncomputable def kickIndex (r : Ring K) (i : Nat) (skew : Bool) : Nat := if thin r i ∧ skew = true then 1 else 0

/-- the kick a particle gets from element `i` of a lattice: positive horizontal kicks need a negative field -/
noncomputable def realKick (r : Ring K) (i : Nat) (skew : Bool) : K :=
  coef (vecAt r i (kickAttr r i skew)) (kickIndex r i skew) * kickFactor r i skew

/-- `r'` is the lattice `r` with the kick of element `i` in one plane changed by `d`, everything else being the same -/
structure Kicked (r r' : Ring K) (i : Nat) (skew : Bool) (d : K) : Prop where
  len : r'.length = r.length
  kick : realKick r' i skew = realKick r i skew + d
  other : ∀ j a, (j ≠ i ∨ a ≠ kickAttr r i skew) → r'.attr j a = r.attr j a
  rest : ∃ v v', r.attr i (kickAttr r i skew) = some (.vec v) ∧ r'.attr i (kickAttr r i skew) = some (.vec v') ∧
    v'.length = v.length ∧ ∀ k, k ≠ kickIndex r i skew → coef v' k = coef v k

/-- `r'` is the lattice `r` with the frequencies of the given cavities changed by `d`, everything else being the same -/
structure Detuned (r r' : Ring K) (cavs : List Nat) (d : K) : Prop where
  len : r'.length = r.length
  cav : ∀ i ∈ cavs, ∃ f, r.attr i "Frequency" = some (.num f) ∧ r'.attr i "Frequency" = some (.num (f + d))
  other : ∀ j a, (j ∉ cavs ∨ a ≠ "Frequency") → r'.attr j a = r.attr j a

/-- where a tracked particle (in 'ORB' mode the closed orbit) is: (x, y) at a reference point in a turn -/
def position (B : BeamEnv K) (mode : String) (Z0 : List K) (r : Ring K) (ref turn : Nat) : Option K × Option K :=
  if mode = "ORB" then B.orbit r ref else (B.track r [Z0] ref turn).headD (none, none)

/-- coordinate of one plane -/
def inPlane {α : Type} (vert : Bool) (p : α × α) : α := if vert then p.2 else p.1

/-- finite difference of two coordinates, missing if one of them is -/
def quotient (d : K) (y x : Option K) : Option K := y.bind (fun y => x.map (fun x => (y - x) / d))

/-- number of the row for BPM number `b` of `nb` in turn `t` of `nt` in one plane: all of x before all of y, turn by turn -/
def rowOf (nb nt : Nat) (vert : Bool) (t b : Nat) : Nat := (if vert then nb * nt else 0) + t * nb + b

/-- number of turns in the response matrix -/
def turnsOf (mode : String) (nTurns : Nat) : Nat := if mode = "ORB" then 1 else nTurns

/-- the column is the finite difference between the coordinates in the lattices `r` and `r'` -/
structure Difference (B : BeamEnv K) (mode : String) (Z0 : List K) (nt : Nat) (bpms : List Nat) (d : K) (r r' : Ring K)
    (col : List (Option K)) : Prop where
  length : col.length = 2 * bpms.length * nt
  entry : ∀ vert t b ref, t < nt → bpms[b]? = some ref → col[rowOf bpms.length nt vert t b]? =
    some (quotient d (inPlane vert (position B mode Z0 r' ref t)) (inPlane vert (position B mode Z0 r ref t)))

/-- the correctors in the order of the columns: horizontal ones first, with the plane -/
def columnsOf (cms : List Nat × List Nat) : List (Bool × Nat) := cms.1.map (fun c => (false, c)) ++ cms.2.map (fun c => (true, c))

end PySC.Spec

namespace PySC.Spec
variable {K : Type} [Field K] [LinearOrder K]

/-- element `i` has set-points of both kinds -/
def hasSetpoints (r : Ring K) (i : Nat) : Prop := (r.attr i "SetPointA").isSome ∧ (r.attr i "SetPointB").isSome

/-- RF cavities are registered and element `i` is one -/
def isCavity (s : SC K) (i : Nat) : Prop := s.ORD.RF ≠ [] ∧ (s.RING.attr i "Frequency").isSome

/-- The lattice `m` is the model of the machine `s`: multipoles are those of the set-points, without dipole components, the fields of
cavities are their set-points, and everything else is as designed. -/
structure IsModel (s : SC K) (m : Ring K) : Prop where
  len : m.length = s.RING.length
  multipoles : ∀ i < m.length, hasSetpoints s.RING i → ∀ skew, ∃ v, m.attr i ("Polynom" ++ plane skew) = some (.vec v) ∧
    v.length = (vecAt s.RING i ("SetPoint" ++ plane skew)).length ∧ ∀ k, coef v k = if k = 0 then 0 else setpoint s.RING i skew k
  cavities : ∀ i < m.length, isCavity s i → ∀ f ∈ ["Voltage", "Frequency", "TimeLag"], ∃ x, s.RING.attr i (f ++ "SetPoint") = some x ∧
    m.attr i f = some x
  other : ∀ i < m.length, ∀ a, (hasSetpoints s.RING i → a ∉ ["PolynomA", "PolynomB"]) →
    (isCavity s i → a ∉ ["Voltage", "Frequency", "TimeLag"]) → m.attr i a = s.IDEALRING.attr i a

/-- the dipole components of all set-points have been lost, nothing else has changed -/
structure DipolesLost (s s' : SC K) : Prop where
  rest : Frame (fun i a => hasSetpoints s.RING i ∧ a ∈ ["SetPointA", "SetPointB"]) s s'
  lost : ∀ i, hasSetpoints s.RING i → ∀ skew, ∃ x v, s.RING.attr i ("SetPoint" ++ plane skew) = some (.vec (x :: v)) ∧
    s'.RING.attr i ("SetPoint" ++ plane skew) = some (.vec (0 :: v))

/-- element `i` of the lattice can be kicked: its kick is stored and (unless it is thin) it has a length -/
def CanKick (r : Ring K) (i : Nat) (skew : Bool) : Prop :=
  (∃ p, r.attr i "PassMethod" = some (.str p)) ∧
  (∃ v, r.attr i (kickAttr r i skew) = some (.vec v) ∧ kickIndex r i skew < v.length) ∧
  (¬ thin r i → ∃ l, r.attr i "Length" = some (.num l) ∧ l ≠ 0)

end PySC.Spec
