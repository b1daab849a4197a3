import Verif.Spec.Setpoints
import Verif.Spec.Errors
import Verif.Model.Bba
/-
Vocabulary for beam-based alignment (C41-C43, C71).
-/
namespace PySC.Spec
variable {K : Type} [Field K] [LinearOrder K]

/-- entry of a table, if there is one -/
def cellAt {α : Type} (t : List (List α)) (p j : Nat) : Option α := t[p]?.bind (fun row => row[j]?)

/-- a measurement is rejected if there is no result, if it is larger than 1.5 mm, or if it is smaller than 2.5 times its error
(a missing error is not held against it) -/
def Rejected (off err : Option K) : Prop :=
  off = none ∨ ∃ x, off = some x ∧ (15 / 10000 < |x| ∨ ∃ e, err = some e ∧ |x| < 5 / 2 * e)

/-- offset of a BPM in plane `p` -/
def bpmOffset (r : Ring K) (o p : Nat) : K := coef (vecAt r o "Offset") p

open Classical in
/-- sum of the accepted results for BPM `o` in plane `p` (a BPM should be listed at most once in each row) -/
noncomputable def acceptedSum (bpmOrds : List (List Nat)) (offs errs : List (List (Option K))) (o p : Nat) : K :=
  ((List.range (offs.getD p []).length).map (fun j =>
    if cellAt bpmOrds p j = some o ∧ ¬ Rejected ((cellAt offs p j).getD none) ((cellAt errs p j).getD none)
    then ((cellAt offs p j).getD none).getD 0 else 0)).sum

/-- position of the zero of a BPM relative to the centre of a magnet in plane `p` -/
def relativeOffset (r : Ring K) (bpm mag p : Nat) : K :=
  bpmOffset r bpm p + coef (vecAt r bpm "SupportOffset") p - coef (vecAt r mag "MagnetOffset") p
    - coef (vecAt r mag "SupportOffset") p

/-- the relative offsets of the unflagged entries of row `p` -/
def unflaggedOffsets (r : Ring K) (bpmOrds magOrds : List (List Nat)) (flags : List (List Bool)) (p : Nat) : List K :=
  (List.range (bpmOrds.getD p []).length).filterMap (fun j =>
    if cellAt flags p j = some true then none
    else some (relativeOffset r ((bpmOrds.getD p []).getD j 0) ((magOrds.getD p []).getD j 0) p))

end PySC.Spec

namespace PySC.Spec
variable {K : Type} [Field K] [LinearOrder K]

/-- model, registrations, uncertainties, errors and all set-points are the same; the realised fields and the random stream
may differ -/
structure SameMachine (s s' : SC K) : Prop where
  ideal : s'.IDEALRING = s.IDEALRING
  sig : s'.SIG = s.SIG
  ord : s'.ORD = s.ORD
  len : s'.RING.length = s.RING.length
  attr : ∀ i a, a ∉ ["SetPointA", "SetPointB", "PolynomA", "PolynomB", "KickAngle", "MaxOrder"] → s'.RING.attr i a = s.RING.attr i a
  setpoints : ∀ i skew k, setpoint s'.RING i skew k = setpoint s.RING i skew k

/-- nothing is left of a measurement: also the injection is as before -/
structure NoTrace (s s' : SC K) : Prop extends SameMachine s s' where
  inj : s'.INJ = s.INJ

/-- The component can be brought back to its present set-point: a skew quadrupole is set within its limit, and if the change
is compensated by a corrector winding of a bending magnet, this has no limit (and is not thin in disguise). -/
structure Restorable (s : SC K) (o : Nat) (skew : Bool) (order : Nat) (comp : Bool) : Prop where
  limit : skew = true → order = 1 → Lim.Nonneg (skewLimit s.RING o) ∧ Within (skewLimit s.RING o) (setpoint s.RING o skew order)
  bending : comp = true → order = 1 → numAt s.RING o "BendingAngle" ≠ 0 → o ∈ s.ORD.HCM →
    skew = false ∧ kickLimit s.RING o false = .inf ∧ kickFactor s.RING o false ≠ 0

end PySC.Spec

namespace PySC.Spec
variable {K : Type} [Field K] [LinearOrder K] [FloorRing K]

/-- `n` coordinates with position and angle of plane `p` changed by `d` -/
def shifted (z : List K) (p : Nat) (d : K × K) : List K :=
  (z.set (2 * p) (coef z (2 * p) + d.1)).set (2 * p + 1) (coef z (2 * p + 1) + d.2)

/-- a reading of all BPMs of the machine `s`, with position and angle of plane `p` at injection changed by `d` and one turn, has
numbers in plane `p` for all BPMs up to number `last` -/
def Reaches (E : Env K) (B : BeamEnv K) (s : SC K) (p last : Nat) (d : K × K) : Prop :=
  ∃ (n : Nat) (r : Reading K) (t : SC K) (v : List (Option K)),
    bpmReading E B none false { s with INJ := { s.INJ with Z0 := shifted s.INJ.Z0 p d, nTurns := 1 }, rng := n } = .ok r t ∧
    [r.x, r.y][p]? = some v ∧ v.length = s.ORD.BPM.length ∧ ∀ b ≤ last, b < v.length → (v.getD b none).isSome = true

end PySC.Spec
