import Verif.Spec.Requests
import Verif.Spec.Errors
import Verif.Spec.Supports
import Verif.Spec.Rf
/-
Machines to which errors can be applied (C86).
-/
namespace PySC.Spec
variable {K : Type} [Field K] [LinearOrder K] [FloorRing K]

/-- an uncertainty from which an error can be drawn: a number or an array, possibly with a cut-off of its own, which is not zero -/
def Drawable : Attr K → Prop
  | .num _ => True
  | .vec _ => True
  | .pair (.num _) c => c ≠ 0
  | .pair (.vec _) c => c ≠ 0
  | _ => False

/-- the values of an uncertainty given as an array -/
def uncertainties : Attr K → List K
  | .vec v => v
  | .pair (.vec v) _ => v
  | _ => []

/-- an array of three numbers -/
def HasVec3 (r : Ring K) (i : Nat) (a : String) : Prop := ∃ x y z, r.attr i a = some (.vec [x, y, z])

/-- a number, if it is there at all -/
def NumberOrNothing (r : Ring K) (i : Nat) (a : String) : Prop := r.attr i a = none ∨ ∃ x, r.attr i a = some (.num x)

/-- a magnet which can be put in place: three offsets and three angles of its own -/
structure Placeable (r : Ring K) (i : Nat) : Prop where
  offset : HasVec3 r i "MagnetOffset"
  roll : HasVec3 r i "MagnetRoll"
  length : NumberOrNothing r i "Length"
  angle : NumberOrNothing r i "BendingAngle"

/-- a support of type `t` from `p.1` to `p.2` with three offsets at both ends, three angles, and three uncertainties for each of them; if
its ends have offset uncertainties of their own, pitch and yaw follow from them and have no uncertainties; neither the support nor the
rest of the ring has length zero -/
structure SupportInOrder (s : SC K) (t : String) (p : Nat × Nat) : Prop where
  start : p.1 < s.RING.length
  end_ : p.2 < s.RING.length
  startOffset : HasVec3 s.RING p.1 (t ++ "Offset")
  endOffset : HasVec3 s.RING p.2 (t ++ "Offset")
  roll : HasVec3 s.RING p.1 (t ++ "Roll")
  known : p.1 ∈ s.SIG.Support.keys → p.2 ∈ s.SIG.Support.keys
  uncertainty : ∀ a ∈ ["Offset", "Roll"], ∀ sig, sigma s.SIG.Support p.1 (t ++ a) = some sig →
    Drawable sig ∧ (uncertainties sig).length = 3
  tilt : (sigma s.SIG.Support p.2 (t ++ "Offset")).isSome → ∀ k ∈ [1, 2],
    match sigma s.SIG.Support p.1 (t ++ "Roll") with
    | some sig => coef (uncertainties sig) k = 0
    | none => coef (vecAt s.RING p.1 (t ++ "Roll")) k = 0
  inside : ∃ k, min p.1 p.2 ≤ k ∧ k < max p.1 p.2 ∧ 0 < numAt s.RING k "Length"
  outside : ∃ k < s.RING.length, (k < min p.1 p.2 ∨ max p.1 p.2 ≤ k) ∧ 0 < numAt s.RING k "Length"

/-- two supports without a common end -/
def EndsApart (p q : Nat × Nat) : Prop := p.1 ≠ q.1 ∧ p.1 ≠ q.2 ∧ p.2 ≠ q.1 ∧ p.2 ≠ q.2

/-- a machine in order: registered elements are in the ring and ready to be used, all uncertainties fit them, supports are in order, and
the uncertainty of the circumference is not larger than what the drifts can take up -/
structure Applicable (n : K) (s : SC K) : Prop where
  cutOff : n ≠ 0
  registered : WellRegistered s.SIG
  fitting : FittingErrors s
  bpms : ∀ i ∈ s.ORD.BPM, i < s.RING.length
  bpmErrors : ∀ i ∈ s.ORD.BPM, ∀ name sig, sigma s.SIG.BPM i name = some sig → name ∉ ["Noise", "NoiseCO"] → Drawable sig
  cavities : ∀ i ∈ s.ORD.RF, i < s.RING.length ∧ CavityReady s.RING i
  cavityErrors : ∀ i ∈ s.ORD.RF, ∀ name sig, sigma s.SIG.RF i name = some sig → Drawable sig
  magnets : ∀ i ∈ s.ORD.Magnet, MagnetReady s.RING i ∧ Placeable s.RING i
  magnetErrors : ∀ i ∈ s.ORD.Magnet, ∀ name sig, sigma s.SIG.Magnet i name = some sig → Drawable sig ∧
    (name ∈ ["MagnetOffset", "MagnetRoll"] → (uncertainties sig).length = 3)
  injection : s.SIG.staticInjectionZ.length = 6 ∧ s.INJ.Z0ideal.length = 6
  forward : Forward s.RING
  circumference : (∀ i < s.RING.length, ¬ DriftAt s.RING i) ∨
    |s.SIG.Circumference| * |n| * circumference s.RING < driftLength s.RING
  supports : ∀ t ∈ ["Section", "Plinth", "Girder"], ∀ p ∈ s.ORD.pairs t, SupportInOrder s t p
  apart : ∀ t ∈ ["Section", "Plinth", "Girder"], (s.ORD.pairs t).Pairwise EndsApart

/-- a generator which never stops producing small numbers, as every normal distribution does -/
def KeepsDrawing (randn : Nat → K) : Prop := ∀ c : K, c ≠ 0 → ∀ k, ∃ j, k ≤ j ∧ |randn j| ≤ |c|

/-- what a magnet has of its own and what its supports contribute, together -/
def together (r : Ring K) (i : Nat) (what : String) (k : Nat) : K :=
  coef (vecAt r i ("Magnet" ++ what)) k + coef (vecAt r i ("Support" ++ what)) k

/-- in machine `t` there is a magnet whose transformation can not be computed from its offsets (x, y, z) and angles (pitch, yaw, roll) -/
def Refused (E : Env K) (e : Err) (t : SC K) : Prop :=
  ∃ i ∈ t.ORD.Magnet, E.transform (numAt t.RING i "Length") (numAt t.RING i "BendingAngle")
    [together t.RING i "Offset" 0, together t.RING i "Offset" 1, together t.RING i "Offset" 2]
    [together t.RING i "Roll" 1, together t.RING i "Roll" 2, together t.RING i "Roll" 0] = .error e

end PySC.Spec
