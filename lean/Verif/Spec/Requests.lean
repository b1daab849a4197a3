import Verif.Spec.History
/-
Which magnets and requests are in order, so that no call needs to fail (C76).
-/
namespace PySC.Spec
variable {K : Type} [Field K] [LinearOrder K] [FloorRing K]
open Py

/-- number of entries of an array -/
def arrLen (r : Ring K) (i : Nat) (a : String) : Nat :=
  match r.attr i a with
  | some (.vec v) => v.length
  | _ => 0

/-- an element which has a length and is not a drift (the lengths of drifts change with the circumference) -/
def HasLength (r : Ring K) (i : Nat) : Prop :=
  (∃ L, L ≠ 0 ∧ r.attr i "Length" = some (.num L)) ∧ r.attr i "PassMethod" ≠ some (.str "DriftPass")

/-- an element with a bending angle and a length -/
def Bends (r : Ring K) (i : Nat) : Prop := (∃ x, r.attr i "BendingAngle" = some (.num x)) ∧ HasLength r i

/-- a combined function bending magnet -/
def Combined (r : Ring K) (i : Nat) : Prop :=
  (r.attr i "BendingAngle").isSome ∧ r.attr i "CombinedFunction" = some (.flag true)

/-- the element `tgt` can take the field of the magnet `src`: its multipole errors are arrays, errors proportional to a component of the
main field refer to components which exist, and bending errors meet a bending magnet -/
structure TakesField (r : Ring K) (src tgt : Nat) : Prop where
  inRing : tgt < r.length
  offsets : ∀ ab ∈ ["A", "B"], r.attr tgt ("Polynom" ++ ab ++ "Offset") = none ∨ HasVec r tgt ("Polynom" ++ ab ++ "Offset")
  systematic : ∀ t ∈ ["A", "B"], ∀ ab ∈ ["A", "B"], r.attr tgt ("SysPol" ++ t ++ "From" ++ ab) = none ∨
    ∃ d, r.attr tgt ("SysPol" ++ t ++ "From" ++ ab) = some (.multip d) ∧ ∀ ne ∈ d, ne.1 < arrLen r src ("SetPoint" ++ ab)
  bends : (r.attr src "BendingAngleError").isSome ∨ Combined r src → Bends r tgt

/-- a magnet whose field can be computed: arrays of set-points and nominal fields, calibration errors which are not longer, and, for
combined function magnets, a nominal gradient and its calibration error -/
structure MagnetReady (r : Ring K) (i : Nat) : Prop where
  setpoints : ∀ ab ∈ ["A", "B"], HasVec r i ("SetPoint" ++ ab) ∧ 0 < arrLen r i ("SetPoint" ++ ab)
  calibrations : ∀ ab ∈ ["A", "B"], HasVec r i ("CalError" ++ ab) ∧ arrLen r i ("CalError" ++ ab) ≤ arrLen r i ("SetPoint" ++ ab)
  nominal : ∀ ab ∈ ["A", "B"], HasVec r i ("NomPolynom" ++ ab) ∧ arrLen r i ("NomPolynom" ++ ab) = arrLen r i ("SetPoint" ++ ab)
  pass : ∃ p, r.attr i "PassMethod" = some (.str p)
  angleError : r.attr i "BendingAngleError" = none ∨ ∃ x, r.attr i "BendingAngleError" = some (.num x)
  flag : r.attr i "CombinedFunction" = none ∨ ∃ b, r.attr i "CombinedFunction" = some (.flag b)
  combined : Combined r i → 2 ≤ arrLen r i "CalErrorB" ∧ ∃ v x, r.attr i "NomPolynomB" = some (.vec v) ∧ v[1]? = some x ∧ x ≠ 0
  self : TakesField r i i
  children : r.attr i "MasterOf" = none ∨ ∃ l, r.attr i "MasterOf" = some (.ords l) ∧ ∀ c ∈ l, TakesField r i c

/-- a magnet which can be used as a corrector in this plane -/
structure CorrectorReady (r : Ring K) (i : Nat) (skewness : Bool) : Prop where
  magnet : MagnetReady r i
  length : r.attr i "PassMethod" = some (.str "CorrectorPass") ∨ HasLength r i
  limit : r.attr i "CMlimit" = none ∨ ∃ l, r.attr i "CMlimit" = some (.lims l) ∧ (if skewness then 1 else 0) < l.length

/-- a request for known values of a known method: one value, or one per element -/
def Fits (method : String) (n : Nat) (sp : NpArr K) : Prop :=
  method ∈ ["abs", "rel", "add"] ∧ (sp.vals.length = 1 ∨ sp.vals.length = n)

/-- the component exists, the skew limit is a limit, and where the bending angle is to be compensated, it can be -/
structure ComponentReady (s : SC K) (i : Nat) (skewness : Bool) (order : Nat) (dipComp : Bool) : Prop where
  magnet : MagnetReady s.RING i
  component : order < arrLen s.RING i ("SetPoint" ++ if skewness then "A" else "B")
  limit : s.RING.attr i "SkewQuadLimit" = none ∨ (∃ l, s.RING.attr i "SkewQuadLimit" = some (.lim l)) ∨
    ∃ x, s.RING.attr i "SkewQuadLimit" = some (.num x)
  angle : dipComp = true → order = 1 → s.RING.attr i "BendingAngle" = none ∨ ∃ x, s.RING.attr i "BendingAngle" = some (.num x)
  compensation : dipComp = true → order = 1 → i ∈ s.ORD.HCM → (s.RING.attr i "BendingAngle").isSome → CorrectorReady s.RING i false ∧
    1 < arrLen s.RING i "SetPointB" ∧ ∃ v x, s.RING.attr i "NomPolynomB" = some (.vec v) ∧ v[1]? = some x ∧ x ≠ 0

/-- calls which operate the machine: everything but registrations, multipole errors, `apply_errors` and switching of cavities and
radiation -/
def _root_.PySC.Spec.Call.IsOperation : Call K → Prop
  | .register _ => False
  | .systematicMultipoles .. => False
  | .randomMultipoles .. => False
  | .applyErrors _ => False
  | .switches _ => False
  | _ => True

/-- the registered uncertainties fit the magnets: no more calibration errors than components, for combined function magnets one for
the gradient, and single numbers for the bending angle and for cavities -/
structure FittingErrors (s : SC K) : Prop where
  calibrations : ∀ i ∈ s.ORD.Magnet, ∀ ab ∈ ["A", "B"], ∀ v, sigma s.SIG.Magnet i ("CalError" ++ ab) = some v →
    ∃ w, (v = .vec w ∨ ∃ c, v = .pair (.vec w) c) ∧ w.length ≤ arrLen s.RING i ("SetPoint" ++ ab) ∧
      (Combined s.RING i → ab = "B" → 2 ≤ w.length)
  angles : ∀ i ∈ s.ORD.Magnet, ∀ v, sigma s.SIG.Magnet i "BendingAngle" = some v →
    (∃ x, v = .num x ∨ ∃ c, v = .pair (.num x) c) ∧ ∀ t, (t = i ∨ ∃ l, s.RING.attr i "MasterOf" = some (.ords l) ∧ t ∈ l) → Bends s.RING t
  cavities : ∀ i ∈ s.ORD.RF, ∀ n v, sigma s.SIG.RF i n = some v → ∃ x, v = .num x ∨ ∃ c, v = .pair (.num x) c

/-- a session on a machine: operations and applications of errors, each with any outcome, exceptions included -/
inductive Session (W : World K) : SC K → SC K → Prop
  | start (s : SC K) : Session W s s
  | operation {s t : SC K} (h : Session W s t) (c : Call K) (hc : c.IsOperation) : Session W s (c.run W t).state
  | errors {s t : SC K} (h : Session W s t) (n : K) : Session W s (applyErrors W.E n t).state

/-- a magnet as it comes from a lattice file: non-empty polynomials, a pass method, no errors attached; a bending magnet has a length and
a gradient -/
structure RawMagnet (r : Ring K) (i : Nat) : Prop where
  poly : ∀ ab ∈ ["A", "B"], ∃ p, r.attr i ("Polynom" ++ ab) = some (.vec p) ∧ p ≠ []
  pass : ∃ p, r.attr i "PassMethod" = some (.str p)
  bend : (r.attr i "BendingAngle").isSome → Bends r i ∧ ∃ v x, r.attr i "PolynomB" = some (.vec v) ∧ v[1]? = some x ∧ x ≠ 0
  clean : ∀ n ∈ ["PolynomAOffset", "PolynomBOffset", "SysPolAFromA", "SysPolAFromB", "SysPolBFromA", "SysPolBFromB", "BendingAngleError",
    "CombinedFunction", "MasterOf", "CMlimit", "SkewQuadLimit"], r.attr i n = none

end PySC.Spec
