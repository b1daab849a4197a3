import Verif.Spec.Applicable
/-
Registrations which are in order for a given lattice (C88).
-/
namespace PySC.Spec
variable {K : Type} [Field K] [LinearOrder K] [FloorRing K]

/-- every name is given once, and all of them are known -/
def Known (kw : Kwargs K) (names : List String) : Prop := kw.keys.Nodup ∧ ∀ k ∈ kw.keys, k ∈ names

/-- an uncertainty which is a number -/
def NumberDrawable : Attr K → Prop
  | .num _ => True
  | .pair (.num _) c => c ≠ 0
  | _ => False

/-- an uncertainty which is an array -/
def ArrayDrawable : Attr K → Prop
  | .vec _ => True
  | .pair (.vec _) c => c ≠ 0
  | _ => False

/-- a limit: a number, or infinity -/
def IsLimit : Attr K → Prop
  | .num _ => True
  | .lim _ => True
  | _ => False

/-- element `c` of the lattice can be a child of magnet `i` -/
structure PossibleChild (r : Ring K) (i c : Nat) : Prop where
  inRing : c < r.length
  clean : ∀ n ∈ ["PolynomAOffset", "PolynomBOffset", "SysPolAFromA", "SysPolAFromB", "SysPolBFromA", "SysPolBFromB"], r.attr c n = none
  bends : (r.attr i "BendingAngle").isSome → Bends r c

/-- `v` can be the uncertainty `name` of magnet `i`: three numbers for offsets and angles, no more calibration errors than components
(for bending magnets at least two for the normal ones), and one number for the angle of a bending magnet -/
structure MagnetUncertainty (r : Ring K) (i : Nat) (name : String) (v : Attr K) : Prop where
  drawable : Drawable v
  placing : name ∈ ["MagnetOffset", "MagnetRoll"] → (uncertainties v).length = 3
  calibration : ∀ ab ∈ ["A", "B"], name = "CalError" ++ ab → ArrayDrawable v ∧ (uncertainties v).length ≤ arrLen r i ("Polynom" ++ ab) ∧
    ((r.attr i "BendingAngle").isSome → ab = "B" → 2 ≤ (uncertainties v).length)
  angle : name = "BendingAngle" → NumberDrawable v ∧ (r.attr i "BendingAngle").isSome

/-- an uncertainty for three directions, for the whole support or for both of its ends -/
def ForSupport : Attr K → Prop
  | .vec v => v.length = 3
  | .mat m => m.length = 2 ∧ ∀ row ∈ m, row.length = 3
  | .pair (.vec v) c => v.length = 3 ∧ c ≠ 0
  | .pair (.mat m) c => m.length = 2 ∧ (∀ row ∈ m, row.length = 3) ∧ c ≠ 0
  | _ => False

/-- is there an uncertainty for each end? -/
def ForBothEnds : Attr K → Prop
  | .mat _ => True
  | .pair (.mat _) _ => True
  | _ => False

/-- the uncertainty for the start of the support -/
def atStart : Attr K → List K
  | .vec v => v
  | .mat m => m.getD 0 []
  | .pair (.vec v) _ => v
  | .pair (.mat m) _ => m.getD 0 []
  | _ => []

/-- a support from `p.1` to `p.2` in the ring; neither the support nor the rest of the ring has length zero -/
structure PossibleSupport (r : Ring K) (p : Nat × Nat) : Prop where
  start : p.1 < r.length
  end_ : p.2 < r.length
  inside : ∃ k, min p.1 p.2 ≤ k ∧ k < max p.1 p.2 ∧ 0 < numAt r k "Length"
  outside : ∃ k < r.length, (k < min p.1 p.2 ∨ max p.1 p.2 ≤ k) ∧ 0 < numAt r k "Length"

structure GoodBpms (r : Ring K) (ords : List Nat) (kw : Kwargs K) : Prop where
  known : Known kw ["Noise", "NoiseCO", "Offset", "Roll", "CalError", "SumError"]
  inRing : ∀ i ∈ ords, i < r.length
  values : ∀ n v, kw.get? n = some v → n ∉ ["Noise", "NoiseCO"] → Drawable v

structure GoodCavities (r : Ring K) (ords : List Nat) (kw : Kwargs K) : Prop where
  known : Known kw ["FrequencySetpoint", "FrequencyOffset", "FrequencyCalError", "VoltageSetpoint", "VoltageOffset", "VoltageCalError",
    "TimeLagSetpoint", "TimeLagOffset", "TimeLagCalError"]
  fields : ∀ i ∈ ords, ∀ f ∈ ["Voltage", "Frequency", "TimeLag"], ∃ x, r.attr i f = some (.num x)
  values : ∀ n v, kw.get? n = some v → NumberDrawable v

structure GoodMagnets (r : Ring K) (ords : List Nat) (kw : Kwargs K) : Prop where
  known : Known kw ["HCM", "VCM", "CF", "SkewQuad", "MasterOf", "MagnetOffset", "MagnetRoll", "CalErrorA", "CalErrorB", "BendingAngle"]
  magnets : ∀ i ∈ ords, RawMagnet r i ∧ NumberOrNothing r i "Length"
  limits : ∀ n ∈ ["HCM", "VCM", "SkewQuad"], ∀ v, kw.get? n = some v → IsLimit v
  values : ∀ n ∈ ["MagnetOffset", "MagnetRoll", "CalErrorA", "CalErrorB", "BendingAngle"], ∀ v, kw.get? n = some v →
    ∀ i ∈ ords, MagnetUncertainty r i n v
  children : ∀ v, kw.get? "MasterOf" = some v → ords.Nodup ∧ ∃ m, v = .ordMat m ∧ ∀ row ∈ m, row.length = ords.length ∧
    ∀ ic ∈ ords.zip row, PossibleChild r ic.1 ic.2

structure GoodSupports (r : Ring K) (rows : List (List Nat)) (t : String) (kw : Kwargs K) : Prop where
  type : t ∈ ["Girder", "Plinth", "Section"]
  known : Known kw ["Offset", "Roll"]
  columns : ∃ starts ends, rows = [starts, ends] ∧ starts.length = ends.length ∧ starts ≠ [] ∧ ∀ p ∈ starts.zip ends, PossibleSupport r p
  values : ∀ n v, kw.get? n = some v → ForSupport v
  tilt : ∀ v, kw.get? "Offset" = some v → ForBothEnds v → ∀ w, kw.get? "Roll" = some w → ∀ k ∈ [1, 2], coef (atStart w) k = 0

/-- a call in order for the lattice `r` -/
def Good (r : Ring K) : RegCall K → Prop
  | .bpms ords kw => GoodBpms r ords kw
  | .cavities ords kw => GoodCavities r ords kw
  | .magnets ords kw => GoodMagnets r ords kw
  | .supports rows t kw => GoodSupports r rows t kw

/-- the supports of type `t` in a call -/
def supportsIn (t : String) : RegCall K → List (Nat × Nat)
  | .supports rows t' _ => if t' = t then (rows.getD 0 []).zip (rows.getD 1 []) else []
  | _ => []

/-- supports of one type, registered by one call or by several, have no end in common -/
def SupportsApart (calls : List (RegCall K)) : Prop :=
  ∀ t, ∀ c ∈ calls, ∀ c' ∈ calls, ∀ p ∈ supportsIn t c, ∀ q ∈ supportsIn t c', p = q ∨ EndsApart p q

/-- run the calls one after the other, an exception ends everything -/
def registerAll (calls : List (RegCall K)) : Py (SC K) Unit := Py.forEach calls RegCall.run

/-- the user sets the uncertainties of injection and circumference: `SC.SIG.staticInjectionZ = z; SC.SIG.Circumference = c` -/
def withInjection (s : SC K) (z : List K) (c : K) : SC K := { s with SIG := { s.SIG with staticInjectionZ := z, Circumference := c } }

end PySC.Spec
