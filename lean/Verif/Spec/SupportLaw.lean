import Verif.Spec.ErrorLaw
import Mathlib.Algebra.Order.Floor.Ring
/-
The random numbers behind the misalignments of supports as random variables (C107).
-/
namespace PySC.Spec

/-- what random numbers are drawn for: the uncertainty with the given name (such as `GirderOffset`) of a support, at its start or at its end -/
structure SupportDraw where
  type : String
  support : Nat × Nat
  name : String
  atEnd : Bool
deriving DecidableEq

/-- the end of a support has an uncertainty of this name of its own -/
def endHas (s : SC ℝ) (p : Nat × Nat) (name : String) : Bool := (sigma s.SIG.Support p.2 name).isSome

/-- the uncertainty behind a number: the one registered with the start of the support; numbers for the end are drawn only if an uncertainty of this
name is registered with the end as well -/
def supportUncertainty (s : SC ℝ) (x : SupportDraw) : Option (Attr ℝ) :=
  if x.type ∈ ["Section", "Plinth", "Girder"] ∧ x.support ∈ s.ORD.pairs x.type ∧ x.name ∈ [x.type ++ "Offset", x.type ++ "Roll"] ∧
      (x.atEnd = true → endHas s x.support x.name = true) then
    sigma s.SIG.Support x.support.1 x.name
  else none

/-- everything `apply_errors` draws random numbers for -/
abbrev Origin : Type := Cause ⊕ SupportDraw

/-- the uncertainty behind it -/
def uncertaintyBehind (s : SC ℝ) : Origin → Option (Attr ℝ)
  | .inl x => uncertaintyOf s x
  | .inr x => supportUncertainty s x

/-- the cut-off which applies to it -/
def cutoffBehind (nsigmas : ℝ) (s : SC ℝ) (x : Origin) : ℝ :=
  match uncertaintyBehind s x with
  | some sig => cutoffFor nsigmas sig
  | none => nsigmas

/-- the components of all uncertainties, those of supports included -/
def OriginComponent (s : SC ℝ) : Type := {p : Origin × Nat // ∃ sig, uncertaintyBehind s p.1 = some sig ∧ p.2 < numbersFor sig}

/-- a component of an uncertainty -/
def sigmaComponent : Attr ℝ → Nat → ℝ
  | .vec v, k => coef v k
  | .pair (.vec v) _, k => coef v k
  | _, _ => 0

/-- component `k` of what is drawn at one end of a support for the uncertainty with the given name: the uncertainty times a number of this end, or,
if the end has no such uncertainty, of the start; without any uncertainty it stays as it was -/
def drawnAt (s : SC ℝ) (z : SupportDraw → Nat → ℝ) (t : String) (p : Nat × Nat) (name : String) (atEnd : Bool) (k : Nat) : ℝ :=
  match sigma s.SIG.Support p.1 name with
  | some sig => sigmaComponent sig k * z ⟨t, p, name, atEnd && endHas s p name⟩ k
  | none => coef (vecAt s.RING (if atEnd then p.2 else p.1) name) k

/-- the distance from the start of a support to its end along the ring, beyond the origin if need be -/
noncomputable def span (r : Ring ℝ) (p : Nat × Nat) : ℝ :=
  circumference r * Int.fract ((sPos r p.2 - sPos r p.1) / circumference r)

/-- a support of length `len` with drawn angle `angle` and drawn offsets `a`, `b` of its ends: a drawn angle turns the support about its centre;
without one the angle is that of the line through the ends -/
def Tilted (angle a b len x a' b' : ℝ) : Prop :=
  if angle = 0 then x = (b - a) / len ∧ a' = a ∧ b' = b else x = angle ∧ a' = a - angle * len / 2 ∧ b' = b + angle * len / 2

/-- the misalignment of a support after `apply_errors` is made from the numbers `z` -/
structure SupportMadeFrom (s s' : SC ℝ) (z : SupportDraw → Nat → ℝ) (t : String) (p : Nat × Nat) : Prop where
  /-- roll about the beam axis -/
  roll : coef (vecAt s'.RING p.1 (t ++ "Roll")) 0 = drawnAt s z t p (t ++ "Roll") false 0
  /-- pitch and vertical offsets -/
  vertical : Tilted (drawnAt s z t p (t ++ "Roll") false 1) (drawnAt s z t p (t ++ "Offset") false 1) (drawnAt s z t p (t ++ "Offset") true 1)
    (span s'.RING p) (coef (vecAt s'.RING p.1 (t ++ "Roll")) 1) (coef (vecAt s'.RING p.1 (t ++ "Offset")) 1)
    (coef (vecAt s'.RING p.2 (t ++ "Offset")) 1)
  /-- yaw and horizontal offsets -/
  horizontal : Tilted (drawnAt s z t p (t ++ "Roll") false 2) (drawnAt s z t p (t ++ "Offset") false 0) (drawnAt s z t p (t ++ "Offset") true 0)
    (span s'.RING p) (coef (vecAt s'.RING p.1 (t ++ "Roll")) 2) (coef (vecAt s'.RING p.1 (t ++ "Offset")) 0)
    (coef (vecAt s'.RING p.2 (t ++ "Offset")) 0)
  /-- longitudinal offsets -/
  longitudinal : coef (vecAt s'.RING p.1 (t ++ "Offset")) 2 = drawnAt s z t p (t ++ "Offset") false 2 ∧
    coef (vecAt s'.RING p.2 (t ++ "Offset")) 2 = drawnAt s z t p (t ++ "Offset") true 2

/-- the misalignments of all supports with registered uncertainties are made from the numbers `z` -/
def SupportsMadeFrom (s s' : SC ℝ) (z : SupportDraw → Nat → ℝ) : Prop :=
  ∀ t ∈ ["Section", "Plinth", "Girder"], ∀ p ∈ s.ORD.pairs t, p.1 ≠ p.2 → p.1 ∈ s.SIG.Support.keys → SupportMadeFrom s s' z t p

end PySC.Spec
