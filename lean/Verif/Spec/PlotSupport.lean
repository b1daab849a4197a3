import Verif.Model.PlotSupport
import Verif.Spec.Supports
import Verif.Spec.Applicable
/-
Lines of a figure (C117).
-/
namespace PySC.Spec
variable {K : Type} [Field K] [LinearOrder K]

/-- a point lies on one of the lines -/
def Drawn (l : List (Seg K)) (x y : K) : Prop :=
  ∃ g ∈ l, ∃ t, 0 ≤ t ∧ t ≤ 1 ∧ x = g.x0 + t * (g.x1 - g.x0) ∧ y = g.y0 + t * (g.y1 - g.y0)

/-- a support begins or ends between two positions -/
def Touches (r : Ring K) (lim : K × K) (p : Nat × Nat) : Prop :=
  (lim.1 ≤ sPos r p.1 ∧ sPos r p.1 ≤ lim.2) ∨ (lim.1 ≤ sPos r p.2 ∧ sPos r p.2 ≤ lim.2)

/-- the ends of the support are elements that hold its offset and roll -/
def HasData (r : Ring K) (t : String) (p : Nat × Nat) : Prop :=
  HasVec3 r p.1 (t ++ "Offset") ∧ HasVec3 r p.2 (t ++ "Offset") ∧ HasVec3 r p.1 (t ++ "Roll")

/-- supports with some length -/
def Extended (r : Ring K) (p : Nat × Nat) : Prop := along r p p.1 ≠ along r p p.2

end PySC.Spec
