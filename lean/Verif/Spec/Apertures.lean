import Verif.Model.Apertures
/-
Vocabulary for apertures (C55).
-/
namespace PySC.Spec
variable {K : Type} [Field K] [LinearOrder K]

/-- the lower end survives, the upper one does not -/
def Brackets (alive : K → Bool) (l : K × K) : Prop := alive l.1 = true ∧ alive l.2 = false

/-- length of an interval given by its ends in any order -/
def extent (l : K × K) : K := |l.2 - l.1|

/-- the interval `l'` is part of the interval `l` -/
def PartOf (l' l : K × K) : Prop := min l.1 l.2 ≤ min l'.1 l'.2 ∧ max l'.1 l'.2 ≤ max l.1 l.2

/-- tracking as it is meant to be used: always an answer -/
def answering (alive : K → Bool) : K → Except Err Bool := fun r => .ok (alive r)

/-- twice the signed area of the triangle between the origin and two points, given by radius and angle -/
noncomputable def cross (p q : ℝ × ℝ) : ℝ :=
  (p.1 * Real.cos p.2) * (q.1 * Real.sin q.2) - (q.1 * Real.cos q.2) * (p.1 * Real.sin p.2)

/-- area of the polygon through the given points and the origin (shoelace formula) -/
noncomputable def polygonArea (l : List (ℝ × ℝ)) : ℝ := ((l.zip l.tail).map (fun p => cross p.1 p.2)).sum / 2

end PySC.Spec
