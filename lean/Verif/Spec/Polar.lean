import Verif.Model.Polar
import Verif.Spec.Apertures
/-
Vocabulary for C110: the points of a dynamic aperture.
-/
namespace PySC.Spec

/-- the point of the plane with this radius and angle -/
noncomputable def place (p : ℝ × ℝ) : ℝ × ℝ := (p.1 * Real.cos p.2, p.1 * Real.sin p.2)

/-- the scan ends at the point where it began -/
def Closed (l : List (ℝ × ℝ)) : Prop := l.head?.map place = l.getLast?.map place

/-- shoelace formula for a polygon through points of the plane -/
noncomputable def shoelace (l : List (ℝ × ℝ)) : ℝ := ((l.zip l.tail).map (fun p => p.1.1 * p.2.2 - p.2.1 * p.1.2)).sum / 2

end PySC.Spec
