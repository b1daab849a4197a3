import Verif.Model.Stats
import Verif.Spec.Rf
/-
Weighted statistics (C49).
-/
namespace PySC.Spec
variable {K : Type} [Field K] [LinearOrder K]

/-- errors that can be used to weight: numbers, none of them zero -/
def Usable (errors : Option (List (Option K))) (e : List K) : Prop := errors = some (e.map some) ∧ ∀ x ∈ e, x ≠ 0

/-- errors that are not given, not a number or zero -/
def Unusable (errors : Option (List (Option K))) : Prop := ∀ es, errors = some es → none ∈ es ∨ some 0 ∈ es

/-- sum of `f x e` over the data `x` and their errors `e` -/
def weigh (data e : List K) (f : K → K → K) : K := ((data.zip e).map (fun p => f p.1 p.2)).sum

/-- the data which are numbers, each with its error -/
def present (data es : List (Option K)) : List (K × Option K) := (data.zip es).filterMap (fun p => p.1.map (fun x => (x, p.2)))

end PySC.Spec
