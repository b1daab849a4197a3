import Verif.Spec.Beam
/-
Reading of all elements (C75).
-/
namespace PySC.Spec
variable {K : Type} [Field K] [LinearOrder K]

/-- a particle without horizontal position has no vertical one either -/
def lostWhole (p : Option K × Option K) : Option K × Option K :=
  match p.1 with
  | none => (none, none)
  | some _ => p

/-- mean over the shots in which the beam was seen, all with the same weight -/
def plainMean (l : List (Option ((K × K) × K))) : Option (K × K) :=
  let seen := l.filterMap id
  if seen = [] then none
  else some ((seen.map (fun p => p.1.1)).sum / (seen.length : K), (seen.map (fun p => p.1.2)).sum / (seen.length : K))

end PySC.Spec
