import Verif.Spec.Fields
import Verif.Spec.Setpoints
/-
What the corrections with the result of LOCO should do (C79, C80).
-/
namespace PySC.Spec
variable {K : Type _} [Field K]

/-- the numbers of the groups of fit parameters which contain the quadrupole component of element `o`, in order -/
def groupsFor (params : List (List (Nat × String))) (skew : Bool) (o : Nat) : List Nat :=
  params.zipIdx.flatMap (fun g => (g.1.filter (fun p => decide (p = (o, "SetPoint" ++ plane skew)))).map (fun _ => g.2))

/-- the old set-point, corrected by the damped deviation of the fitted value from the wanted one -/
def correctedValue (orig ideal fitted : List K) (damping : K) (n : Nat) : K :=
  coef orig n + damping * (coef ideal n - coef fitted n)

/-- realised quadrupole component of an element -/
def gradient (r : Ring K) (o : Nat) (skew : Bool) : K := coef (vecAt r o ("Polynom" ++ plane skew)) 1

/-- calibration error of the quadrupole set-point -/
def gradientError (r : Ring K) (o : Nat) (skew : Bool) : K := coef (vecAt r o ("CalError" ++ plane skew)) 1

/-- the systematic multipoles of the magnet do not contain a quadrupole component of this kind -/
def NoInducedGradient (r : Ring K) (o : Nat) (skew : Bool) : Prop :=
  ∀ source ∈ ["A", "B"], ∀ ne ∈ tableAt r o ("SysPol" ++ plane skew ++ "From" ++ source), coef ne.2 1 = 0

/-- calibration error of a BPM in plane `p` -/
def calError (r : Ring K) (o p : Nat) : K := coef (vecAt r o "CalError") p

/-- sum of the values belonging to `o` -/
def sumFor (ords : List Nat) (vals : List K) (o : Nat) : K := ((ords.zip vals).map (fun x => if x.1 = o then x.2 else 0)).sum

end PySC.Spec
