import Verif.Model.Register
/-
What the options of a registration say about the type of a magnet (C130).
-/
namespace PySC.Spec
variable {K : Type} [Field K] [LinearOrder K]

/-- limit of the corrector `i`, horizontal (`k = 0`) or vertical (`k = 1`), if there is one -/
def limitIn (r : Ring K) (i k : Nat) : Option (Lim K) :=
  match r.attr i "CMlimit" with
  | some (.lims l) => l[k]?
  | _ => none

/-- the value of an option as a limit: a number or infinity -/
def asLimit : Attr K → Option (Lim K)
  | .num x => some (.fin x)
  | .lim l => some l
  | _ => none

/-- The limit of one plane: the one given now, otherwise the earlier one.  A corrector of the other plane only has the limit zero. -/
def limitAfter (given other : Option (Attr K)) (before : Option (Attr K)) (limit : Option (Lim K)) : Option (Lim K) :=
  match given with
  | some v => asLimit v
  | none => if before = none ∧ other ≠ none then some (.fin 0) else limit

/-- What the options `given` make of the magnet `i`: options given now are in force, the others are as before. -/
structure Options (given : String → Option (Attr K)) (r r' : Ring K) (i : Nat) : Prop where
  cf : r'.attr i "CombinedFunction" = if given "CF" ≠ none then some (.flag true) else r.attr i "CombinedFunction"
  skew : r'.attr i "SkewQuadLimit" = (match given "SkewQuad" with | some v => some v | none => r.attr i "SkewQuadLimit")
  horizontal : limitIn r' i 0 = limitAfter (given "HCM") (given "VCM") (r.attr i "CMlimit") (limitIn r i 0)
  vertical : limitIn r' i 1 = limitAfter (given "VCM") (given "HCM") (r.attr i "CMlimit") (limitIn r i 1)
  corrector : (given "HCM" ≠ none ∨ given "VCM" ≠ none → ∃ l, r'.attr i "CMlimit" = some (.lims l)) ∧
    (given "HCM" = none → given "VCM" = none → r'.attr i "CMlimit" = r.attr i "CMlimit")

/-- the value an option was given last for the magnet `i` in a sequence of registrations -/
def lastGiven : List (List Nat × Kwargs K) → Nat → String → Option (Attr K)
  | [], _, _ => none
  | c :: later, i, key => (lastGiven later i key).or (if i ∈ c.1 then c.2.get? key else none)

end PySC.Spec
