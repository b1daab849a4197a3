import Verif.Spec.Machine
/-
What a user can observe about set-points: kicks, limits, and what a request means.
-/
namespace PySC.Spec
variable {K : Type _} [Field K] [LinearOrder K]

/-- `B` (normal, horizontal) or `A` (skew, vertical) -/
def plane (skew : Bool) : String := if skew then "A" else "B"

/-- stored set-point of multipole `k` -/
def setpoint (r : Ring K) (i : Nat) (skew : Bool) (k : Nat) : K := coef (vecAt r i ("SetPoint" ++ plane skew)) k

/-- kick per unit of dipole set-point: 1 for thin correctors, otherwise the length, with the sign convention that a
positive horizontal kick needs a negative field -/
def kickFactor (r : Ring K) (i : Nat) (skew : Bool) : K :=
  if r.attr i "PassMethod" = some (.str "CorrectorPass") then 1
  else if skew then numAt r i "Length" else - numAt r i "Length"

/-- the kick a corrector is set to -/
def kick (r : Ring K) (i : Nat) (skew : Bool) : K := setpoint r i skew 0 * kickFactor r i skew

/-- the kick limit of a corrector in one plane (`inf` if it has none) -/
def kickLimit (r : Ring K) (i : Nat) (skew : Bool) : Lim K :=
  match r.attr i "CMlimit" with
  | some (.lims l) => l.getD (if skew then 1 else 0) .inf
  | _ => .inf

/-- nearest value within `[-l, l]` -/
def clip (l : Lim K) (x : K) : K :=
  match l with
  | .inf => x
  | .fin l => max (-l) (min x l)

/-- the limit is a non-negative number or infinite -/
def Lim.Nonneg : Lim K → Prop
  | .inf => True
  | .fin l => 0 ≤ l

/-- magnitude within the limit -/
def Within (l : Lim K) (x : K) : Prop :=
  match l with
  | .inf => True
  | .fin l => |x| ≤ |l|

instance (l : Lim K) : Decidable (Lim.Nonneg l) := by cases l <;> simp only [Lim.Nonneg] <;> infer_instance
instance (l : Lim K) (x : K) : Decidable (Within l x) := by cases l <;> simp only [Within] <;> infer_instance

/-- what a request `x` with a given method asks for, when the reference value is `c` -/
def asked (method : String) (x c : K) : K :=
  if method = "rel" then x * c else if method = "add" then x + c else x

end PySC.Spec

namespace PySC.Spec
variable {K : Type _} [Field K]
/-- the value of a request meant for the `k`-th ordinate: a single value is meant for all of them -/
def valueFor (vals : List K) (k : Nat) : K := if vals.length = 1 then coef vals 0 else coef vals k
end PySC.Spec

namespace PySC.Spec
variable {K : Type _} [Field K] [LinearOrder K]
/-- the skew quadrupole limit of a magnet (`inf` if it has none) -/
def skewLimit (r : Ring K) (i : Nat) : Lim K :=
  match r.attr i "SkewQuadLimit" with
  | some (.num x) => .fin x
  | some (.lim l) => l
  | _ => .inf

/-- what a magnet request asks for: `rel` refers to the nominal field, `add` to the present set-point -/
def magnetAsked (r : Ring K) (i : Nat) (skew : Bool) (order : Nat) (method : String) (x : K) : K :=
  asked method x (if method = "rel" then coef (vecAt r i ("NomPolynom" ++ plane skew)) order
    else setpoint r i skew order)

/-- the value to be stored: skew quadrupole requests are clipped, others are not -/
def magnetStored (r : Ring K) (i : Nat) (skew : Bool) (order : Nat) (x : K) : K :=
  if skew = true ∧ order = 1 then clip (skewLimit r i) x else x

/-- `k` is the last position of `o` in the list -/
def LastAt (ords : List Nat) (k o : Nat) : Prop := ords[k]? = some o ∧ ∀ j, k < j → ords[j]? ≠ some o

/-- the values of a request meant for ordinate `o`, in order -/
def valuesFor (ords : List Nat) (vals : List K) (o : Nat) : List K :=
  ((ords.zip ((List.range ords.length).map (valueFor vals))).filter (fun p => p.1 = o)).map Prod.snd
end PySC.Spec
