import Verif.Spec.Commute
/-
Registering elements in one call or in several (C101).
-/
namespace PySC.Spec
variable {K : Type}

/-- both calls raise an exception, or both return and leave machines which cannot be told apart -/
def SameResult : Res (SC K) Unit → Res (SC K) Unit → Prop
  | .ok _ t, .ok _ t' => Alike t t'
  | .error _ _, .error _ _ => True
  | _, _ => False

/-- as `Alike`, also leaving the order of the entries for supports out of consideration -/
def AlikeSupports (s t : SC K) : Prop :=
  Alike s { t with SIG := { t.SIG with Support := s.SIG.Support } } ∧ ∀ i, s.SIG.Support.get? i = t.SIG.Support.get? i

/-- as `SameResult`, for supports -/
def SameSupportResult : Res (SC K) Unit → Res (SC K) Unit → Prop
  | .ok _ t, .ok _ t' => AlikeSupports t t'
  | .error _ _, .error _ _ => True
  | _, _ => False

/-- the numbers of children of the magnets `a` and `b`, one column for each magnet, side by side -/
def sideBySide (ma mb : List (List Nat)) : List (List Nat) := List.zipWith (· ++ ·) ma mb

/-- keywords with an array of children -/
def withChildren (kw : Kwargs K) (m : List (List Nat)) : Kwargs K := kw ++ [("MasterOf", .ordMat m)]

end PySC.Spec
