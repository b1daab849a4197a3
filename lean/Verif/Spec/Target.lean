import Verif.Model.Target
/-
The target orbit given to the corrections (C113).
-/
namespace PySC.Spec
variable {K : Type} [Field K] [LinearOrder K] [FloorRing K]

/-- does the `k`-th of `n` entries `[x1 … xn y1 … yn]` belong to the first of two turns? -/
def OfFirstTurn (n k : Nat) : Prop := k % (n / 2) < n / 4

/-- the entries of the second turn are zero -/
def NoSecondTurn (ref : List K) : Prop := ∀ k, ∀ h : k < ref.length, ¬ OfFirstTurn ref.length k → ref[k] = 0

/-- the machine after the same calls, every correction being given an array of its own with the same entries -/
def copiesHistory (W : World K) (calls : List (TargetCall K)) (s : SC K) (ref : List K) : SC K :=
  history W (calls.map (TargetCall.call ref)) s

/-- the call is a correction with two turns and the array -/
def ForTwoTurns : TargetCall K → Prop
  | .stitch .. => True
  | .balance .. => True
  | _ => False

/-- the two arrays differ at most by the entries of the second turn, which may have been lost altogether -/
def FirstTurnKept (ref ref' : List K) : Prop :=
  ref'.length = ref.length ∧
  (∀ k, ∀ h : k < ref.length, ∀ h' : k < ref'.length, OfFirstTurn ref.length k → ref'[k] = ref[k]) ∧
  (ref' = ref ∨ NoSecondTurn ref')

end PySC.Spec
