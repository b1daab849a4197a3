import Verif.Model.Synoptic
import Verif.Spec.Supports
/-
What the synoptic is to show (C125).
-/
namespace PySC.Spec
variable {K : Type} [Field K] [LinearOrder K]

/-- the shape `p` begins where element `i` begins and does not leave its extent -/
def InExtent (r : Ring K) (i : Nat) (p : List (K × K)) : Prop :=
  (sPos r i, 0) ∈ p ∧ ∀ c ∈ p, sPos r i ≤ c.1 ∧ c.1 ≤ sPos r i + numAt r i "Length"

/-- it covers the extent of element `i`, no more and no less -/
def Covers (r : Ring K) (i : Nat) (p : List (K × K)) : Prop := InExtent r i p ∧ (sPos r i + numAt r i "Length", 0) ∈ p

/-- the shape stands on the axis -/
def Standing (p : List (K × K)) : Prop := (∀ c ∈ p, 0 ≤ c.2) ∧ ∃ c ∈ p, 0 < c.2

/-- the shape hangs from the axis -/
def Hanging (p : List (K × K)) : Prop := (∀ c ∈ p, c.2 ≤ 0) ∧ ∃ c ∈ p, c.2 < 0

/-- between its ends the roof of the shape of element `i` is higher than at the ends -/
def Roof (r : Ring K) (i : Nat) (p : List (K × K)) (higher : Prop) : Prop :=
  ∃ a ∈ p, ∃ b ∈ p, a.1 = sPos r i ∧ 0 < a.2 ∧ (b.1 ≠ a.1 ∨ numAt r i "Length" = 0) ∧ 0 < b.2 ∧ (higher → a.2 < b.2) ∧ (¬ higher → b.2 < a.2)

/-- the shape of a magnet: it stands on the axis and covers the extent of the magnet -/
def MagnetShape (r : Ring K) (i : Nat) (p : List (K × K)) : Prop := Covers r i p ∧ Standing p

/-- element `i` has no negative length -/
def LengthNonneg (r : Ring K) (i : Nat) : Prop := 0 ≤ numAt r i "Length"

/-- the elements of a class, in their order -/
def ofClass (r : Ring K) (cls : Nat → ElemClass) (c : ElemClass) : List Nat := (List.range r.length).filter (fun i => decide (cls i = c))

end PySC.Spec
