import Verif.Model.PlotLattice
import Verif.Spec.Supports
/-
What the figure of the lattice is to show (C122, C123).
-/
namespace PySC.Spec
variable {K : Type} [Field K] [LinearOrder K]

/-- the range asked for: the given one; else from the first to the last of the given elements; else the first of `n` equal
sectors; else the range of the lattice -/
def RangeAsked (r : Ring K) (own : K × K) (range : Option (K × K)) (indices : Option (List Nat)) (sectors : Option Nat) (p : K × K) : Prop :=
  (∀ q, range = some q → p = q) ∧
  (range = none → ∀ l, indices = some l → ∃ i j, i ∈ l ∧ j ∈ l ∧ (∀ k ∈ l, i ≤ k ∧ k ≤ j) ∧ p = (sPos r i, sPos r j)) ∧
  (range = none → indices = none → ∀ n, sectors = some n → n ≠ 0 ∧ p.1 = 0 ∧ (n : K) * p.2 = circumference r) ∧
  (range = none → indices = none → sectors = none → p = own)

/-- `w` is a limit of element `i`: elliptic in x (curve 0) and y (1), rectangular in x (2) and y (3) -/
def Limits (r : Ring K) (i : Nat) (curve : Nat) (w : K) : Prop :=
  match curve with
  | 0 => ∃ a b, r.attr i "EApertures" = some (.vec [a, b]) ∧ (w = -a ∨ w = a)
  | 1 => ∃ a b, r.attr i "EApertures" = some (.vec [a, b]) ∧ (w = -b ∨ w = b)
  | 2 => ∃ a b c d, r.attr i "RApertures" = some (.vec [a, b, c, d]) ∧ (w = a ∨ w = b)
  | 3 => ∃ a b c d, r.attr i "RApertures" = some (.vec [a, b, c, d]) ∧ (w = c ∨ w = d)
  | _ => False

end PySC.Spec
