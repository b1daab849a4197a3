import Mathlib.Algebra.Order.Field.Basic
/-
The distribution of values (C120).
-/
namespace PySC.Spec
variable {K : Type} [Field K] [LinearOrder K]

/-- fraction of the values which are smaller than `e`, and which are at most `e` -/
def fractionBelow (v : List K) (e : K) : K := (v.countP (fun x => decide (x < e)) : K) / (v.length : K)
def fractionUpTo (v : List K) (e : K) : K := (v.countP (fun x => decide (x ≤ e)) : K) / (v.length : K)

/-- the curve shows the distribution of the values `v`: as many points as there are values, from left to right, the last
one at height one with no value beyond it; each point not the last shows the fraction of the values smaller than its
abscissa. -/
def ShowsDistribution (v : List K) (pts : List (K × K)) : Prop :=
  pts.length = v.length ∧ 0 < v.length ∧
  (∀ (j : Nat) p q, pts[j]? = some p → pts[j + 1]? = some q → p.1 < q.1 ∧ p.2 = fractionBelow v p.1 ∧ p.2 ≤ q.2) ∧
  ∀ p, pts[v.length - 1]? = some p → p.2 = 1 ∧ fractionUpTo v p.1 = 1

end PySC.Spec
