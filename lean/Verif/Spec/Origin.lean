import Verif.Spec.Supports
/-
The same ring counted from another element (C118).
-/
namespace PySC.Spec
variable {K : Type} [Field K] [LinearOrder K]

/-- the new number of element `k` of a ring with `N` elements if counting starts from element `n` -/
def recount (N n k : Nat) : Nat := if n ≤ k then k - n else k + N - n

/-- The second ring consists of the same elements in the same order and has the same supports, but is counted from element `n` of the first
one. -/
structure Restarted (n : Nat) (r : Ring K) (o : Ords) (r' : Ring K) (o' : Ords) : Prop where
  start : n < r.length
  length : r'.length = r.length
  attr : ∀ k < r.length, ∀ a, r'.attr (recount r.length n k) a = r.attr k a
  inside : ∀ p ∈ o.Section ++ o.Plinth ++ o.Girder, p.1 < r.length ∧ p.2 < r.length
  section_ : o'.Section.Perm (o.Section.map (Prod.map (recount r.length n) (recount r.length n)))
  plinth : o'.Plinth.Perm (o.Plinth.map (Prod.map (recount r.length n) (recount r.length n)))
  girder : o'.Girder.Perm (o.Girder.map (Prod.map (recount r.length n) (recount r.length n)))
  magnet : ∀ k < r.length, (recount r.length n k ∈ o'.Magnet ↔ k ∈ o.Magnet)
  bpm : ∀ k < r.length, (recount r.length n k ∈ o'.BPM ↔ k ∈ o.BPM)

end PySC.Spec
