import Verif.Spec.Supports
/-
Misalignments of supports which are sums of other misalignments (C105).
-/
namespace PySC.Spec
variable {K : Type} [Field K] [LinearOrder K]

/-- the misalignments of a kind of supports -/
def kindNames (t : String) : List String := [t ++ "Offset", t ++ "Roll"]

/-- the misalignments of sections, plinths and girders -/
def misalignments : List String := ["SectionOffset", "SectionRoll", "PlinthOffset", "PlinthRoll", "GirderOffset", "GirderRoll"]

/-- elementwise sum -/
def plus (v w : List K) : List K := List.zipWith (· + ·) v w

/-- elementwise sum of two arrays with rows -/
def plusRows (a b : List (List K)) : List (List K) := List.zipWith plus a b

/-- The supports of the lattice `r` are misaligned by the sum of their misalignments in `r₁` and `r₂`.  The three lattices have elements of the
same lengths and the same children of magnets; nothing else is required of them. -/
structure Superposed (r₁ r₂ r : Ring K) : Prop where
  length₁ : r₁.length = r.length
  length₂ : r₂.length = r.length
  same₁ : ∀ i, ∀ a ∈ ["Length", "MasterOf"], r₁.attr i a = r.attr i a
  same₂ : ∀ i, ∀ a ∈ ["Length", "MasterOf"], r₂.attr i a = r.attr i a
  sum : ∀ i, ∀ a ∈ misalignments, ∀ v w, r₁.attr i a = some (.vec v) → r₂.attr i a = some (.vec w) →
    v.length = w.length ∧ r.attr i a = some (.vec (plus v w))

/-- the attribute `w` is the sum of the attributes `u` and `v` -/
def SumOf (u v w : Option (Attr K)) : Prop :=
  (∃ x y, u = some (.vec x) ∧ v = some (.vec y) ∧ x.length = y.length ∧ w = some (.vec (plus x y))) ∨
  (∃ x y, u = some (.num x) ∧ v = some (.num y) ∧ w = some (.num (x + y)))

/-- an array of zeros of the same shape -/
def zeroed : Attr K → Attr K
  | .vec v => .vec (v.map (fun _ => 0))
  | x => x

/-- the element without the misalignments of supports of other kinds than those given -/
def onlyKindsAt (ts : List String) (e : Elem K) : Elem K :=
  fun a => if a ∈ misalignments ∧ a ∉ ts.flatMap kindNames then (e a).map zeroed else e a

/-- the lattice in which only supports of the given kinds are misaligned -/
def onlyKinds (ts : List String) (r : Ring K) : Ring K := List.map (onlyKindsAt ts) r

end PySC.Spec
