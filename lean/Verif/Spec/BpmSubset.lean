import Verif.Spec.Noiseless
/-
Readings of some of the BPMs (C127).
-/
namespace PySC.Spec
variable {K : Type} [Field K] [LinearOrder K]

/-- the BPMs which are read: all registered BPMs, or those which were asked for -/
def readBpms (bpms : List Nat) : Option (List Nat) → List Nat
  | none => bpms
  | some l => bpms.filter (fun i => decide (i ∈ l))

/-- `l` holds one entry for every BPM of `all`, and this for some number of turns (or planes), `l'` does so for the BPMs of `part`, and
the entries of the same BPM in the same turn are equal -/
def Chosen {α : Type} (all part : List Nat) (l l' : List α) : Prop :=
  ∃ n, l.length = n * all.length ∧ l'.length = n * part.length ∧
    ∀ t < n, ∀ b b' i, all[b]? = some i → part[b']? = some i → l'[t * part.length + b']? = l[t * all.length + b]?

/-- all parts of a reading are chosen -/
structure ChosenReading (all part : List Nat) (r r' : Reading K) : Prop where
  x : Chosen all part r.x r'.x
  y : Chosen all part r.y r'.y
  sums : Chosen all part r.sums r'.sums
  errors : (r.errors = none ∧ r'.errors = none) ∨ ∃ e e', r.errors = some e ∧ r'.errors = some e' ∧ Chosen all part e.1 e'.1 ∧ Chosen all part e.2 e'.2

end PySC.Spec
