import Verif.Model.Basic
/-
Vocabulary of the property statements: how to read quantities off a lattice and what it means that "nothing else
changed".  Nothing here refers to the modelled functions.
-/
namespace PySC
variable {K : Type _}

/-- `s'` differs from `s` at most in those attributes `a` of ring elements `i` for which `W i a`; in particular the
design lattice, the injection, the uncertainties, the index lists and the random stream are the same. -/
structure Frame (W : Nat → String → Prop) (s s' : SC K) : Prop where
  ideal : s'.IDEALRING = s.IDEALRING
  inj : s'.INJ = s.INJ
  sig : s'.SIG = s.SIG
  ord : s'.ORD = s.ORD
  rng : s'.rng = s.rng
  len : s'.RING.length = s.RING.length
  attr : ∀ i a, ¬ W i a → s'.RING.attr i a = s.RING.attr i a

/-- element `t` gets its field from magnet `i`: it is the magnet itself or one of its children -/
def Affects (r : Ring K) (ind t : Nat) : Prop :=
  t = ind ∨ ∃ l, r.attr ind "MasterOf" = some (.ords l) ∧ t ∈ l

namespace Spec
section
variable [Zero K]
/-- array valued attribute (a missing one counts as empty) -/
def vecAt (r : Ring K) (i : Nat) (a : String) : List K :=
  match r.attr i a with
  | some (.vec v) => v
  | _ => []
/-- number valued attribute (a missing one counts as 0) -/
def numAt (r : Ring K) (i : Nat) (a : String) : K :=
  match r.attr i a with
  | some (.num x) => x
  | _ => 0
/-- table valued attribute (a missing one counts as empty) -/
def tableAt (r : Ring K) (i : Nat) (a : String) : List (Nat × List K) :=
  match r.attr i a with
  | some (.multip d) => d
  | _ => []
/-- is the flag attribute present and true? -/
def flagAt (r : Ring K) (i : Nat) (a : String) : Bool :=
  match r.attr i a with
  | some (.flag b) => b
  | _ => false
/-- `k`-th multipole coefficient, 0 beyond the end of the array -/
def coef (v : List K) (k : Nat) : K := v.getD k 0
end
end Spec
end PySC
