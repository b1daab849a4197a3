import Verif.Model.Objects
import Verif.Model.Register
import Verif.Model.Structure
/-
What happens on a desk with a lattice and SC objects made from it (C104): once with objects in memory, once with values.
-/
namespace PySC.Spec
variable {K : Type}
open Py

/-- A step: making an SC object from the lattice, copying SC object number `k`, setting an attribute of element `i` of one of the two
lattices of SC object `k`, setting an attribute of element `i` of the given lattice. -/
inductive DeskStep (K : Type) where
  | create
  | copy (k : Nat)
  | set (k : Nat) (design : Bool) (i : Nat) (a : String) (v : Attr K)
  | own (i : Nat) (a : String) (v : Attr K)

/-- memory, the lattice of the user, and the SC objects made so far -/
structure Desk (K : Type) where
  memory : Memory K
  own : List Nat
  machines : List Machine

/-- one of the two lattices -/
def Machine.lattice (o : Machine) (design : Bool) : List Nat := if design then o.ideal else o.ring

/-- A step in memory.  (Failing steps and steps which concern nothing there is leave the desk as it is, up to unused memory.) -/
def Desk.step (d : Desk K) : DeskStep K → Desk K
  | .create => match newMachine d.own d.memory with
    | .ok o m => { d with memory := m, machines := d.machines ++ [o] }
    | .error _ m => { d with memory := m }
  | .copy k => match d.machines[k]? with
    | none => d
    | some o => match copyMachine o d.memory with
      | .ok o m => { d with memory := m, machines := d.machines ++ [o] }
      | .error _ m => { d with memory := m }
  | .set k design i a v => match (d.machines[k]?).bind (fun o => (Machine.lattice o design)[i]?) with
    | none => d
    | some p => { d with memory := d.memory.write p a v }
  | .own i a v => match d.own[i]? with
    | none => d
    | some p => { d with memory := d.memory.write p a v }

/-- The same with values: SC objects consist of two lists of elements, which have nothing to do with each other. -/
structure Values (K : Type) where
  own : List (Nat × Elem K)
  machines : List (Ring K × Ring K)

/-- A step with values.  A new object consists of twice the lattice, a copy of twice the lattice `RING` (C08).  Only in the lattice of the
user the same element may stand at several positions. -/
def Values.step (d : Values K) : DeskStep K → Values K
  | .create => { d with machines := d.machines ++ [(d.own.map Prod.snd, d.own.map Prod.snd)] }
  | .copy k => match d.machines[k]? with
    | none => d
    | some o => { d with machines := d.machines ++ [(o.1, o.1)] }
  | .set k design i a v =>
    { d with machines := d.machines.modify k (fun o => if design then (o.1, o.2.setAttr i a v) else (o.1.setAttr i a v, o.2)) }
  | .own i a v => match d.own[i]? with
    | none => d
    | some x => { d with own := d.own.map (fun y => if y.1 = x.1 then (y.1, y.2.set a v) else y) }

/-- what can be seen of a desk -/
def Desk.view (d : Desk K) : Values K where
  own := d.own.map (fun p => (p, d.memory.cell p))
  machines := d.machines.map (fun o => (o.ring.map d.memory.cell, o.ideal.map d.memory.cell))

/-- a desk with a lattice of existing objects, and no SC object yet -/
def Desk.Fresh (d : Desk K) : Prop := d.machines = [] ∧ ∀ p ∈ d.own, p < d.memory.next

end PySC.Spec
