import Verif.Model.Basic
/-
Lattice elements as objects in memory: pySC/core/simulated_commissioning.py `__init__` and `very_deep_copy` once more, with the identity
of the elements.  A lattice is the list of the addresses of its elements; the same object may stand at several positions.
-/
namespace PySC
variable {K : Type}
open Py

/-- the objects in memory; addresses from `next` on are free -/
structure Memory (K : Type) where
  next : Nat
  cell : Nat → Elem K

/-- `setattr(element, a, v)` for the object at address `p` -/
def Memory.write (m : Memory K) (p : Nat) (a : String) (v : Attr K) : Memory K :=
  { m with cell := fun q => if q = p then (m.cell q).set a v else m.cell q }

/-- `element.deepcopy()`: a new object with the same contents -/
def copyElement (p : Nat) : Py (Memory K) Nat := fun m =>
  .ok m.next { next := m.next + 1, cell := fun q => if q = m.next then m.cell p else m.cell q }

/-- `ring.deepcopy()`, that is `copy.deepcopy(ring)`: every object is copied once; where the same object stood at several positions, the
same copy stands there again.  `memo` are the objects copied so far with their copies. -/
def copyLattice : List Nat → List (Nat × Nat) → Py (Memory K) (List Nat)
  | [], _ => Py.pure []
  | p :: l, memo =>
    match memo.lookup p with
    | some q => do
      let rest ← copyLattice l memo
      Py.pure (q :: rest)
    | none => do
      let q ← copyElement p
      let rest ← copyLattice l ((p, q) :: memo)
      Py.pure (q :: rest)

/-- `lattice[i] = element` -/
def assignAt (l : List Nat) (i p : Nat) : Except Err (List Nat) := if i < l.length then .ok (l.set i p) else .error .indexError

/-- the two lattices of an SC object -/
structure Machine where
  ring : List Nat
  ideal : List Nat

/-- pySC/core/simulated_commissioning.py:67-69, 952-954: `self.RING[ind] = element.deepcopy()`, `self.IDEALRING[ind] = element.deepcopy()`,
from position `i` on -/
def renewElements : List Nat → Nat → Machine → Py (Memory K) Machine
  | [], _, o => Py.pure o
  | p :: l, i, o => do
    let e ← copyElement p
    let ring ← lift (assignAt o.ring i e)
    let e' ← copyElement p
    let ideal ← lift (assignAt o.ideal i e')
    renewElements l (i + 1) ⟨ring, ideal⟩

/-- pySC/core/simulated_commissioning.py:63-69 `__init__` -/
def newMachine (lattice : List Nat) : Py (Memory K) Machine := do
  let r ← copyLattice lattice []
  let d ← copyLattice lattice []
  renewElements lattice 0 ⟨r, d⟩

/-- pySC/core/simulated_commissioning.py:948-955 `very_deep_copy`.  (The lattices made by `copy.deepcopy(self)` in line 949 are replaced in
lines 950 and 951 and left out.) -/
def copyMachine (o : Machine) : Py (Memory K) Machine := do
  let r ← copyLattice o.ring []
  let d ← copyLattice o.ideal []
  renewElements o.ring 0 ⟨r, d⟩

end PySC
