import Verif.Model.Arrays
/-
What can be seen of BPM errors and uncertainties (C119).
-/
namespace PySC.Arrays
variable {K : Type} [Mul K] [Zero K]

/-- contents of an attribute -/
inductive Content (K : Type)
  | num (x : K)
  | vec (v : List K)
  | cut (v : List K) (c : K)
deriving DecidableEq

def content (w : World K) : Val K → Content K
  | .num x => .num x
  | .arr p => .vec (w.cell p)
  | .cut p c => .cut (w.cell p) c

/-- `SC.RING[i].f` -/
def errorOf (w : World K) (i : Nat) (f : String) : Option (Content K) := (w.ring i f).map (content w)

/-- `SC.SIG.BPM[i].f` -/
def uncertaintyOf (w : World K) (i : Nat) (f : String) : Option (Content K) := (w.sig i f).map (content w)

/-- the `n`-th array of the caller -/
def givenArray (w : World K) (n : Nat) : Option (List K) := w.given[n]?.map w.cell

/-- the array an argument refers to -/
def Arg.index : Arg K → Option Nat
  | .num _ => none
  | .array n => some n
  | .cut n _ => some n

/-- every array of the caller is given for one field of one BPM only -/
def GivenOnce (cs : List (Call K)) : Prop :=
  ∃ owner : Nat → Nat × String, ∀ ords kw, Call.register ords kw ∈ cs → ∀ i ∈ ords, ∀ p ∈ kw, ∀ n, p.2.index = some n → owner n = (i, p.1)

end PySC.Arrays
