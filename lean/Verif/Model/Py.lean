/-
A small model of Python methods: state transformers whose *exceptional* outcome also carries the state
reached when the exception was raised (Python does not roll back).
-/
namespace PySC

/-- The exceptions that occur in the modelled code, plus two outcomes that are not Python exceptions:
`nonFinite` (numpy would continue with inf/nan; the model stops) and `outOfFuel` (the program did not
terminate within the given number of loop iterations). -/
inductive Err where
  | valueError | runtimeError | attributeError | indexError | typeError | keyError
  | exception | zeroDivision | linAlgError | notImplemented | nonFinite | outOfFuel
  deriving DecidableEq, Repr

/-- Outcome of running a method: a value or an exception, and in both cases the state reached. -/
inductive Res (σ α : Type _) where
  | ok (a : α) (s : σ)
  | error (e : Err) (s : σ)

namespace Res
/-- State reached, whether or not an exception was raised. -/
def state {σ α} : Res σ α → σ
  | ok _ s => s
  | error _ s => s

/-- Did the call return normally? -/
def isOk {σ α} : Res σ α → Bool
  | ok _ _ => true
  | error _ _ => false

/-- The value, if the call returned normally. -/
def value? {σ α} : Res σ α → Option α
  | ok a _ => some a
  | error _ _ => none

/-- The exception, if one was raised. -/
def err? {σ α} : Res σ α → Option Err
  | ok _ _ => none
  | error e _ => some e
end Res

/-- A Python method acting on a state of type `σ`. -/
def Py (σ α : Type _) := σ → Res σ α

namespace Py
variable {σ α β : Type _}

protected def pure (a : α) : Py σ α := fun s => .ok a s

protected def bind (m : Py σ α) (f : α → Py σ β) : Py σ β := fun s =>
  match m s with
  | .ok a s' => f a s'
  | .error e s' => .error e s'

instance : Monad (Py σ) where
  pure := Py.pure
  bind := Py.bind

/-- `raise e` -/
def throw (e : Err) : Py σ α := fun s => .error e s
/-- read the state -/
def get : Py σ σ := fun s => .ok s s
/-- apply a function to the state -/
def modify (f : σ → σ) : Py σ Unit := fun s => .ok () (f s)
/-- a pure computation that may raise -/
def lift (x : Except Err α) : Py σ α := fun s =>
  match x with
  | .ok a => .ok a s
  | .error e => .error e s

/-- `for x in l: body x` -/
def forEach : List α → (α → Py σ Unit) → Py σ Unit
  | [], _ => Py.pure ()
  | x :: xs, f => Py.bind (f x) (fun _ => forEach xs f)

/-- `[f x for x in l]` -/
def mapEach : List α → (α → Py σ β) → Py σ (List β)
  | [], _ => Py.pure []
  | x :: xs, f => Py.bind (f x) (fun y => Py.bind (mapEach xs f) (fun ys => Py.pure (y :: ys)))

/-- `if c: body` -/
def when (c : Bool) (m : Py σ Unit) : Py σ Unit := if c then m else Py.pure ()

end Py
end PySC
