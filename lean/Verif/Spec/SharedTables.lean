import Verif.Model.SharedTables
import Verif.Spec.Multipoles
/-
Sequences of calls of `set_systematic_multipole_errors` (C92).
-/
namespace PySC.Spec
variable {K : Type} [Field K] [LinearOrder K] [FloorRing K]
open Py

/-- a call: magnets, the number of the caller's table, the main component -/
structure SysCall where
  ords : List Nat
  table : Nat
  order : Nat
  skew : Bool

/-- the calls one after the other, the caller catching exceptions; the tables are the caller's arrays -/
def sharedCalls (calls : List SysCall) (st : Shared K) : Shared K :=
  calls.foldl (fun st c => (setSystematicShared c.ords c.table c.order c.skew st).state) st

/-- the same calls, each given a copy of the table as it was at the beginning -/
def copiedCalls (tables : List (List (K × K))) (calls : List SysCall) (s : SC K) : SC K :=
  calls.foldl (fun s c => match tables[c.table]? with
    | some BA => (setSystematicMultipoles c.ords BA c.order c.skew s).state
    | none => s) s

/-- what a user may do with the tables: call the method, or write into an own table (which keeps its shape) -/
inductive TableStep (K : Type) where
  | call (c : SysCall)
  | write (t : Nat) (BA : List (K × K))

/-- one step, exceptions caught -/
def tableStep (st : Shared K) : TableStep K → Shared K
  | .call c => (setSystematicShared c.ords c.table c.order c.skew st).state
  | .write t BA => (writeTable t BA st).state

/-- several steps -/
def tableSteps (steps : List (TableStep K)) (st : Shared K) : Shared K := steps.foldl tableStep st

/-- does a step set the errors which component `order` (`skew`: of polynomial A) induces in magnet `i`? -/
def TableStep.sets (i order : Nat) (skew : Bool) : TableStep K → Prop
  | .call c => i ∈ c.ords ∧ c.order = order ∧ c.skew = skew
  | .write _ _ => False

/-- the errors stored in magnet `i` for target polynomial `target`, induced by the main component `order` of the polynomial
`source` -/
def systematic (s : SC K) (i : Nat) (target source : String) (order : Nat) : Option (List K) :=
  match s.RING.attr i ("SysPol" ++ target ++ "From" ++ source) with
  | some (.multip d) => Dict.get? d order
  | _ => none

/-- the letter of the polynomial the main component belongs to -/
def sourceOf (skew : Bool) : String := if skew then "A" else "B"

end PySC.Spec
