import Verif.Model.ApplyErrors
/-
pySC/core/simulated_commissioning.py:450-487 `set_systematic_multipole_errors` once more, with the sharing of memory between
the table of the caller and the errors stored in the magnets: `newBA = BA[:, :]` and `newBA[:, ind]` (lines 480, 486) are
numpy views, so the stored errors are columns of the caller's table itself, not copies.
-/
namespace PySC
variable {K : Type} [Field K] [LinearOrder K] [FloorRing K]
open Py

/-- a stored column which is a view: `RING[elem].{attr}[order]` is column `skew` of the table number `table` -/
structure View where
  elem : Nat
  attr : String
  order : Nat
  table : Nat
  skew : Bool

/-- the machine, the tables the caller holds, and which stored columns are views of them -/
structure Shared (K : Type) where
  sc : SC K
  tables : List (List (K × K))
  views : List View

/-- a method of the machine used in the presence of tables -/
def onMachine {α : Type} (m : Py (SC K) α) : Py (Shared K) α := fun st =>
  match m st.sc with
  | .ok a s => .ok a { st with sc := s }
  | .error e s => .error e { st with sc := s }

/-- `table[:, ind]` -/
def tableColumn (BA : List (K × K)) (skew : Bool) : List K := BA.map (fun p => if skew then p.2 else p.1)

/-- the content of a stored column after its table has become `BA` -/
def showView (BA : List (K × K)) (r : Ring K) (v : View) : Ring K :=
  match r.attr v.elem v.attr with
  | some (.multip d) => r.setAttr v.elem v.attr (.multip (Dict.set d v.order (tableColumn BA v.skew)))
  | _ => r

/-- writing into table number `t` (its content becomes `BA`): every view of it changes -/
def writeTable (t : Nat) (BA : List (K × K)) : Py (Shared K) Unit :=
  modify (fun st => { st with
    tables := st.tables.set t BA
    sc := { st.sc with RING := (st.views.filter (fun v => decide (v.table = t))).foldl (showView BA) st.sc.RING } })

/-- pySC/core/simulated_commissioning.py:485-487: store a view.  A view stored earlier under the same name is replaced. -/
def storeView (col : List K) (v : View) : Py (Shared K) Unit := do
  onMachine (setSysPol v.elem v.attr v.order col)
  modify (fun st => { st with
    views := v :: st.views.filter (fun w => decide (¬ (w.elem = v.elem ∧ w.attr = v.attr ∧ w.order = v.order))) })

/-- pySC/core/simulated_commissioning.py:450-487 `set_systematic_multipole_errors(ords, BA, order, skewness)` where `BA` is the
caller's table number `t` -/
def setSystematicShared (ords : List Nat) (t order : Nat) (skew : Bool) : Py (Shared K) Unit := do
  let st ← get
  let BA ← lift (idx st.tables t)
  let _ ← lift (idx BA order)
  writeTable t (clearEntry BA order skew)
  forEach ords (fun i => forEach ["A", "B"] (fun target =>
    storeView (tableColumn (clearEntry BA order skew) skew) ⟨i, "SysPol" ++ target ++ "From" ++ (if skew then "A" else "B"), order, t, skew⟩))

end PySC
