import Verif.Model.Basic
/-
pySC/core/lattice_setting.py and the tracking mode of pySC/core/classes.py: Injection.
-/
namespace PySC
variable {K : Type}
open Py

/-- `s.replace(old, new)` on characters, for a non-empty `old`; `skip` characters belong to the last match -/
def replaceChars (old new : List Char) : Nat → List Char → List Char
  | _, [] => []
  | skip + 1, _ :: cs => replaceChars old new skip cs
  | 0, c :: cs =>
    if old.isPrefixOf (c :: cs) then new ++ replaceChars old new (old.length - 1) cs
    else c :: replaceChars old new 0 cs

/-- `s.replace(old, new)` -/
def strReplace (s old new : String) : String := String.ofList (replaceChars old.toList new.toList 0 s.toList)

/-- `ring[ind].PassMethod` (a string; every AT element has one) -/
def passMethod (ind : Nat) : Py (Ring K) String := fun r =>
  match r[ind]? with
  | none => .error .indexError r
  | some e => match e "PassMethod" with
    | some (.str m) => .ok m r
    | some _ => .error .typeError r
    | none => .error .attributeError r

/-- `ring[ind].PassMethod = m` -/
def setPassMethod (ind : Nat) (m : String) : Py (Ring K) Unit := fun r =>
  if ind < r.length then .ok () (r.setAttr ind "PassMethod" (.str m)) else .error .indexError r

/-- pySC/core/lattice_setting.py:15-19 `switch_rf` with a flat list of ordinates -/
def switchRf (ords : List Nat) (state : Bool) : Py (Ring K) Unit := do
  let r ← get
  if ords.all (fun i => decide (i < r.length)) then
    forEach (ords.filter (fun i => (r.attr i "Frequency").isSome)) (fun ind =>
      setPassMethod ind (if state then "RFCavityPass" else "IdentityPass"))
  else throw .indexError

/-- pySC/core/lattice_setting.py:48 -/
def validSwitches : List String := ["radiationoff", "radiationon", "cavityoff", "cavityon"]

/-- pySC/core/lattice_setting.py:52 -/
def nonRadPassMethods : List String := ["BndMPoleSymplectic4Pass", "BndMPoleSymplectic4E2Pass", "StrMPoleSymplectic4Pass"]

/-- pySC/core/lattice_setting.py:53 -/
def radPassMethods : List String := nonRadPassMethods.map (fun m => strReplace m "Pass" "RadPass")

/-- pySC/core/lattice_setting.py:56-58, 60-62: the two loops over the ring -/
def replacePass (methods : List String) (old new : String) : Py (Ring K) Unit := do
  let r ← get
  forEach (List.range r.length) (fun ind => do
    let m ← passMethod ind
    if m ∈ methods then setPassMethod ind (strReplace m old new) else Py.pure ())

/-- pySC/core/lattice_setting.py:22-68 `switch_cavity_and_radiation` -/
def switchCavityAndRadiation (args : List String) : Py (Ring K) Unit := do
  if args.any (fun a => decide (a ∉ validSwitches)) then throw .valueError
  else do
    if "radiationoff" ∈ args then replacePass radPassMethods "Rad" ""
    else if "radiationon" ∈ args then replacePass nonRadPassMethods "Pass" "RadPass"
    else Py.pure ()
    let r ← get
    if "cavityoff" ∈ args then switchRf (List.range r.length) false
    else if "cavityon" ∈ args then switchRf (List.range r.length) true
    else Py.pure ()

/-- pySC/core/constants.py:16-19 -/
def trackingModes : List String := ["TBT", "ORB", "PORB"]

/-- pySC/core/classes.py:82-93 the setter of `trackMode` -/
def setTrackMode (mode : String) : Py (Inj K) Unit := do
  if mode ∉ trackingModes then throw .attributeError
  else do
    modify (fun i => { i with trackMode := mode })
    if mode = "ORB" then modify (fun i => { i with nTurns := 1, nParticles := 1 })
    else Py.pure ()

end PySC
