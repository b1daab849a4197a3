import Verif.Model.Magnets
/-
pySC/core/simulated_commissioning.py: set_cavity_setpoints, get_cm_setpoints, set_cm_setpoints,
set_magnet_setpoints, _dipole_compensation; pySC/utils/classdef_tools.py: check_input_and_setpoints.
-/
namespace PySC
variable {K : Type _} [Field K] [LinearOrder K] [FloorRing K]
open Py

/-- A 1-D numpy array of set-points: the numpy dtype matters because storing into an integer array truncates. -/
structure NpArr (K : Type _) where
  isInt : Bool
  vals : List K

/-- storing `x` in an array of integer resp. float dtype -/
def store (isInt : Bool) (x : K) : K := if isInt then truncZ x else x

/-- pySC/core/constants.py:21-24 -/
def settingMethods : List String := ["abs", "rel", "add"]

/-- pySC/utils/classdef_tools.py:54-61 `check_input_and_setpoints` (ordinates and set-points given as 1-D arrays,
a scalar being an array of one entry, which is what `np.ravel(np.array([x]))` makes of it). -/
def checkInput (method : String) (ords : List Nat) (sp : NpArr K) : Except Err (NpArr K) :=
  if method ∉ settingMethods then .error .valueError
  else if sp.vals.length ≠ 1 ∧ sp.vals.length ≠ ords.length then .error .valueError
  else if sp.vals.length = 1 then .ok ⟨sp.isInt, List.replicate ords.length (sp.vals.headD 0)⟩
  else .ok sp

/-- pySC/core/constants.py:12 `NUM_TO_AB[int(skewness)]` -/
def letter (skewness : Bool) : String := if skewness then "A" else "B"

/-- pySC/core/simulated_commissioning.py:868: `norm_by` of one corrector -/
def normBy (r : Ring K) (ord : Nat) (skewness : Bool) : Except Err K := do
  let pass ← r.getStr ord "PassMethod"
  if pass = "CorrectorPass" then .ok 1
  else do
    let len ← r.getNum ord "Length"
    .ok ((if skewness then 1 else -1) * len)

/-- does `abs(x) > abs(limit)` hold? (line 873) -/
def exceeds (x : K) : Lim K → Bool
  | .inf => false
  | .fin l => decide (|l| < |x|)

/-- `np.sign(x) * limit` for a finite limit (line 875; never evaluated for an infinite one) -/
def signLim (x : K) : Lim K → K
  | .inf => x
  | .fin l => npSign x * l

/-- lines 873-875: clip to `CMlimit[ndim]` if the attribute exists -/
def clipCM (r : Ring K) (ord : Nat) (skewness : Bool) (isInt : Bool) (x : K) : Except Err K := do
  let h ← r.hasA ord "CMlimit"
  if h then do
    let a ← r.getA ord "CMlimit"
    let ls ← a.toLims
    let l ← idx ls (if skewness then 1 else 0)
    .ok (if exceeds x l then store isInt (signLim x l) else x)
  else .ok x

/-- pySC/core/simulated_commissioning.py:868-876: the new array `SetPoint{letter}` of one corrector.  (Reads are
grouped; if several attributes are missing the code may report another one first.) -/
def newCM (r : Ring K) (skewness : Bool) (method : String) (isInt : Bool) (ord : Nat) (sp0 : K) :
    Except Err (List K) := do
  let nb ← normBy r ord skewness
  let v ← r.getVec ord ("SetPoint" ++ letter skewness)
  let cur ← idx v 0
  let sp1 := if method = "rel" then store isInt (sp0 * (cur * nb))
    else if method = "add" then store isInt (sp0 + cur * nb)
    else sp0
  let sp2 ← clipCM r ord skewness isInt sp1
  let x ← divE sp2 nb
  .ok (v.set 0 x)

/-- pySC/core/simulated_commissioning.py:867-876, body of the loop of `set_cm_setpoints` for one ordinate -/
def setCM1 (skewness : Bool) (method : String) (isInt : Bool) (ord : Nat) (sp0 : K) : Py (SC K) Unit := do
  let v ← rd (fun r => newCM r skewness method isInt ord sp0)
  setAttr ord ("SetPoint" ++ letter skewness) (.vec v)

/-- pySC/core/simulated_commissioning.py:831-878 `set_cm_setpoints` -/
def setCMSetpoints (ords : List Nat) (sp : NpArr K) (skewness : Bool) (method : String) : Py (SC K) Unit := do
  let sps ← lift (checkInput method ords sp)
  forEach (ords.zip sps.vals) (fun p => setCM1 skewness method sps.isInt p.1 p.2)
  updateMagnets (some ords)

/-- one entry of `get_cm_setpoints` -/
def getCM1 (r : Ring K) (skewness : Bool) (ord : Nat) : Except Err K := do
  let cur ← r.getVecAt ord ("SetPoint" ++ letter skewness) 0
  let nb ← normBy r ord skewness
  .ok (cur * nb)

/-- pySC/core/simulated_commissioning.py:806-829 `get_cm_setpoints` (the code first reads all set-points and then
multiplies by `(-1)**(ndim+1)*Length`; both loops only read). -/
def getCMSetpoints (ords : List Nat) (skewness : Bool) : Py (SC K) (List K) :=
  rd (fun r => ords.mapM (getCM1 r skewness))

/-- pySC/core/simulated_commissioning.py:942: `getattr(self.RING[ord], 'BendingAngle', 0)` -/
def bendingAngleOr0 (r : Ring K) (ord : Nat) : Except Err K := do
  let h ← r.hasA ord "BendingAngle"
  if h then r.getNum ord "BendingAngle" else .ok 0

/-- pySC/core/simulated_commissioning.py:945: the compensating kick -/
def compensatingKick (r : Ring K) (ord : Nat) (setpoint : K) : Except Err K := do
  let b1 ← r.getVecAt ord "SetPointB" 1
  let n1 ← r.getVecAt ord "NomPolynomB" 1
  let q ← divE (setpoint - b1) n1
  let ba ← r.getNum ord "BendingAngle"
  .ok (q * ba)

/-- pySC/core/simulated_commissioning.py:941-946 `_dipole_compensation` -/
def dipoleCompensation (ord : Nat) (setpoint : K) : Py (SC K) Unit := do
  let ba ← rd (fun r => bendingAngleOr0 r ord)
  let s ← get
  when (decide (ba ≠ 0) && decide (ord ∈ s.ORD.HCM)) do
    let kick ← rd (fun r => compensatingKick r ord setpoint)
    setCMSetpoints [ord] ⟨false, [kick]⟩ false "add"

/-- lines 931-933: clipping of skew quadrupoles -/
def clipSkew (r : Ring K) (ord : Nat) (skewness : Bool) (order : Nat) (isInt : Bool) (x : K) : Except Err K := do
  if skewness && decide (order = 1) then do
    let h ← r.hasA ord "SkewQuadLimit"
    if h then do
      let v ← r.getA ord "SkewQuadLimit"
      let l ← v.toLim
      match l with
      | .inf => .ok x
      | .fin l => .ok (if l < |x| then store isInt (npSign x * l) else x)
    else .ok x
  else .ok x

/-- line 937: the new array `SetPoint{letter}` -/
def newSetpoint (r : Ring K) (skewness : Bool) (order : Nat) (ord : Nat) (sp : K) : Except Err (List K) := do
  let v ← r.getVec ord ("SetPoint" ++ letter skewness)
  let _ ← idx v order
  .ok (v.set order sp)

/-- pySC/core/simulated_commissioning.py:930-937, body of the loop of `set_magnet_setpoints` -/
def setMagnet1 (skewness : Bool) (order : Nat) (isInt dipComp : Bool) (ord : Nat) (sp0 : K) : Py (SC K) Unit := do
  let sp ← rd (fun r => clipSkew r ord skewness order isInt sp0)
  when (dipComp && decide (order = 1)) (dipoleCompensation ord sp)
  let v ← rd (fun r => newSetpoint r skewness order ord sp)
  setAttr ord ("SetPoint" ++ letter skewness) (.vec v)

/-- `at_wrapper.atgetfieldvalues(RING, ords, name, order)` (pySC/utils/at_wrapper.py:30-31) -/
def fieldValues (r : Ring K) (ords : List Nat) (name : String) (order : Nat) : Except Err (List K) :=
  ords.mapM (fun o => r.getVecAt o name order)

/-- `sp *= w` / `sp += w` for numpy arrays: a float array can not be added in place into an integer array
(numpy raises UFuncTypeError, a TypeError). -/
def inPlace (op : K → K → K) (sp : NpArr K) (w : List K) : Except Err (NpArr K) :=
  if sp.isInt then .error .typeError else .ok ⟨false, List.zipWith op sp.vals w⟩

/-- pySC/core/simulated_commissioning.py:924-929: the requested values after applying the method -/
def magnetRequest (r : Ring K) (ords : List Nat) (sp : NpArr K) (skewness : Bool) (order : Nat) (method : String) :
    Except Err (NpArr K) := do
  let sps ← checkInput method ords sp
  if method = "rel" then do
    let w ← fieldValues r ords ("NomPolynom" ++ letter skewness) order
    inPlace (· * ·) sps w
  else if method = "add" then do
    let w ← fieldValues r ords ("SetPoint" ++ letter skewness) order
    inPlace (· + ·) sps w
  else .ok sps

/-- pySC/core/simulated_commissioning.py:880-939 `set_magnet_setpoints` -/
def setMagnetSetpoints (ords : List Nat) (sp : NpArr K) (skewness : Bool) (order : Nat) (method : String)
    (dipComp : Bool) : Py (SC K) Unit := do
  let sps ← rd (fun r => magnetRequest r ords sp skewness order method)
  forEach (ords.zip sps.vals) (fun p => setMagnet1 skewness order sps.isInt dipComp p.1 p.2)
  updateMagnets (some ords)

/-- pySC/core/simulated_commissioning.py:796-801: the requested values after applying the method
(stored set-points are taken to be floats) -/
def cavityRequest (r : Ring K) (ords : List Nat) (sp : NpArr K) (param method : String) :
    Except Err (NpArr K) := do
  let sps ← checkInput method ords sp
  if method = "rel" then do
    let w ← ords.mapM (fun o => r.getNum o (param ++ "SetPoint"))
    inPlace (· * ·) sps w
  else if method = "add" then do
    let w ← ords.mapM (fun o => r.getNum o (param ++ "SetPoint"))
    inPlace (· + ·) sps w
  else .ok sps

/-- pySC/core/simulated_commissioning.py:768-804 `set_cavity_setpoints` -/
def setCavitySetpoints (ords : List Nat) (sp : NpArr K) (param : String) (method : String) : Py (SC K) Unit := do
  let sps ← rd (fun r => cavityRequest r ords sp param method)
  forEach (ords.zip sps.vals) (fun p => setAttr p.1 (param ++ "SetPoint") (.num p.2))
  updateCavities (some ords)

end PySC
