import Verif.Model.Basic
/-
pySC/core/simulated_commissioning.py: update_magnets, _update_magnets, update_cavities.
-/
namespace PySC
variable {K : Type _} [Field K] [LinearOrder K]
open Py

/-- pySC/core/simulated_commissioning.py:1075-1076: `setpoints * add_padded(np.ones(len(setpoints)), cal_error)` -/
def scaledSetpoints (setpoints : List K) (cal : Attr K) : Except Err (List K) := do
  let c ← cal.asVec
  bmul setpoints (addPadded (List.replicate setpoints.length 1) c)

/-- pySC/core/simulated_commissioning.py:1074-1076: `polynoms`, the scaled set-points of the source magnet
(`.1` is `polynoms['A']`, `.2` is `polynoms['B']`) -/
def polynoms (r : Ring K) (src : Nat) : Except Err (List K × List K) := do
  let spA ← r.getVec src "SetPointA"
  let spB ← r.getVec src "SetPointB"
  let calA ← r.getA src "CalErrorA"
  let polyA ← scaledSetpoints spA calA
  let calB ← r.getA src "CalErrorB"
  let polyB ← scaledSetpoints spB calB
  .ok (polyA, polyB)

/-- `polynoms[ab]` -/
def pick (p : List K × List K) (ab : String) : List K := if ab = "A" then p.1 else p.2

/-- pySC/core/simulated_commissioning.py:1082-1085: systematic errors of `target` induced by `source` -/
def addSystematic (r : Ring K) (tgt : Nat) (p : List K × List K) (target source : String) (v : List K) :
    Except Err (List K) := do
  let h ← r.hasA tgt ("SysPol" ++ target ++ "From" ++ source)
  if h then do
    let d ← r.getA tgt ("SysPol" ++ target ++ "From" ++ source)
    let errs ← d.toMultip
    errs.foldlM (fun v ne => do
      let x ← idx (pick p source) ne.1
      .ok (addPadded v (ne.2.map (fun y => x * y)))) v
  else .ok v

/-- pySC/core/simulated_commissioning.py:1078-1085: the new `Polynom{target}` -/
def newPolynom (r : Ring K) (tgt : Nat) (p : List K × List K) (target : String) : Except Err (List K) := do
  let h ← r.hasA tgt ("Polynom" ++ target ++ "Offset")
  let v ← if h then do
      let off ← r.getA tgt ("Polynom" ++ target ++ "Offset")
      let o ← off.asVec
      .ok (addPadded (pick p target) o)
    else .ok (pick p target)
  let v ← addSystematic r tgt p target "A" v
  addSystematic r tgt p target "B" v

/-- `self.RING[tgt].PolynomB[0] += x` -/
def addToPolynomB0 (tgt : Nat) (x : K) : Py (SC K) Unit := do
  let p ← rd (fun r => r.getVec tgt "PolynomB")
  let p0 ← lift (idx p 0)
  setAttr tgt "PolynomB" (.vec (p.set 0 (p0 + x)))

/-- pySC/core/simulated_commissioning.py:1088-1090: dipole term from `BendingAngleError`, if there is one -/
def bendingErrorTerm (r : Ring K) (src tgt : Nat) : Except Err (Option K) := do
  let h ← r.hasA src "BendingAngleError"
  if h then do
    let bae ← r.getNum src "BendingAngleError"
    let ba ← r.getNum tgt "BendingAngle"
    let len ← r.getNum tgt "Length"
    let x ← divE (bae * ba) len
    .ok (some x)
  else .ok none

/-- pySC/core/simulated_commissioning.py:1092: `hasattr(.., 'CombinedFunction') and ...CombinedFunction` -/
def isCombinedFunction (r : Ring K) (src : Nat) : Except Err Bool := do
  let h ← r.hasA src "CombinedFunction"
  if h then do
    let v ← r.getA src "CombinedFunction"
    v.toFlag
  else .ok false

/-- pySC/core/simulated_commissioning.py:1091-1097: dipole term of a combined function magnet, if it is one -/
def combinedFunctionTerm (r : Ring K) (src tgt : Nat) : Except Err (Option K) := do
  let h ← r.hasA src "BendingAngle"
  if h then do
    let cf ← isCombinedFunction r src
    if cf then do
      let sp1 ← r.getVecAt src "SetPointB" 1
      let cal1 ← r.getVecAt src "CalErrorB" 1
      let nom1 ← r.getVecAt src "NomPolynomB" 1
      let alpha ← divE (sp1 * (1 + cal1)) nom1
      let ba ← r.getNum tgt "BendingAngle"
      let len ← r.getNum tgt "Length"
      let x ← divE (alpha * ba - ba) len
      .ok (some x)
    else .ok none
  else .ok none

/-- add an optional dipole term -/
def addTerm (tgt : Nat) : Option K → Py (SC K) Unit
  | some x => addToPolynomB0 tgt x
  | none => Py.pure ()

/-- `[PolynomB[0], PolynomA[0]]` (lines 1099-1100) -/
def kickAngle (r : Ring K) (tgt : Nat) : Except Err (List K) := do
  let b0 ← r.getVecAt tgt "PolynomB" 0
  let a0 ← r.getVecAt tgt "PolynomA" 0
  .ok [b0, a0]

/-- pySC/core/simulated_commissioning.py:1073-1101 `_update_magnets(source_ord, target_ord)` -/
def updateMagnet (src tgt : Nat) : Py (SC K) Unit := do
  let p ← rd (fun r => polynoms r src)
  forEach ["A", "B"] (fun target => do
    let v ← rd (fun r => newPolynom r tgt p target)
    setAttr tgt ("Polynom" ++ target) (.vec v))
  let x ← rd (fun r => bendingErrorTerm r src tgt)
  addTerm tgt x
  let y ← rd (fun r => combinedFunctionTerm r src tgt)
  addTerm tgt y
  let pass ← rd (fun r => r.getStr src "PassMethod")
  when (decide (pass = "CorrectorPass")) do
    let k ← rd (fun r => kickAngle r tgt)
    setAttr tgt "KickAngle" (.vec k)
  let pb ← rd (fun r => r.getVec tgt "PolynomB")
  setAttr tgt "MaxOrder" (.int ((pb.length : Int) - 1))

/-- `self.RING[ind].MasterOf` or nothing (lines 661-662) -/
def childrenOf (r : Ring K) (ind : Nat) : Except Err (List Nat) := do
  let h ← r.hasA ind "MasterOf"
  if h then do
    let m ← r.getA ind "MasterOf"
    m.toOrds
  else .ok []

/-- pySC/core/simulated_commissioning.py:660-663, body of the loop of `update_magnets` -/
def updateMagnetAndChildren (ind : Nat) : Py (SC K) Unit := do
  updateMagnet ind ind
  let ch ← rd (fun r => childrenOf r ind)
  forEach ch (fun child => updateMagnet ind child)

/-- pySC/core/simulated_commissioning.py:634-663 `update_magnets(ords)`; `none` means all registered magnets -/
def updateMagnets (ords : Option (List Nat)) : Py (SC K) Unit := do
  let s ← get
  forEach (ords.getD s.ORD.Magnet) updateMagnetAndChildren

/-- pySC/core/constants.py:3 -/
def rfProperties : List String := ["Voltage", "Frequency", "TimeLag"]

/-- pySC/core/simulated_commissioning.py:630-632: set-point with calibration error and offset -/
def cavityField (r : Ring K) (ind : Nat) (field : String) : Except Err K := do
  let sp ← r.getNum ind (field ++ "SetPoint")
  let cal ← r.getNum ind (field ++ "CalError")
  let off ← r.getNum ind (field ++ "Offset")
  .ok (sp * (1 + cal) + off)

/-- pySC/core/simulated_commissioning.py:629-632 for one cavity and one field -/
def updateCavityField (ind : Nat) (field : String) : Py (SC K) Unit := do
  let x ← rd (fun r => cavityField r ind field)
  setAttr ind field (.num x)

/-- pySC/core/simulated_commissioning.py:615-632 `update_cavities(ords)` -/
def updateCavities (ords : Option (List Nat)) : Py (SC K) Unit := do
  let s ← get
  forEach (ords.getD s.ORD.RF) (fun ind => forEach rfProperties (updateCavityField ind))

end PySC
