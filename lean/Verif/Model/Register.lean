import Verif.Model.Magnets
import Mathlib.Data.List.Sort
/-
pySC/core/simulated_commissioning.py: register_bpms, register_cavities, register_magnets, register_supports,
_check_kwargs, _optional_magnet_fields; pySC/utils/classdef_tools.py: update_double_ordinates.
Ordinates are 1-D integer arrays; the warnings written to the log are left out.
-/
namespace PySC
variable {K : Type _} [Field K] [LinearOrder K]
open Py

/-- keyword arguments -/
abbrev Kwargs (K : Type _) := Dict String (Attr K)

/-- pySC/core/constants.py:2 -/
def genericFields : List String := ["Setpoint", "Offset", "CalError"]
/-- pySC/core/constants.py:4 -/
def rfErrorFields : List String := rfProperties.flatMap (fun p => genericFields.map (fun f => p ++ f))
/-- pySC/core/constants.py:5 (the order matters) -/
def supportTypes : List String := ["Section", "Plinth", "Girder"]
/-- pySC/core/constants.py:6 -/
def supportErrorFields : List String := ["Offset", "Roll"]
/-- pySC/core/constants.py:7 -/
def bpmErrorFields : List String := ["Noise", "NoiseCO", "Offset", "Roll", "CalError", "SumError"]
/-- pySC/core/constants.py:8 -/
def magnetTypeFields : List String := ["HCM", "VCM", "CF", "SkewQuad", "MasterOf"]
/-- pySC/core/constants.py:9 -/
def magnetErrorFields : List String := ["MagnetOffset", "MagnetRoll", "CalErrorA", "CalErrorB", "BendingAngle"]

/-- pySC/core/simulated_commissioning.py:1052-1055 `_check_kwargs` -/
def checkKwargs (kw : Kwargs K) (allowed : List String) : Except Err Unit :=
  if (kw.keys.filter (fun k => decide (k ∉ allowed))).length ≠ 0 then .error .valueError else .ok ()

/-- `np.zeros(n)` -/
def zeros (n : Nat) : List K := List.replicate n 0

/-- pySC/core/classes.py:65-76 -/
def Inj.default : Inj K where
  beamLostAt := 1
  Z0ideal := zeros 6
  Z0 := zeros 6
  beamSize := List.replicate 6 (zeros 6)
  randomInjectionZ := zeros 6
  staticInjectionZ := zeros 6
  nParticles := 1
  nTurns := 1
  nShots := 1
  trackMode := "TBT"

/-- pySC/core/classes.py:117-127 -/
def Ords.default : Ords := ⟨[], [], [], [], [], [], [], [], []⟩
/-- pySC/core/classes.py:155-163 -/
def Sigs.default : Sigs K := ⟨[], [], [], [], zeros 6, zeros 6, 0⟩

/-- pySC/core/simulated_commissioning.py:63-74 `SimulatedCommissioning.__init__` (`plot` left out).  `rng` is the
position reached in the stream of random numbers. -/
def SC.init (ring : Ring K) (rng : Nat) : SC K where
  RING := ring
  IDEALRING := ring
  INJ := Inj.default
  SIG := Sigs.default
  ORD := Ords.default
  rng := rng

/-- create the dictionary of `ind` if it is missing, then `.update(kw)` (e.g. lines 128-130) -/
def sigUpdate (d : Dict Nat (Kwargs K)) (ind : Nat) (kw : Kwargs K) : Dict Nat (Kwargs K) :=
  d.set ind (((d.get? ind).getD []).update kw)

/-- change `self.ORD` -/
def modOrd (f : Ords → Ords) : Py (SC K) Unit := modify (fun s => { s with ORD := f s.ORD })
/-- change `self.SIG` -/
def modSig (f : Sigs K → Sigs K) : Py (SC K) Unit := modify (fun s => { s with SIG := f s.SIG })

/-- pySC/core/simulated_commissioning.py:132-139: the attributes given to a BPM -/
def bpmInit : List (String × Attr K) :=
  [("Noise", .vec (zeros 2)), ("NoiseCO", .vec (zeros 2)), ("Offset", .vec (zeros 2)), ("SupportOffset", .vec (zeros 2)),
   ("Roll", .num 0), ("SupportRoll", .num 0), ("CalError", .vec (zeros 2)), ("SumError", .num 0)]

/-- pySC/core/simulated_commissioning.py:127-139, body of the loop -/
def registerBpm1 (kw : Kwargs K) (ind : Nat) : Py (SC K) Unit := do
  modSig (fun g => { g with BPM := sigUpdate g.BPM ind kw })
  forEach bpmInit (fun p => setAttr ind p.1 p.2)

/-- pySC/core/simulated_commissioning.py:76-139 `register_bpms` -/
def registerBpms (ords : List Nat) (kw : Kwargs K) : Py (SC K) Unit := do
  lift (checkKwargs kw bpmErrorFields)
  modOrd (fun o => { o with BPM := npUnique (o.BPM ++ ords) })
  forEach (npUnique ords) (registerBpm1 kw)

/-- pySC/core/simulated_commissioning.py:189-192 -/
def registerRfField (ind : Nat) (field : String) : Py (SC K) Unit := do
  let v ← rd (fun r => r.getA ind field)
  setAttr ind (field ++ "SetPoint") v
  setAttr ind (field ++ "Offset") (.num 0)
  setAttr ind (field ++ "CalError") (.num 0)

/-- pySC/core/simulated_commissioning.py:185-192, body of the loop -/
def registerCavity1 (kw : Kwargs K) (ind : Nat) : Py (SC K) Unit := do
  modSig (fun g => { g with RF := sigUpdate g.RF ind kw })
  forEach rfProperties (registerRfField ind)

/-- pySC/core/simulated_commissioning.py:141-192 `register_cavities` -/
def registerCavities (ords : List Nat) (kw : Kwargs K) : Py (SC K) Unit := do
  lift (checkKwargs kw rfErrorFields)
  modOrd (fun o => { o with RF := npUnique (o.RF ++ ords) })
  forEach (npUnique ords) (registerCavity1 kw)

/-- pySC/core/simulated_commissioning.py:330-333: zero arrays as long as the polynomial -/
def registerZeros (ind : Nat) (ab : String) : Py (SC K) Unit := do
  let p ← rd (fun r => r.getVec ind ("Polynom" ++ ab))
  forEach ["NomPolynom", "SetPoint", "CalError"] (fun field => setAttr ind (field ++ ab) (.vec (zeros p.length)))

/-- `self.RING[ind].{field}{ab} += self.RING[ind].Polynom{ab}` (lines 334-337; the arrays have the same length) -/
def addPolynom (ind : Nat) (field ab : String) : Py (SC K) Unit := do
  let z ← rd (fun r => r.getVec ind (field ++ ab))
  let p ← rd (fun r => r.getVec ind ("Polynom" ++ ab))
  setAttr ind (field ++ ab) (.vec (List.zipWith (· + ·) z p))

/-- pySC/core/simulated_commissioning.py:338-343 -/
def magnetInit : List (String × Attr K) :=
  [("MagnetOffset", .vec (zeros 3)), ("SupportOffset", .vec (zeros 3)), ("MagnetRoll", .vec (zeros 3)),
   ("SupportRoll", .vec (zeros 3)), ("T1", .vec (zeros 6)), ("T2", .vec (zeros 6))]

/-- pySC/core/simulated_commissioning.py:1060-1061: create `CMlimit` if needed -/
def ensureCMlimit (ind : Nat) : Py (SC K) Unit := do
  let h ← rd (fun r => r.hasA ind "CMlimit")
  when (!h) (setAttr ind "CMlimit" (.lims [.fin 0, .fin 0]))

/-- `self.RING[ind].CMlimit[k] = v` (lines 1063, 1065) -/
def setCMlimit (ind k : Nat) (v : Attr K) : Py (SC K) Unit := do
  let a ← rd (fun r => r.getA ind "CMlimit")
  let ls ← lift a.toLims
  let l ← lift v.toLim
  let _ ← lift (idx ls k)
  setAttr ind "CMlimit" (.lims (ls.set k l))

/-- `if key in kwargs.keys(): body(kwargs[key])` -/
def withKey (kw : Kwargs K) (key : String) (body : Attr K → Py (SC K) Unit) : Py (SC K) Unit :=
  match kw.get? key with
  | some v => body v
  | none => Py.pure ()

/-- pySC/core/simulated_commissioning.py:1069-1071: the child ordinates of the `ind`-th magnet: column of the array
belonging to the position of `ind` in the list of magnets -/
def masterOf (ords : List Nat) (ind : Nat) (v : Attr K) : Except Err (List Nat) :=
  match v with
  | .ordMat m =>
    if 1 < ords.count ind then .error .valueError
    else m.mapM (fun row => idx row (ords.idxOf ind))
  | _ => if 1 < ords.count ind then .error .valueError else .error .typeError

/-- pySC/core/simulated_commissioning.py:1057-1071 `_optional_magnet_fields` -/
def optionalMagnetFields (ind : Nat) (ords : List Nat) (kw : Kwargs K) : Py (SC K) Unit := do
  withKey kw "CF" (fun _ => setAttr ind "CombinedFunction" (.flag true))
  when (kw.has "HCM" || kw.has "VCM") (ensureCMlimit ind)
  withKey kw "HCM" (setCMlimit ind 0)
  withKey kw "VCM" (setCMlimit ind 1)
  withKey kw "SkewQuad" (setAttr ind "SkewQuadLimit")
  withKey kw "MasterOf" (fun v => do
    let l ← lift (masterOf ords ind v)
    setAttr ind "MasterOf" (.ords l))

/-- pySC/core/simulated_commissioning.py:325-344, body of the loop -/
def registerMagnet1 (ords : List Nat) (kw : Kwargs K) (ind : Nat) : Py (SC K) Unit := do
  modSig (fun g => { g with Magnet := sigUpdate g.Magnet ind (kw.filter (fun p => p.1 ∉ magnetTypeFields)) })
  forEach ["A", "B"] (registerZeros ind)
  addPolynom ind "NomPolynom" "B"
  addPolynom ind "NomPolynom" "A"
  addPolynom ind "SetPoint" "B"
  addPolynom ind "SetPoint" "A"
  forEach magnetInit (fun p => setAttr ind p.1 p.2)
  optionalMagnetFields ind ords kw

/-- pySC/core/simulated_commissioning.py:318-324: the new index lists -/
def magnetOrds (o : Ords) (ords : List Nat) (kw : Kwargs K) : Ords :=
  { o with
    Magnet := npUnique (o.Magnet ++ ords)
    SkewQuad := if kw.has "SkewQuad" then npUnique (o.SkewQuad ++ ords) else o.SkewQuad
    HCM := if kw.has "HCM" then npUnique (o.HCM ++ ords) else o.HCM
    VCM := if kw.has "VCM" then npUnique (o.VCM ++ ords) else o.VCM }

/-- pySC/core/simulated_commissioning.py:194-344 `register_magnets` -/
def registerMagnets (ords : List Nat) (kw : Kwargs K) : Py (SC K) Unit := do
  lift (checkKwargs kw (magnetTypeFields ++ magnetErrorFields))
  modOrd (fun o => magnetOrds o ords kw)
  forEach ords (registerMagnet1 ords kw)

/-! ### Supports -/

/-- order of `np.lexsort((con[0, :], con[1, :]))`: by the second row, then by the first -/
def pairLe (a b : Nat × Nat) : Prop := a.2 < b.2 ∨ (a.2 = b.2 ∧ a.1 ≤ b.1)
instance : DecidableRel pairLe := fun a b => by unfold pairLe; infer_instance

/-- keep a column unless it equals its predecessor -/
def dropRepeats : List (Nat × Nat) → List (Nat × Nat)
  | [] => []
  | [x] => [x]
  | x :: y :: r => if x = y then dropRepeats (y :: r) else x :: dropRepeats (y :: r)

/-- pySC/utils/classdef_tools.py:7-10 `update_double_ordinates`; arrays are lists of columns.  Without any column the
boolean mask of length one does not fit. -/
def updateDoubleOrdinates (o1 o2 : List (Nat × Nat)) : Except Err (List (Nat × Nat)) :=
  if o1 ++ o2 = [] then .error .indexError else .ok (dropRepeats ((o1 ++ o2).insertionSort pairLe))

/-- `self.ORD[support_type]` -/
def Ords.pairs (o : Ords) (t : String) : List (Nat × Nat) :=
  if t = "Section" then o.Section else if t = "Plinth" then o.Plinth else o.Girder
/-- `self.ORD[support_type] = v` -/
def Ords.setPairs (o : Ords) (t : String) (v : List (Nat × Nat)) : Ords :=
  if t = "Section" then { o with Section := v } else if t = "Plinth" then { o with Plinth := v }
  else { o with Girder := v }

/-- `self.SIG.Support[i][name] = v` -/
def setSupportSig (i : Nat) (name : String) (v : Attr K) : Py (SC K) Unit :=
  modSig (fun g => { g with Support := g.Support.set i (((g.Support.get? i).getD []).set name v) })

/-- pySC/core/simulated_commissioning.py:434-448: store one uncertainty for one support.  A one dimensional value is
stored at the start only, the rows of a two dimensional one at the start and at the end. -/
def storeSupportSig (t : String) (pr : Nat × Nat) (kv : String × Attr K) : Py (SC K) Unit :=
  match kv.2 with
  | .pair (.vec v) c => setSupportSig pr.1 (t ++ kv.1) (.pair (.vec v) c)
  | .pair (.mat m) c => do
    let v0 ← lift (idx m 0)
    setSupportSig pr.1 (t ++ kv.1) (.pair (.vec v0) c)
    let v1 ← lift (idx m 1)
    setSupportSig pr.2 (t ++ kv.1) (.pair (.vec v1) c)
  | .vec v => setSupportSig pr.1 (t ++ kv.1) (.vec v)
  | .mat m => do
    let v0 ← lift (idx m 0)
    setSupportSig pr.1 (t ++ kv.1) (.vec v0)
    let v1 ← lift (idx m 1)
    setSupportSig pr.2 (t ++ kv.1) (.vec v1)
  | _ => Py.throw .attributeError

/-- pySC/core/simulated_commissioning.py:430-433, body of the loop -/
def initSupport (t : String) (ind : Nat) : Py (SC K) Unit := do
  setAttr ind (t ++ "Offset") (.vec (zeros 3))
  setAttr ind (t ++ "Roll") (.vec (zeros 3))
  modSig (fun g => { g with Support := g.Support.set ind [] })

/-- pySC/core/simulated_commissioning.py:346-448 `register_supports`; `rows` are the rows of the array of ordinates
(of equal length, as in every numpy array). -/
def registerSupports (rows : List (List Nat)) (t : String) (kw : Kwargs K) : Py (SC K) Unit :=
  if t ∉ supportTypes then Py.throw .valueError
  else do
    lift (checkKwargs kw supportErrorFields)
    if rows.length ≠ 2 then Py.throw .valueError
    else do
      let pairs := (rows.getD 0 []).zip (rows.getD 1 [])
      let s ← get
      let new ← lift (updateDoubleOrdinates (s.ORD.pairs t) pairs)
      modOrd (fun o => o.setPairs t new)
      forEach rows.flatten (initSupport t)
      forEach pairs (fun pr => forEach kw (storeSupportSig t pr))

end PySC
