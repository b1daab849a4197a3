import Verif.Model.Setpoints
import Verif.Model.Response
/-
Models pySC/correction/loco_wrapper.py: the structures given to LOCO and the correction of the machine with its result.
Not modelled: `loco_model`, which only collects flags.
-/
set_option linter.unusedSectionVars false
namespace PySC
variable {K : Type} [Field K] [LinearOrder K]
open Py

/-- The part of `fit_parameters` which `apply_lattice_correction` uses: for each group the elements with the names of their fields
(`Params[n][m].ElemIndex`, `.SCFieldName`), and for each group the set-point before the fit, the wanted and the fitted value. -/
structure FitParameters (K : Type) where
  params : List (List (Nat × String))
  orig : List K
  ideal : List K
  values : List K

/-- pySC/correction/loco_wrapper.py:100-107: one element of group `n` -/
def correctElement [FloorRing K] (fp : FitParameters K) (dipComp : Bool) (damping : K) (n : Nat) (p : Nat × String) : Py (SC K) Unit := do
  let o ← lift (idx fp.orig n)
  let i ← lift (idx fp.ideal n)
  let v ← lift (idx fp.values n)
  let setpoint := o + damping * (i - v)
  if p.2 = "SetPointB" then setMagnetSetpoints [p.1] ⟨false, [setpoint]⟩ false 1 "abs" dipComp
  else if p.2 = "SetPointA" then setMagnetSetpoints [p.1] ⟨false, [setpoint]⟩ true 1 "abs" false
  else Py.pure ()

/-- pySC/correction/loco_wrapper.py:97-109 `apply_lattice_correction` (it returns `None`, the result of `update_magnets`) -/
def applyLatticeCorrection [FloorRing K] (fp : FitParameters K) (dipComp : Bool) (damping : K) : Py (SC K) Unit := do
  forEach fp.params.zipIdx (fun g => forEach g.1 (fun p => correctElement fp dipComp damping g.2 p))
  let s ← get
  updateMagnets (some s.ORD.Magnet)

/-- pySC/correction/loco_wrapper.py:25-34 `loco_bpm_structure`.  `fitCoupling = none`: the entry does not exist. -/
structure BpmData (K : Type) where
  index : List Nat
  fitGains : Bool
  hIndex : List Nat
  vIndex : List Nat
  hGain : List K
  vGain : List K
  hCoupling : List K
  vCoupling : List K
  fitCoupling : Option Bool

/-- pySC/correction/loco_wrapper.py:25-34 `loco_bpm_structure` without further arguments -/
def locoBpmStructure (bpms : Option (List Nat)) (s : SC K) : BpmData K :=
  let l := bpms.getD s.ORD.BPM
  { index := l, fitGains := false, hIndex := List.range l.length, vIndex := List.range l.length,
    hGain := List.replicate l.length 1, vGain := List.replicate l.length 1,
    hCoupling := zeros l.length, vCoupling := zeros l.length, fitCoupling := none }

/-- the argument `cm_steps` -/
inductive CmSteps (K : Type) where
  | none
  | scalar (x : K)
  | planes (h v : List K)

/-- pySC/correction/loco_wrapper.py:37-54 -/
structure CmData (K : Type) where
  hIndex : List Nat
  vIndex : List Nat
  fitKicks : Bool
  hCoupling : List K
  vCoupling : List K
  hSteps : List K
  vSteps : List K
  hKicks : List K
  vKicks : List K

/-- `2e3 * np.ones(n)` times the steps -/
def kicksOf (n : Nat) (steps : List K) : Except Err (List K) :=
  if steps.length = n then .ok (steps.map (fun x => 2000 * x))
  else if steps.length = 1 then .ok (List.replicate n (2000 * steps.headD 0))
  else .error .valueError

/-- pySC/correction/loco_wrapper.py:37-54 `loco_cm_structure` without further arguments; `cms = none` stands for the
registered correctors (pySC/core/classes.py `Indices.CM`), `CmSteps.none` for the default of `cm_steps`, which has no length -/
def locoCmStructure (cms : Option (List Nat × List Nat)) (steps : CmSteps K) (s : SC K) : Except Err (CmData K) := do
  let c := cms.getD (s.ORD.HCM, s.ORD.VCM)
  let st ← (match steps with
    | .none => .error .typeError
    | .scalar x => .ok (List.replicate c.1.length x, List.replicate c.2.length x)
    | .planes h v => .ok (h, v))
  let kh ← kicksOf c.1.length st.1
  let kv ← kicksOf c.2.length st.2
  .ok { hIndex := c.1, vIndex := c.2, fitKicks := false, hCoupling := zeros c.1.length, vCoupling := zeros c.2.length,
        hSteps := st.1, vSteps := st.2, hKicks := kh, vKicks := kv }

/-- pySC/correction/loco_wrapper.py:57-66 `loco_measurement` without further arguments (amplitudes given by corrector); it ends with the
dispersion in three steps.  The frequency is only read. -/
def locoMeasurement [FloorRing K] (E : Env K) (B : BeamEnv K) (amp : List K × List K) (deltaRF : K) (bpms : List Nat)
    (cms : List Nat × List Nat) : Py (SC K) (List (List K) × List (Option K)) := do
  let s ← get
  let cav ← lift (idx s.ORD.RF 0)
  let _ ← rd (fun r => r.getNum cav "Frequency")
  let rm ← responseMatrix E B amp bpms cms "fixedKick" 2
  let eta ← dispersion E B false deltaRF (some bpms) none 3
  Py.pure (rm, eta)

/-- pySC/correction/loco_wrapper.py:69-94 `loco_fit_parameters`: the first element of any family is stored in `fit_parameters.Params`,
which does not exist (`DotDict.__getattr__`, pySC/core/classes.py:24-28) -/
def locoFitParameters (families : List (List Nat)) : Except Err Unit :=
  if families.any (fun f => !f.isEmpty) then .error .attributeError else .ok ()

/-- the argument `outlierRemovalAt`: `None` (the default), `[]` or a number -/
inductive Outliers (K : Type) where
  | none
  | empty
  | at (t : K)

/-- pySC/correction/loco_wrapper.py:136-140: gains used for the correction; `None` can not be compared with an array.  (The outliers
are also replaced in the given structure.) -/
def usedGains (out : Outliers K) (meanToZero : Bool) (g : List K) : Except Err (List K) := do
  let g ← (match out with
    | .none => .error .typeError
    | .empty => .ok g
    | .at t => .ok (g.map (fun x => if t ≤ |1 - x| then 1 else x)))
  if meanToZero then .ok (g.map (fun x => x + (g.map (fun y => 1 - y)).sum / (g.length : K)))
  else .ok g

/-- `SC.RING[ord].CalError[p] = SC.RING[ord].CalError[p] + d` -/
def addCalError (ord p : Nat) (d : K) : Py (SC K) Unit := do
  let v ← rd (fun r => r.getVec ord "CalError")
  let x ← lift (idx v p)
  setAttr ord "CalError" (.vec (v.set p (x + d)))

/-- pySC/correction/loco_wrapper.py:135-144: the gains of one plane -/
def correctGains (d : BpmData K) (out : Outliers K) (meanToZero : Bool) (p : Nat) : Py (SC K) Unit := do
  let g ← lift (usedGains out meanToZero (if p = 0 then d.hGain else d.vGain))
  let ords ← lift ((if p = 0 then d.hIndex else d.vIndex).mapM (idx d.index))
  forEach ords.zipIdx (fun o => do
    let x ← lift (idx g o.2)
    addCalError o.1 p (1 - x))

/-- pySC/correction/loco_wrapper.py:122-133: the kicks of one plane; lattice elements can not be subscripted by names of fields.  (The
preceding arithmetic can fail in other ways.) -/
def correctKicks (c : CmData K) (p : Nat) : Py (SC K) Unit :=
  if (if p = 0 then c.hIndex else c.vIndex).isEmpty then Py.pure () else Py.throw .typeError

/-- pySC/correction/loco_wrapper.py:146-149 -/
def correctRolls (d : BpmData K) : Py (SC K) Unit := do
  if d.vCoupling.length ≠ d.hCoupling.length then Py.throw .valueError
  else forEach d.index.zipIdx (fun o => do
    let v ← lift (idx d.vCoupling o.2)
    let h ← lift (idx d.hCoupling o.2)
    let x ← rd (fun r => r.getNum o.1 "Roll")
    setAttr o.1 "Roll" (.num (x - (v - h) / 2)))

/-- pySC/correction/loco_wrapper.py:112-150 `applyDiagnosticCorrection` (with `cm_step` of the required form) -/
def applyDiagnosticCorrection (c : CmData K) (d : BpmData K) (meanToZero : Bool) (out : Outliers K) : Py (SC K) Unit := do
  forEach [0, 1] (fun p => do
    Py.when c.fitKicks (correctKicks c p)
    Py.when d.fitGains (correctGains d out meanToZero p))
  match d.fitCoupling with
  | none => Py.throw .attributeError
  | some false => Py.pure ()
  | some true => correctRolls d

end PySC
