import Verif.Model.Beam
import Verif.Model.Setpoints
import Verif.Model.Fit
/-
pySC/lattice_properties/response_model.py (without apertures), pySC/lattice_properties/response_measurement.py and
`measure_closed_orbit_response_matrix` of pySC/correction/loco.py.  Response matrices are lists of columns, `none` being NaN.
-/
namespace PySC
variable {K : Type} [Field K] [LinearOrder K]
open Py

/-- pySC/lattice_properties/response_model.py:52 and 89-90: (x, y) of the particle starting at `Z0` at one reference point in one
turn, or of the closed orbit -/
def modelPosition (B : BeamEnv K) (mode : String) (Z0 : List K) (r : Ring K) (ref turn : Nat) : Option K × Option K :=
  if mode = "ORB" then B.orbit r ref else (B.track r [Z0] ref turn).headD (none, none)

/-- the order of the rows (lines 83-84): all x turn by turn, then all y.  `nt` is the number of turns. -/
def modelTrajectory (B : BeamEnv K) (mode : String) (Z0 : List K) (nt : Nat) (bpms : List Nat) (r : Ring K) : List (Option K) :=
  flatten2 bpms.length nt (fun b t => (modelPosition B mode Z0 r (bpms.getD b 0) t).1) ++
  flatten2 bpms.length nt (fun b t => (modelPosition B mode Z0 r (bpms.getD b 0) t).2)

/-- `(b - a) / d` -/
def diffQuot (d : K) (b a : Option K) : Option K :=
  match b, a with
  | some b, some a => some ((b - a) / d)
  | _, _ => none

/-- pySC/lattice_properties/response_model.py:69-81: the model with one corrector changed, and the model after it was changed back -/
def kickModel (dkick : K) (skew : Bool) (r : Ring K) (cm : Nat) : Except Err (Ring K × Ring K) := do
  let pass ← r.getStr cm "PassMethod"
  if pass = "CorrectorPass" then do
    let v ← r.getVec cm "KickAngle"
    let k ← idx v (if skew then 1 else 0)
    let v1 := v.set (if skew then 1 else 0) (k + dkick)
    let v2 := v1.set (if skew then 1 else 0) k
    .ok (r.setAttr cm "KickAngle" (.vec v1), (r.setAttr cm "KickAngle" (.vec v1)).setAttr cm "KickAngle" (.vec v2))
  else do
    let p ← r.getVec cm ("Polynom" ++ letter skew)
    let len ← r.getNum cm "Length"
    let delta ← divE dkick len
    let p0 ← idx p 0
    let r1 := r.setAttr cm ("Polynom" ++ letter skew) (.vec (p.set 0 (p0 + (if skew then 1 else -1) * delta)))
    .ok (r1, r1.setAttr cm ("Polynom" ++ letter skew) (.vec p))

/-- pySC/lattice_properties/response_model.py:66-85: the columns of the response matrix, `T` giving the trajectory in a model and
`Ta` being the one without kicks -/
def modelColumns (T : Ring K → List (Option K)) (dkick : K) (Ta : List (Option K)) :
    List (Bool × Nat) → Ring K → Except Err (List (List (Option K)))
  | [], _ => .ok []
  | c :: l, r => do
    let rr ← kickModel dkick c.1 r c.2
    let cols ← modelColumns T dkick Ta l rr.2
    if dkick = 0 then .error .nonFinite
    else .ok (List.zipWith (diffQuot dkick) (T rr.1) Ta :: cols)

/-- pySC/lattice_properties/response_model.py:162-174: one element of the model lattice.  The arrays of set-points are not copied
into the model (pyAT does not copy arrays of floats), so setting the dipole component to zero also changes the machine.
(`includeAperture` is not modelled.) -/
def modelElem (ord : Nat) : Py (SC K) (Elem K) := do
  let s ← get
  let m ← lift (s.IDEALRING.getE ord)
  let hA ← rd (fun r => r.hasA ord "SetPointA")
  let hB ← rd (fun r => r.hasA ord "SetPointB")
  let m ← (if hA && hB then do
      let a ← rd (fun r => r.getVec ord "SetPointA")
      let b ← rd (fun r => r.getVec ord "SetPointB")
      let _ ← lift (idx a 0)
      setAttr ord "SetPointA" (.vec (a.set 0 0))
      let _ ← lift (idx b 0)
      setAttr ord "SetPointB" (.vec (b.set 0 0))
      Py.pure ((m.set "PolynomA" (.vec (a.set 0 0))).set "PolynomB" (.vec (b.set 0 0)))
    else Py.pure m)
  let hF ← rd (fun r => r.hasA ord "Frequency")
  if !s.ORD.RF.isEmpty && hF then do
    let v ← rd (fun r => r.getA ord "VoltageSetPoint")
    let f ← rd (fun r => r.getA ord "FrequencySetPoint")
    let t ← rd (fun r => r.getA ord "TimeLagSetPoint")
    Py.pure (((m.set "Voltage" v).set "Frequency" f).set "TimeLag" t)
  else Py.pure m

/-- pySC/lattice_properties/response_model.py:145-175 `SCgetModelRING`.  (Elements of the design beyond the end of the machine do
not occur.) -/
def modelRing : Py (SC K) (Ring K) := do
  let s ← get
  mapEach (List.range s.RING.length) modelElem

/-- pySC/lattice_properties/response_model.py:55 and 127: the lattice to be used -/
def chooseModel (useIdeal : Bool) : Py (SC K) (Ring K) := do
  let s ← get
  if useIdeal then Py.pure s.IDEALRING else modelRing

/-- pySC/lattice_properties/response_model.py:11-86 `SCgetModelRM` (one particle; an unknown mode is a KeyError, the ValueError in
line 54 is not raised) -/
def modelRM (B : BeamEnv K) (bpms : List Nat) (cms : List Nat × List Nat) (mode : String) (Z0 : List K) (nTurns : Nat) (dkick : K)
    (useIdeal : Bool) : Py (SC K) (List (List (Option K))) := do
  let r ← chooseModel useIdeal
  if mode ≠ "TBT" ∧ mode ≠ "ORB" then Py.throw .keyError
  else
    let T := modelTrajectory B mode Z0 (if mode = "ORB" then 1 else nTurns) bpms
    if (T r).any Option.isNone then Py.throw .valueError
    else lift (modelColumns T dkick (T r) (cms.1.map (fun c => (false, c)) ++ cms.2.map (fun c => (true, c))) r)

/-- pySC/lattice_properties/response_model.py:136-137 -/
def stepFrequencies (step : K) : List Nat → Ring K → Except Err (Ring K)
  | [], r => .ok r
  | c :: l, r => do
    let f ← r.getNum c "Frequency"
    stepFrequencies step l (r.setAttr c "Frequency" (.num (f + step)))

/-- pySC/lattice_properties/response_model.py:93-142 `SCgetModelDispersion` -/
def modelDispersion (B : BeamEnv K) (bpms cavs : List Nat) (mode : String) (Z0 : List K) (nTurns : Nat) (rfStep : K)
    (useIdeal : Bool) : Py (SC K) (List (Option K)) := do
  let r ← chooseModel useIdeal
  if mode ≠ "TBT" ∧ mode ≠ "ORB" then Py.throw .keyError
  else
    let T := modelTrajectory B mode Z0 (if mode = "ORB" then 1 else nTurns) bpms
    if (T r).any Option.isNone then Py.throw .valueError
    else do
      let r1 ← lift (stepFrequencies rfStep cavs r)
      if rfStep = 0 then Py.throw .nonFinite
      else Py.pure (List.zipWith (diffQuot rfStep) (T r1) (T r))

section
variable [FloorRing K]

/-- `np.ravel(bpm_reading(SC, bpm_ords=bpms)[0])` -/
def ravelReading (E : Env K) (B : BeamEnv K) (bpms : List Nat) : Py (SC K) (List (Option K)) := do
  let r ← bpmReading E B (some bpms) false
  Py.pure (r.x ++ r.y)

/-- pySC/lattice_properties/response_measurement.py:68-69: `linspace` of frequencies around the present one for one cavity -/
def freqSteps (r : Ring K) (step : K) (n : Nat) (cav : Nat) : Except Err (List K) := do
  let f ← r.getNum cav "FrequencySetPoint"
  .ok ((linspace (-step) step n).map (fun x => f + x))

/-- pySC/lattice_properties/response_measurement.py:59-76 `dispersion`.  The last line raises because the matrix given to
`lstsq` is one-dimensional.  `isInt` says whether the step is given as an integer. -/
def dispersion (E : Env K) (B : BeamEnv K) (isInt : Bool) (step : K) (bpms cavs : Option (List Nat)) (nSteps : Nat) :
    Py (SC K) (List (Option K)) := do
  let s ← get
  let bpms := bpms.getD s.ORD.BPM
  let cavs := cavs.getD s.ORD.RF
  let bref ← ravelReading E B bpms
  if nSteps = 2 then do
    setCavitySetpoints cavs ⟨isInt, [step]⟩ "Frequency" "add"
    let b ← ravelReading E B bpms
    setCavitySetpoints cavs ⟨isInt, [-step]⟩ "Frequency" "add"
    if step = 0 then Py.throw .nonFinite
    else Py.pure (List.zipWith (diffQuot step) b bref)
  else do
    let steps ← rd (fun r => cavs.mapM (freqSteps r step nSteps))
    let rf0 ← rd (fun r => cavs.mapM (fun c => r.getNum c "FrequencySetPoint"))
    forEach (List.range nSteps) (fun k => do
      setCavitySetpoints cavs ⟨false, steps.map (fun v => v.getD k 0)⟩ "Frequency" "abs"
      let _ ← ravelReading E B bpms
      Py.pure ())
    setCavitySetpoints cavs ⟨false, rf0⟩ "Frequency" "abs"
    Py.throw .linAlgError

/-- pySC/correction/loco.py:74-78: one column -/
def orbitColumn (E : Env K) (B : BeamEnv K) (bpms : List Nat) (isInt : Bool) (dkick : K) (orbit0 : List (Option K)) (c : Bool × Nat) :
    Py (SC K) (List (Option K)) := do
  setCMSetpoints [c.2] ⟨isInt, [dkick]⟩ c.1 "add"
  let orbit1 ← ravelReading E B bpms
  setCMSetpoints [c.2] ⟨isInt, [-dkick]⟩ c.1 "add"
  if dkick = 0 then Py.throw .nonFinite
  else if orbit0.length ≠ 2 * bpms.length then Py.throw .valueError
  else Py.pure (List.zipWith (diffQuot dkick) orbit1 orbit0)

/-- pySC/correction/loco.py:62-79 `measure_closed_orbit_response_matrix` -/
def measureOrbitResponse (E : Env K) (B : BeamEnv K) (bpms : List Nat) (cms : List Nat × List Nat) (isInt : Bool) (dkick : K) :
    Py (SC K) (List (List (Option K))) := do
  modify (fun s => { s with INJ := { s.INJ with trackMode := "ORB" } })
  let orbit0 ← ravelReading E B bpms
  mapEach (cms.1.map (fun c => (false, c)) ++ cms.2.map (fun c => (true, c))) (orbitColumn E B bpms isInt dkick orbit0)

/-- pySC/lattice_properties/response_measurement.py:108-115 `_try_setpoint`: the step used and the reading -/
def trySetpoint (E : Env K) (B : BeamEnv K) (bpms : List Nat) (cm : Nat) (start step : K) (skew : Bool) :
    Py (SC K) (K × List (Option K)) := do
  setCMSetpoints [cm] ⟨false, [start + step]⟩ skew "abs"
  let v ← getCMSetpoints [cm] skew
  let real ← lift (idx v 0)
  when (decide (real ≠ start + step)) (setCMSetpoints [cm] ⟨false, [start - step]⟩ skew "abs")
  let r ← ravelReading E B bpms
  Py.pure (if real ≠ start + step then -step else step, r)

/-- number of readings which are not NaN -/
def numSeen (v : List (Option K)) : Nat := (v.filter Option.isSome).length

/-- pySC/lattice_properties/response_measurement.py:97: `np.max(np.abs(r - bref))` (NaN and infinite results are not followed further) -/
def largestDiff (r bref : List (Option K)) : Except Err K :=
  match (List.zipWith nanSub r bref).mapM id with
  | none => .error .nonFinite
  | some [] => .error .valueError
  | some (x :: l) => .ok (l.foldl (fun m y => max m |y|) |x|)

/-- pySC/lattice_properties/response_measurement.py:92-104: the step which is used.  If fewer BPMs see the beam than before, the log
message raises: a number of type float is printed with the format of integers. -/
def kickLoop (E : Env K) (B : BeamEnv K) (bref : List (Option K)) (bpms : List Nat) (cm : Nat) (start amp : K) (skew : Bool)
    (mode : String) : Nat → K → Py (SC K) K
  | 0, step => Py.pure step
  | n + 1, step => do
    let x ← trySetpoint E B bpms cm start step skew
    if numSeen bref ≤ numSeen x.2 then
      if mode = "fixedOffset" then do
        let d ← lift (largestDiff x.2 bref)
        let q ← lift (divE (x.1 * amp) d)
        kickLoop E B bref bpms cm start amp skew mode n q
      else Py.pure x.1
    else Py.throw .valueError

/-- pySC/lattice_properties/response_measurement.py:87-105 `_kick_amplitude` -/
def kickAmplitude (E : Env K) (B : BeamEnv K) (bref : List (Option K)) (bpms : List Nat) (cm : Nat) (amp : K) (skew : Bool)
    (mode : String) : Py (SC K) (K × List (Option K)) := do
  let v ← getCMSetpoints [cm] skew
  let start ← lift (idx v 0)
  let n ← (if mode = "fixedOffset" then Py.pure 4 else if mode = "fixedKick" then Py.pure 20 else Py.throw .keyError)
  let step ← kickLoop E B bref bpms cm start amp skew mode n amp
  let r ← ravelReading E B bpms
  Py.pure (step, List.zipWith nanSub r bref)

/-- pySC/lattice_properties/response_measurement.py:36-40: one step of the scan of a corrector: the kick and the change of the
reading, if it was measured in this step -/
def kickStep (E : Env K) (B : BeamEnv K) (bref : List (Option K)) (bpms : List Nat) (cm : Nat) (start step : K) (skew : Bool)
    (x : K) : Py (SC K) (K × Option (List (Option K))) := do
  if x ≠ 0 ∧ x ≠ step then do
    setCMSetpoints [cm] ⟨false, [start + x]⟩ skew "abs"
    let v ← getCMSetpoints [cm] skew
    let real ← lift (idx v 0)
    let r ← ravelReading E B bpms
    Py.pure (real - start, some (List.zipWith nanSub r bref))
  else Py.pure (x, none)

/-- pySC/lattice_properties/response_measurement.py:30-53: one column.  With two steps the one-dimensional `gradient` has no
second axis (line 48: IndexError); with other numbers than one the quotient in line 43 is two-dimensional and does not fit into
a column (ValueError); NaN are replaced by zero at the end (line 54). -/
def responseColumn (E : Env K) (B : BeamEnv K) (bref : List (Option K)) (bpms : List Nat) (rows : Nat) (mode : String) (nSteps : Nat)
    (skew : Bool) (cm : Nat) (start amp : K) : Py (SC K) (List K) := do
  let x ← kickAmplitude E B bref bpms cm amp skew mode
  if nSteps = 2 then Py.throw .indexError
  else if nSteps = 0 then Py.throw .valueError
  else do
    let steps ← mapEach (linspace (-x.1) x.1 nSteps) (kickStep E B bref bpms cm start x.1 skew)
    match steps with
    | [(d, g)] =>
      if d = 0 then Py.throw .nonFinite
      else if bref.length ≠ rows then Py.throw .valueError
      else do
        setCMSetpoints [cm] ⟨false, [start]⟩ skew "abs"
        Py.pure ((g.getD x.2).map (fun y => (y.getD 0) / d))
    | _ => Py.throw .valueError

/-- pySC/lattice_properties/response_measurement.py:28-53: the columns of one plane -/
def responsePlane (E : Env K) (B : BeamEnv K) (bref : List (Option K)) (bpms : List Nat) (rows : Nat) (mode : String) (nSteps : Nat)
    (skew : Bool) (cms : List Nat) (amp : List K) : Py (SC K) (List (List K)) := do
  let starts ← getCMSetpoints cms skew
  mapEach (cms.zip (starts.zip amp)) (fun c => responseColumn E B bref bpms rows mode nSteps skew c.1 c.2.1 c.2.2)

/-- pySC/lattice_properties/response_measurement.py:10-56 `response_matrix`, the amplitudes given by corrector; only the matrix is
returned -/
def responseMatrix (E : Env K) (B : BeamEnv K) (amp : List K × List K) (bpms : List Nat) (cms : List Nat × List Nat) (mode : String)
    (nSteps : Nat) : Py (SC K) (List (List K)) := do
  let s ← get
  if amp.1.length ≠ cms.1.length ∨ amp.2.length ≠ cms.2.length then Py.throw .valueError
  else do
    let bref ← ravelReading E B bpms
    if s.INJ.trackMode = "ORB" ∧ bref.any Option.isNone then Py.throw .valueError
    else do
      let h ← responsePlane E B bref bpms (2 * s.INJ.nTurns * bpms.length) mode nSteps false cms.1 amp.1
      let v ← responsePlane E B bref bpms (2 * s.INJ.nTurns * bpms.length) mode nSteps true cms.2 amp.2
      Py.pure (h ++ v)

end
end PySC
