import Verif.Model.Response
import Verif.Model.ApplyErrors
/-
Models pySC/correction/ramp_errors.py.  The scaling of the magnets, BPMs and cavities (lines 50-73) and the orbit
correction in each step (lines 25-34), which are never reached, are not modelled.
-/
set_option linter.unusedSectionVars false
namespace PySC
variable {K : Type} [Field K] [LinearOrder K] [FloorRing K]
open Py

/-- pySC/correction/ramp_errors.py:39-47 `scaleSupport`.  Sections come first (pySC/core/constants.py:5).  The loop runs over
the rows of their 2 x n array (pySC/core/classes.py:127), so the first "pair" is the row of all starts: without sections it has no entry 0;
otherwise entry 0 is a lattice element, which pyAT does not let be subscripted by a name. -/
def rampSupport : Py (SC K) Unit := do
  let s ← get
  match s.ORD.Section with
  | [] => Py.throw .indexError
  | _ :: _ => Py.throw .typeError

/-- pySC/correction/ramp_errors.py:76-80 `scaleInjection`; `SC0` is the machine itself (line 15).  (Arrays of different lengths, which
numpy refuses or broadcasts, are cut to the shorter one.) -/
def rampInjection (scale : K) : Py (SC K) Unit :=
  modify (fun s => { s with INJ := { s.INJ with
    Z0 := List.zipWith (fun z i => i + scale * (z - i)) s.INJ.Z0 s.INJ.Z0ideal,
    randomInjectionZ := s.INJ.randomInjectionZ.map (fun x => scale * x),
    beamSize := s.INJ.beamSize.map (fun r => r.map (fun x => scale * x)) } })

/-- pySC/correction/ramp_errors.py:83-90 `scaleCircumference`; `SC0` is the machine itself (line 15) -/
def rampCircumference (scale : K) : Py (SC K) Unit := do
  let s ← get
  let D := (s.RING.map elemLength).sum
  let D0 ← lift (if s.IDEALRING.length < s.RING.length then .error .indexError
    else .ok ((s.IDEALRING.take s.RING.length).map elemLength).sum)
  let r ← lift (scaleCircumference s.RING (scale * (D - D0) + D0) "abs")
  modify (fun s => { s with RING := r })

/-- pySC/correction/ramp_errors.py:10-36 `SCrampUpErrors` as far as it gets: the first step begins with the supports, outside
of the `try`.  (A negative number of steps is not modelled.) -/
def rampUpErrors (B : BeamEnv K) (nSteps : Nat) : Py (SC K) Unit := do
  let s ← get
  let _ ← modelRM B s.ORD.BPM (s.ORD.HCM, s.ORD.VCM) s.INJ.trackMode (List.replicate 6 0) s.INJ.nTurns (1 / 100000) true
  if nSteps = 0 then Py.throw .zeroDivision
  else rampSupport

end PySC
