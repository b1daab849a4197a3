import Verif.Model.Beam
import Verif.Model.Fit
/-
pySC/correction/injection_fit.py (without plotting).
-/
namespace PySC
variable {K : Type} [Field K] [LinearOrder K] [FloorRing K]
open Py

/-- What the fits obtain from pyAT and scipy: horizontal and vertical position of a particle with the given initial
coordinates at the given elements of a ring in the first turn (NaN if lost), and `fmin` applied to a function of four
variables. -/
structure InjEnv (K : Type) where
  trackOne : Ring K → List K → List Nat → List (Option K) × List (Option K)
  fmin : (List K → Option K) → List K → Fin 4 → Option K

/-- pySC/correction/injection_fit.py:63-67 `_fit_bpm_data`: minus position and angle of the lines through the readings, as
change of the six coordinates.  Readings that are not numbers make the result NaN, which is refused by the caller (line 20).
(If the positions do not differ numpy warns and returns one of the solutions; the model stops.) -/
def fitBpmData (sBpm : List K) (x y : List (Option K)) : Except Err (List K) :=
  if (x ++ y).any (fun v => v.isNone) then .error .runtimeError
  else do
    let fx ← lineFit (List.zipWith (fun s v => (⟨s, v, 1⟩ : Pt K)) sBpm (x.filterMap id))
    let fy ← lineFit (List.zipWith (fun s v => (⟨s, v, 1⟩ : Pt K)) sBpm (y.filterMap id))
    .ok [-fx.intercept, -fx.slope, -fy.intercept, -fy.slope, 0, 0]

/-- pySC/correction/injection_fit.py:13-34 `fit_injection_drift` -/
def fitInjectionDrift (E : Env K) (B : BeamEnv K) : Py (SC K) (List K) := do
  let s ← get
  let sPos := findspos s.RING
  let r ← bpmReading E B none false
  let nb := s.ORD.BPM.length
  if nb = 0 then Py.throw .indexError
  else do
    let x ← lift ([nb - 1, nb].mapM (idx r.x))
    let y ← lift ([nb - 1, nb].mapM (idx r.y))
    let last ← lift (idx s.ORD.BPM (nb - 1))
    let sLast ← lift (idx sPos last)
    let first ← lift (idx s.ORD.BPM 0)
    let sFirst ← lift (idx sPos first)
    lift (fitBpmData [sLast - sPos.getLastD 0, sFirst] x y)

/-- pySC/correction/injection_fit.py:70-72 `_merit_function` of the first four coordinates; `none` is NaN -/
def meritFunction (B : BeamEnv K) (J : InjEnv K) (ideal : Ring K) (bx by_ : List (Option K)) (ords : List Nat) (z : List K) : Option K := do
  let t := J.trackOne ideal (z ++ [0, 0]) ords
  let m ← npMean (List.zipWith nanSub bx t.1 ++ List.zipWith nanSub by_ t.2)
  B.sqrt (m ^ 2)

/-- pySC/correction/injection_fit.py:37-60 `fit_injection_trajectory` -/
def fitInjectionTrajectory (E : Env K) (B : BeamEnv K) (J : InjEnv K) (bpmInds : List Nat) : Py (SC K) (List K) := do
  let s ← get
  let r ← bpmReading E B none false
  let bx ← lift (bpmInds.mapM (idx r.x))
  let by_ ← lift (bpmInds.mapM (idx r.y))
  let ords ← lift (bpmInds.mapM (idx s.ORD.BPM))
  let z := J.fmin (meritFunction B J s.IDEALRING bx by_ ords) [0, 0, 0, 0]
  match z 0, z 1, z 2, z 3 with
  | some a, some b, some c, some d =>
    if s.INJ.Z0.length ≠ 6 then Py.throw .valueError
    else do
      modify (fun s => { s with INJ := { s.INJ with Z0 := List.zipWith (· + ·) s.INJ.Z0 [-a, -b, -c, -d, 0, 0] } })
      Py.pure [-a, -b, -c, -d, 0, 0]
  | _, _, _, _ => Py.throw .runtimeError

end PySC
