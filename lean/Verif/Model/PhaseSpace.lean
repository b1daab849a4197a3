import Verif.Model.Beam
import Verif.Model.Rf
/-
pySC/plotting/plot_phase_space.py: what `plot_phase_space` draws.
-/
namespace PySC
variable {K : Type} [Field K] [LinearOrder K]
open Py

/-- `track ring bunch ref turn` are the six coordinates of the particles at `ref` in turn `turn` (pySC/utils/at_wrapper.py:24-27), NaN
being `none`; `orbit ring ref guess` is the six-dimensional closed orbit (at_wrapper.py:34-35). -/
structure PhaseEnv (K : Type) where
  track : Ring K → List (List K) → Nat → Nat → List (List (Option K))
  orbit : Ring K → Nat → Option (List (Option K)) → List (Option K)

/-- what is drawn: the points of each particle and turn, the injection point and the closed orbit, each as
(x, x', y, y', position along the ring, energy) -/
structure PhaseFigure (K : Type) where
  points : List (List (List (Option K)))
  injection : List (Option K)
  orbit : Option (List (Option K))

/-- column `j` of an array given by its rows -/
def columnOf (rows : List (List K)) (j : Nat) : List K := rows.map (fun row => row.getD j 0)

/-- pySC/plotting/plot_phase_space.py:60-74 `_check_input`: particles, their number and the number of turns.  A custom bunch is an array
given by its rows. -/
def phaseInput (E : Env K) (B : BeamEnv K) (bunch : Option (List (List K))) (nParticles nTurns : Option Nat) :
    Py (SC K) (List (List K) × Nat × Nat) := do
  let s ← get
  let turns := nTurns.getD s.INJ.nTurns
  match bunch, nParticles with
  | some _, some _ => Py.throw .valueError
  | some rows, none =>
    if rows.length ≠ 6 then Py.throw .valueError
    else
      let n := (rows.headD []).length
      Py.pure ((List.range n).map (columnOf rows), n, turns)
  | none, np =>
    let n := np.getD s.INJ.nParticles
    let Z ← generateBunches E B (some n)
    Py.pure (Z, n, turns)

/-- pySC/plotting/plot_phase_space.py:14: all coordinates are NaN where x is NaN -/
def maskLost (z : List (Option K)) : List (Option K) := if (z.getD 0 none).isNone then List.replicate 6 none else z

/-- pySC/plotting/plot_phase_space.py:18-22: change of the position along the ring per turn -/
def slippage (s : SC K) : Except Err K := do
  let cav ← idx s.ORD.RF 0
  let pm ← s.RING.getStr cav "PassMethod"
  if pm = "RFCavityPass" then do
    let h ← s.RING.getNum cav "HarmNumber"
    let f ← s.RING.getNum cav "Frequency"
    let l ← divE (speedOfLight * h) f
    .ok (l - (findspos s.RING).getLastD 0)
  else .ok 0

/-- pySC/plotting/plot_phase_space.py:22 -/
def slipped (slip : K) (turn : Nat) (z : List (Option K)) : List (Option K) :=
  [z.getD 0 none, z.getD 1 none, z.getD 2 none, z.getD 3 none, z.getD 4 none, (z.getD 5 none).map (fun x => x - slip * (turn : K))]

/-- pySC/plotting/plot_phase_space.py:33-38: units, and exchange of the last two coordinates -/
def inUnits (z : List (Option K)) : List (Option K) :=
  [(z.getD 0 none).map (10 ^ 6 * ·), (z.getD 1 none).map (10 ^ 6 * ·), (z.getD 2 none).map (10 ^ 6 * ·), (z.getD 3 none).map (10 ^ 6 * ·),
    z.getD 5 none, (z.getD 4 none).map (10 ^ 2 * ·)]

/-- pySC/plotting/plot_phase_space.py:24-32: the closed orbit, searched a second time from the mean of the tracked coordinates -/
def closedOrbit6 (P : PhaseEnv K) (r : Ring K) (ref : Nat) (T : List (List (List (Option K)))) : List (Option K) :=
  let co := P.orbit r ref none
  if (co.getD 0 none).isNone then
    let co := P.orbit r ref (some ((List.range 6).map (fun k => nanmean (T.flatten.map (fun z => z.getD k none)))))
    if (co.getD 0 none).isNone then List.replicate 6 none else co
  else co

/-- pySC/plotting/plot_phase_space.py:9-57 `plot_phase_space` for at least one turn.  With several ordinates the points outnumber their
colours (line 45), and the closed orbit is not a single one (line 26), which are `ValueError`s; without particles the colour bar
(line 52) has no handle. -/
def plotPhaseSpace (E : Env K) (B : BeamEnv K) (P : PhaseEnv K) (ords : List Nat) (bunch : Option (List (List K)))
    (nParticles nTurns : Option Nat) (plotCO : Bool) : Py (SC K) (PhaseFigure K) := do
  let (Z, n, turns) ← phaseInput E B bunch nParticles nTurns
  let s ← get
  let slip ← lift (slippage s)
  match ords with
  | [o] =>
    let T ← lift ((List.range n).mapM (fun i => (List.range turns).mapM (fun t => do
      let z ← idx (P.track s.RING Z o t) i
      Except.ok (slipped slip t (maskLost z)))))
    if n = 0 then Py.throw .exception
    else do
      let _ ← lift (s.RING.getE o)
      Py.pure ⟨T.map (fun ts => ts.map inUnits), inUnits (s.INJ.Z0.map some),
        if plotCO then some (inUnits (closedOrbit6 P s.RING o T)) else none⟩
  | _ => Py.throw .valueError

end PySC
