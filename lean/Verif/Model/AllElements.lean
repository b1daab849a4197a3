import Verif.Model.Beam
/-
pySC/core/beam.py: all_elements_reading.
-/
namespace PySC
variable {K : Type} [Field K] [LinearOrder K]
open Py

/-- result of `all_elements_reading`: the BPM readings and, for each shot, the positions of the particles by reference point and turn -/
structure AllReading (K : Type) where
  x : List (Option K)
  y : List (Option K)
  positions : List (Nat → Nat → List (Option K × Option K))

/-- pySC/core/beam.py:95-98: one shot.  All reference points from the entrance of the first element to the end of the last one are
tracked to; an ordinate beyond them raises IndexError.  (Line 97 repeats what `_tracking` has done.) -/
def allShot (E : Env K) (B : BeamEnv K) (orb : Bool) (bpms : List Nat) (nRefs nTurns : Nat) :
    Py (SC K) ((Nat → Nat → Cell K) × (Nat → Nat → List (Option K × Option K))) := do
  let trk ← tracking E B (List.range nRefs)
  if bpms.any (fun b => decide (nRefs ≤ b)) then Py.throw .indexError
  else if orb then do
    let c ← realBpmReading E B bpms 1 (fun b t => trk (bpms.getD b 0) t)
    Py.pure (fun b (_ : Nat) => c b 0, trk)
  else do
    let c ← realBpmReading E B bpms nTurns (fun b t => trk (bpms.getD b 0) t)
    Py.pure (c, trk)

/-- pySC/core/beam.py:76-104 `all_elements_reading` (without plotting).  In 'ORB' mode the closed orbit is broadcast over particles and
turns.  (A `postFun` which changes the number of particles is not modelled: the assignment in line 98 would raise.) -/
def allElementsReading (E : Env K) (B : BeamEnv K) : Py (SC K) (AllReading K) := do
  let s ← get
  let nb := s.ORD.BPM.length
  let nt := s.INJ.nTurns
  let shots ← mapEach (List.range s.INJ.nShots)
    (fun _ => allShot E B (decide (s.INJ.trackMode = "ORB")) s.ORD.BPM (s.RING.length + 1) nt)
  Py.pure {
    x := flatten2 nb nt (fun b t => nanmean (shots.map (fun c => (c.1 b t).x)))
    y := flatten2 nb nt (fun b t => nanmean (shots.map (fun c => (c.1 b t).y)))
    positions := shots.map Prod.snd }

end PySC
