import Verif.Model.Random
import Verif.Model.Supports
/-
pySC/core/beam.py: bpm_reading, beam_transmission, generate_bunches and their helpers.

Coordinates are `Option K`, `none` being NaN.  Particle tracking, the closed orbit finder, the eigenvalue decomposition,
cosine/sine and square root are parameters.  Arrays with the axes (BPM, turn) are functions of the two indices.
-/
namespace PySC
variable {K : Type} [Field K] [LinearOrder K]
open Py

/-- What the beam functions obtain from pyAT, numpy and the user: `track ring bunch ref turn` are the (x, y) of all
particles at the reference point `ref` in turn `turn` (pySC/utils/at_wrapper.py:24-27), `orbit ring ref` the (x, y) of the
closed orbit (at_wrapper.py:34-35), `eig` the eigenvalues and the matrix of eigenvectors (rows), `cosSin a` the pair
(cos a, sin a), `sqrt` the square root (NaN for negative numbers), `postFun` the user's `SC.INJ.postFun`. -/
structure BeamEnv (K : Type) where
  track : Ring K → List (List K) → Nat → Nat → List (Option K × Option K)
  orbit : Ring K → Nat → Option K × Option K
  eig : List (List K) → List K × List (List K)
  cosSin : K → K × K
  sqrt : K → Option K
  postFun : List (List K) → List (List K)

/-- `v @ w` -/
def dot (v w : List K) : K := (List.zipWith (· * ·) v w).sum

/-- `m @ v` -/
def matVec (m : List (List K)) (v : List K) : List K := m.map (fun row => dot row v)

/-- pySC/core/beam.py:165-166 `np.diag(np.sqrt(V)) @ L` -/
def bunchMatrix (B : BeamEnv K) (beamSize : List (List K)) : Except Err (List (List K)) := do
  let q ← (B.eig beamSize).1.mapM (fun v => match B.sqrt v with | some x => .ok x | none => .error Err.nonFinite)
  .ok (List.zipWith (fun d row => row.map (fun x => d * x)) q (B.eig beamSize).2)

/-- column `j` of a (6, n) array given by its values in row major order -/
def column6 (z : List K) (n j : Nat) : List K := (List.range 6).map (fun k => z.getD (k * n + j) 0)

/-- pySC/core/beam.py:144-166 `generate_bunches`: the list of particles (six coordinates each) -/
def generateBunches (E : Env K) (B : BeamEnv K) (nParticles : Option Nat) : Py (SC K) (List (List K)) := do
  let s ← get
  let n := nParticles.getD s.INJ.nParticles
  let z ← randnc E 2 6
  let jitter ← lift (bmul s.INJ.randomInjectionZ z)
  let centre ← lift (vadd jitter s.INJ.Z0)
  if n = 1 then Py.pure (B.postFun [centre])
  else do
    let m ← lift (bunchMatrix B s.INJ.beamSize)
    let z ← randnc E 3 (6 * n)
    let Z ← lift ((List.range n).mapM (fun j => vadd centre (matVec m (column6 z n j))))
    Py.pure (B.postFun Z)

/-- pySC/core/beam.py:216: y is NaN where x is NaN -/
def maskY (p : Option K × Option K) : Option K × Option K := if p.1.isNone then (none, none) else p

/-- pySC/core/beam.py:207-217 `_tracking`: (x, y) of the particles at the reference point `refs[b]` in turn `t`, as a
function of `b` and `t` -/
def tracking (E : Env K) (B : BeamEnv K) (refs : List Nat) : Py (SC K) (Nat → Nat → List (Option K × Option K)) := do
  let s ← get
  if s.INJ.trackMode = "ORB" then
    Py.pure (fun b _ => [maskY (B.orbit s.RING (refs.getD b 0))])
  else do
    let Z ← generateBunches E B none
    Py.pure (fun b t => (B.track s.RING Z (refs.getD b 0) t).map maskY)

/-- `np.nanmean` of a 1-D array -/
def nanmean (l : List (Option K)) : Option K :=
  if (l.filterMap id).isEmpty then none else some ((l.filterMap id).sum / ((l.filterMap id).length : K))

/-- an attribute holding a pair (x, y) -/
def Ring.getPair (r : Ring K) (i : Nat) (a : String) : Except Err (K × K) := do
  let v ← r.getVec i a
  match v with
  | [x, y] => .ok (x, y)
  | _ => .error .valueError

/-- errors of a BPM as used by `_real_bpm_reading` -/
structure BpmErr (K : Type) where
  noise : K × K
  offset : K × K
  cal : K × K
  roll : K
  sum : K

/-- reading of one BPM in one turn of one shot: both planes and the sum signal -/
structure Cell (K : Type) where
  x : Option K
  y : Option K
  sum : Option K
  deriving DecidableEq, Repr

/-- fraction of particles which are not lost (pySC/core/beam.py:193) -/
def aliveFraction (P : List (Option K × Option K)) : K := ((P.filter (fun p => p.1.isSome)).length : K) / (P.length : K)

/-- pySC/core/beam.py:193 -/
def transmission (e : BpmErr K) (P : List (Option K × Option K)) (zs : K) : K := aliveFraction P * (1 + e.sum * zs)

/-- pySC/core/beam.py:192-200 for one BPM and one turn: `P` are the particles, `zx`, `zy`, `zs` the random numbers -/
def realReading1 (B : BeamEnv K) (beamLostAt : K) (e : BpmErr K) (P : List (Option K × Option K)) (zx zy zs : K) : Cell K :=
  if transmission e P zs < 1 - beamLostAt then ⟨none, none, none⟩
  else
    match nanmean (P.map Prod.fst), nanmean (P.map Prod.snd) with
    | some mx, some my =>
      let c := B.cosSin e.roll
      ⟨some ((c.1 * mx - c.2 * my - e.offset.1) * (1 + e.cal.1) + e.noise.1 * zx / transmission e P zs),
       some ((c.2 * mx + c.1 * my - e.offset.2) * (1 + e.cal.2) + e.noise.2 * zy / transmission e P zs),
       some (transmission e P zs)⟩
    | _, _ => ⟨none, none, some (transmission e P zs)⟩

/-- numpy would produce infinities: there are no particles at all, or the sum signal vanishes although particles
survived -/
def cellInfinite (e : BpmErr K) (P : List (Option K × Option K)) (zs : K) : Bool :=
  P.isEmpty || (decide (transmission e P zs = 0) && P.any (fun p => p.1.isSome))

/-- pySC/core/beam.py:182-200 `_real_bpm_reading`: `trk b t` are the particles at the BPM `ords[b]` in turn `t` of
`nt`.  (In numpy `Roll`, `SupportRoll` and `SumError` must be scalars, the others pairs.) -/
def realBpmReading (E : Env K) (B : BeamEnv K) (ords : List Nat) (nt : Nat)
    (trk : Nat → Nat → List (Option K × Option K)) : Py (SC K) (Nat → Nat → Cell K) := do
  let s ← get
  let nb := ords.length
  let noise ← rd (fun r => ords.mapM (fun i => r.getPair i (if s.INJ.trackMode = "ORB" then "NoiseCO" else "Noise")))
  let zn ← randnc E 2 (2 * nb * nt)
  let errs ← rd (fun r => (ords.zip noise).mapM (fun (i, n) => do
    let o ← r.getPair i "Offset"
    let so ← r.getPair i "SupportOffset"
    let c ← r.getPair i "CalError"
    let ro ← r.getNum i "Roll"
    let sr ← r.getNum i "SupportRoll"
    let su ← r.getNum i "SumError"
    .ok { noise := n, offset := (o.1 + so.1, o.2 + so.2), cal := c, roll := ro + sr, sum := su : BpmErr K }))
  let zs ← randnc E 2 (nb * nt)
  let e := fun b => errs.getD b ⟨(0, 0), (0, 0), (0, 0), 0, 0⟩
  if (List.range nb).any (fun b => (List.range nt).any (fun t => cellInfinite (e b) (trk b t) (zs.getD (b * nt + t) 0))) then
    Py.throw .nonFinite
  else Py.pure (fun b t => realReading1 B s.INJ.beamLostAt (e b) (trk b t) (zn.getD (b * nt + t) 0)
    (zn.getD (nb * nt + b * nt + t) 0) (zs.getD (b * nt + t) 0))

/-- entries with a value and a weight -/
def valid (l : List (Option K × Option K)) : List (K × K) :=
  l.filterMap (fun p => match p.1, p.2 with | some v, some w => some (v, w) | _, _ => none)

/-- pySC/core/beam.py:50-51: `np.ma.average` of values with weights, both with missing entries, and `.filled(np.nan)` -/
def maskedAverage (l : List (Option K × Option K)) : Option K :=
  if ((valid l).map Prod.snd).sum = 0 then none
  else some (((valid l).map (fun p => p.1 * p.2)).sum / ((valid l).map Prod.snd).sum)

/-- `np.nansum` -/
def nansum (l : List (Option K)) : K := (l.filterMap id).sum

/-- pySC/core/beam.py:220-226 `_only_registered_bpms`, giving the ordinates themselves -/
def registeredBpms (bpms : List Nat) : Option (List Nat) → Except Err (List Nat)
  | none => .ok bpms
  | some l =>
    if (bpms.filter (fun i => decide (i ∈ l))).isEmpty then .error .valueError
    else .ok (bpms.filter (fun i => decide (i ∈ l)))

/-- pySC/core/beam.py:229-231 `_reshape_3d_to_matlab_like_2d`, one plane of an array with the axes (BPM, turn) -/
def flatten2 {α : Type} (nb nt : Nat) (f : Nat → Nat → α) : List α :=
  (List.range nt).flatMap (fun t => (List.range nb).map (fun b => f b t))

/-- result of `bpm_reading` -/
structure Reading (K : Type) where
  x : List (Option K)
  y : List (Option K)
  sums : List K
  errors : Option (List (Option K) × List (Option K))
  deriving DecidableEq, Repr

/-- pySC/core/beam.py:57-60: average over the turns; `np.average` (not `np.ma.average`) does not mask the weights and
raises if they add up to zero -/
def porbAverage (nt : Nat) (v : Nat → Option K) (w : Nat → K) : Except Err (Option K) :=
  let W := ((List.range nt).map w).sum
  if W = 0 then .error .zeroDivision
  else
    let good := (List.range nt).filterMap (fun t => (v t).map (fun x => x * w t))
    if good.isEmpty then .ok none else .ok (some (good.sum / W))

/-- pySC/core/beam.py:63-66: error of the average over the shots -/
def orbitError (B : BeamEnv K) (mean : Option K) (cells : List (Option K × Option K)) : Except Err (Option K) :=
  if cells.any (fun p => p.1.isNone) then .ok none
  else
    let W := ((valid cells).map Prod.snd).sum
    if W = 0 then .error .zeroDivision
    else .ok (B.sqrt (((valid cells).map (fun p => (p.1 - mean.getD 0) ^ 2 * p.2)).sum / W))

/-- all values of an array with the axes (BPM, turn), raising if one of them raises -/
def tabulate {α : Type} (nb nt : Nat) (f : Nat → Nat → Except Err α) : Except Err (List α) :=
  (flatten2 nb nt (fun b t => (b, t))).mapM (fun bt => f bt.1 bt.2)

/-- pySC/core/beam.py:22-73 `bpm_reading` (without plotting).  In 'ORB' mode the single orbit is broadcast over
`nTurns`. -/
def bpmReading (E : Env K) (B : BeamEnv K) (bpmOrds : Option (List Nat)) (calculateErrors : Bool) :
    Py (SC K) (Reading K) := do
  let s ← get
  let ords ← lift (registeredBpms s.ORD.BPM bpmOrds)
  let nb := ords.length
  let nt := s.INJ.nTurns
  let shots ← mapEach (List.range s.INJ.nShots) (fun _ => do
    let trk ← tracking E B ords
    if s.INJ.trackMode = "ORB" then do
      let c ← realBpmReading E B ords 1 trk
      Py.pure (fun b (_ : Nat) => c b 0)
    else realBpmReading E B ords nt trk)
  let meanX := fun b t => maskedAverage (shots.map (fun c => ((c b t).x, (c b t).sum)))
  let meanY := fun b t => maskedAverage (shots.map (fun c => ((c b t).y, (c b t).sum)))
  if s.INJ.nShots = 0 then Py.throw .nonFinite
  else do
    let sums := fun b t => nansum (shots.map (fun c => (c b t).sum)) / (s.INJ.nShots : K)
    if s.INJ.trackMode = "PORB" then do
      let x ← lift (tabulate nb 1 (fun b _ => porbAverage nt (meanX b) (sums b)))
      let y ← lift (tabulate nb 1 (fun b _ => porbAverage nt (meanY b) (sums b)))
      Py.pure { x := x, y := y, sums := flatten2 nb 1 (fun b _ => ((List.range nt).map (sums b)).sum / (nt : K)), errors := none }
    else if calculateErrors && decide (s.INJ.trackMode = "TBT") then do
      let ex ← lift (tabulate nb nt (fun b t => orbitError B (meanX b t) (shots.map (fun c => ((c b t).x, (c b t).sum)))))
      let ey ← lift (tabulate nb nt (fun b t => orbitError B (meanY b t) (shots.map (fun c => ((c b t).y, (c b t).sum)))))
      Py.pure { x := flatten2 nb nt meanX, y := flatten2 nb nt meanY, sums := flatten2 nb nt sums, errors := some (ex, ey) }
    else Py.pure { x := flatten2 nb nt meanX, y := flatten2 nb nt meanY, sums := flatten2 nb nt sums, errors := none }

/-- pySC/core/beam.py:107-141 `beam_transmission` (without plotting): number of survived turns and fraction of surviving
particles turn by turn.  (Without turns the log message raises IndexError, without particles the mean is NaN.) -/
def beamTransmission (E : Env K) (B : BeamEnv K) (nParticles nTurns : Option Nat) : Py (SC K) (Nat × List K) := do
  let s ← get
  let n := nParticles.getD s.INJ.nParticles
  let nt := nTurns.getD s.INJ.nTurns
  let Z ← generateBunches E B (some n)
  if Z.isEmpty then Py.throw .nonFinite
  else do
    let frac := (List.range nt).map (fun t => aliveFraction (B.track s.RING Z s.RING.length t))
    if nt = 0 then Py.throw .indexError
    else Py.pure ((frac.filter (fun f => decide (1 - s.INJ.beamLostAt < f))).length, frac)

end PySC
