import Verif.Model.Random
import Verif.Model.Supports
import Verif.Model.Magnets
/-
pySC/core/simulated_commissioning.py: apply_errors, _apply_support_alignment_error, set_random_multipole_errors,
set_systematic_multipole_errors; pySC/utils/sc_tools.py: scale_circumference.
-/
namespace PySC
variable {K : Type} [Field K] [LinearOrder K] [FloorRing K]
open Py

/-- the uncertainties of one element -/
def entries (d : Dict Nat (Kwargs K)) (i : Nat) : Kwargs K := (d.get? i).getD []

/-- draw a value for one registered uncertainty and store it (lines 545, 552, 556) -/
def drawInto (E : Env K) (nsigmas : K) (i : Nat) (name : String) (sig : Attr K) : Py (SC K) Unit := do
  let v ← randnCutoff E sig nsigmas
  setAttr i name v

/-- pySC/core/simulated_commissioning.py:542-545 -/
def applyRf (E : Env K) (nsigmas : K) : Py (SC K) Unit := do
  let s ← get
  forEach (intersect s.ORD.RF s.SIG.RF.keys) (fun ind =>
    forEach (entries s.SIG.RF ind) (fun kv => drawInto E nsigmas ind kv.1 kv.2))

/-- pySC/core/simulated_commissioning.py:546-552 -/
def applyBpm (E : Env K) (nsigmas : K) : Py (SC K) Unit := do
  let s ← get
  forEach (intersect s.ORD.BPM s.SIG.BPM.keys) (fun ind =>
    forEach (entries s.SIG.BPM ind) (fun kv =>
      if strContains "Noise" kv.1 then setAttr ind kv.1 kv.2 else drawInto E nsigmas ind kv.1 kv.2))

/-- pySC/core/simulated_commissioning.py:553-557 -/
def applyMagnet (E : Env K) (nsigmas : K) : Py (SC K) Unit := do
  let s ← get
  forEach (intersect s.ORD.Magnet s.SIG.Magnet.keys) (fun ind =>
    forEach (entries s.SIG.Magnet ind) (fun kv =>
      drawInto E nsigmas ind (if kv.1 = "BendingAngle" then "BendingAngleError" else kv.1) kv.2))

/-- pySC/core/simulated_commissioning.py:558-560 (arrays of six entries) -/
def applyInjection (E : Env K) (nsigmas : K) : Py (SC K) Unit := do
  let z ← randnc E nsigmas 6
  let s ← get
  let d ← lift (bmul s.SIG.staticInjectionZ z)
  let z0 ← lift (vadd s.INJ.Z0ideal d)
  modify (fun s => { s with INJ := { s.INJ with Z0 := z0, randomInjectionZ := s.SIG.randomInjectionZ } })

/-- pySC/utils/sc_tools.py:108-110, 115-117: is the element a drift? -/
def isDrift (e : Elem K) : Bool := decide (e "PassMethod" = some (.str "DriftPass"))

/-- the length of an element, 0 if it has none -/
def elemLength (e : Elem K) : K := match e "Length" with | some (.num x) => x | _ => 0

/-- pySC/utils/sc_tools.py:102-118 `scale_circumference` with `mode` 'abs' or 'rel'.  If there is no drift the factor
(inf or nan) is not used.  (Every AT element has a `PassMethod`, every drift a `Length`.) -/
def scaleCircumference (r : Ring K) (circ : K) (mode : String) : Except Err (Ring K) :=
  if mode ∉ ["abs", "rel"] then .error .valueError
  else
    let C := (findspos r).getLastD 0
    let D := ((r.filter isDrift).map elemLength).foldl (· + ·) 0
    if (r.filter isDrift).isEmpty then .ok r
    else do
      let q ← divE (if mode = "rel" then (1 - circ) * C else C - circ) D
      .ok (r.map (fun e => if isDrift e then e.set "Length" (.num (elemLength e * (1 - q))) else e))

/-- pySC/core/simulated_commissioning.py:561-565 -/
def applyCircumference (E : Env K) (nsigmas : K) : Py (SC K) Unit := do
  let z ← randnc E nsigmas 1
  let s ← get
  let r ← lift (scaleCircumference s.RING (1 + s.SIG.Circumference * z.headD 0) "rel")
  modify (fun s => { s with RING := r })

/-- `np.remainder(x, c)` -/
def npRemainder (x c : K) : Except Err K := if c = 0 then .error .nonFinite else .ok (x - c * (⌊x / c⌋ : K))

/-- pySC/core/simulated_commissioning.py:582-587: draw one uncertainty of a support for start and end -/
def drawSupport (E : Env K) (nsigmas : K) (t : String) (p : Nat × Nat) (sig1 : Option (Kwargs K)) (kv : String × Attr K) :
    Py (SC K) Unit :=
  if strContains t kv.1 then do
    drawInto E nsigmas p.1 kv.1 kv.2
    match sig1 with
    | none => Py.throw .keyError
    | some e =>
      if e.has kv.1 then drawInto E nsigmas p.2 kv.1 kv.2
      else do
        let v ← rd (fun r => r.getA p.1 kv.1)
        setAttr p.2 kv.1 v
  else Py.pure ()

/-- pySC/core/simulated_commissioning.py:594-610, one of the two tilts: `tilt` is the stored angle, `o0`, `o1` the
offsets at the ends, `both` tells whether the end has an offset uncertainty of its own; returns the new angle and
offsets -/
def tiltAndOffsets (tilt o0 o1 len : K) (both : Except Err Bool) : Except Err (K × K × K) :=
  if tilt ≠ 0 then do
    let b ← both
    if b then .error .exception else .ok (tilt, o0 - tilt * len / 2, o1 + tilt * len / 2)
  else do
    let x ← divE (o1 - o0) len
    .ok (x, o0, o1)

/-- pySC/core/simulated_commissioning.py:589-610: new roll of the start and new offsets of both ends -/
def newSupportErrors (r : Ring K) (sPos : List K) (t : String) (p : Nat × Nat) (sig1 : Option (Kwargs K)) :
    Except Err (List K × List K × List K) := do
  let s0 ← idx sPos p.1
  let s1 ← idx sPos p.2
  let len ← npRemainder (s1 - s0) (sPos.getLastD 0)
  let rolls ← r.getVec p.1 (t ++ "Roll")
  let off0 ← r.getVec p.1 (t ++ "Offset")
  let off1 ← r.getVec p.2 (t ++ "Offset")
  let both : Except Err Bool := match sig1 with
    | none => .error .keyError
    | some e => .ok (e.has (t ++ "Offset"))
  let r1 ← idx rolls 1
  let a1 ← idx off0 1
  let b1 ← idx off1 1
  let x ← tiltAndOffsets r1 a1 b1 len both
  let r2 ← idx rolls 2
  let a0 ← idx off0 0
  let b0 ← idx off1 0
  let y ← tiltAndOffsets r2 a0 b0 len both
  .ok ((rolls.set 1 x.1).set 2 y.1, (off0.set 1 x.2.1).set 0 y.2.1, (off1.set 1 x.2.2).set 0 y.2.2)

/-- pySC/core/simulated_commissioning.py:578-613, body of the loop over the supports of type `t` -/
def applySupport (E : Env K) (nsigmas : K) (sPos : List K) (t : String) (p : Nat × Nat) : Py (SC K) Unit := do
  let s ← get
  match s.SIG.Support.get? p.1 with
  | none => Py.pure ()
  | some sig0 => do
    let sig1 := s.SIG.Support.get? p.2
    forEach sig0 (drawSupport E nsigmas t p sig1)
    let n ← rd (fun r => newSupportErrors r sPos t p sig1)
    setAttr p.1 (t ++ "Roll") (.vec n.1)
    setAttr p.1 (t ++ "Offset") (.vec n.2.1)
    setAttr p.2 (t ++ "Offset") (.vec n.2.2)

/-- pySC/core/simulated_commissioning.py:575-613 `_apply_support_alignment_error` -/
def applySupports (E : Env K) (nsigmas : K) : Py (SC K) Unit := do
  let s ← get
  forEach (typedPairs s.ORD) (fun tp => applySupport E nsigmas (findspos s.RING) tp.1 tp.2)

/-- pySC/core/simulated_commissioning.py:521-573 `apply_errors` -/
def applyErrors (E : Env K) (nsigmas : K) : Py (SC K) Unit := do
  applyRf E nsigmas
  applyBpm E nsigmas
  applyMagnet E nsigmas
  applyInjection E nsigmas
  applyCircumference E nsigmas
  applySupports E nsigmas
  updateSupports E true true
  let s ← get
  when (!s.ORD.Magnet.isEmpty) (updateMagnets none)
  when (!s.ORD.RF.isEmpty && !s.SIG.RF.isEmpty) (updateCavities none)

/-- `PolynomAOffset` / `PolynomBOffset` after adding a random contribution (lines 515-519) -/
def addToOffset (i : Nat) (ab : String) (col : List K) : Py (SC K) Unit := do
  let h ← rd (fun r => r.hasA i ("Polynom" ++ ab ++ "Offset"))
  if h then do
    let a ← rd (fun r => r.getA i ("Polynom" ++ ab ++ "Offset"))
    let v ← lift a.asVec
    setAttr i ("Polynom" ++ ab ++ "Offset") (.vec (addPadded v col))
  else setAttr i ("Polynom" ++ ab ++ "Offset") (.vec col)

/-- rows of a table with two columns from its values in row major order -/
def pairUp : List K → List (K × K)
  | x :: y :: r => (x, y) :: pairUp r
  | _ => []

/-- pySC/core/simulated_commissioning.py:513-519, body of the loop; `BA` is the N x 2 table (normal, skew) -/
def randomMultipole1 (E : Env K) (BA : List (K × K)) (i : Nat) : Py (SC K) Unit := do
  let z ← randnc E 2 (BA.length * 2)
  let rand := List.zipWith (fun (b zz : K × K) => (zz.1 * b.1, zz.2 * b.2)) BA (pairUp z)
  addToOffset i "B" (rand.map Prod.fst)
  addToOffset i "A" (rand.map Prod.snd)

/-- pySC/core/simulated_commissioning.py:489-519 `set_random_multipole_errors` (the table has two columns, so the
ValueError can not occur) -/
def setRandomMultipoles (E : Env K) (ords : List Nat) (BA : List (K × K)) : Py (SC K) Unit :=
  forEach ords (randomMultipole1 E BA)

/-- `syspol[order] = v` on an integer-keyed dictionary attribute, created if missing (lines 483-487) -/
def setSysPol (i : Nat) (attr : String) (order : Nat) (v : List K) : Py (SC K) Unit := do
  let h ← rd (fun r => r.hasA i attr)
  if h then do
    let a ← rd (fun r => r.getA i attr)
    let d ← lift a.toMultip
    setAttr i attr (.multip (Dict.set d order v))
  else setAttr i attr (.multip [(order, v)])

/-- pySC/core/simulated_commissioning.py:479-481: `newBA[order, ind] = 0`, a view of the caller's table -/
def clearEntry (BA : List (K × K)) (order : Nat) (skew : Bool) : List (K × K) :=
  BA.modify order (fun p => if skew then (p.1, 0) else (0, p.2))

/-- pySC/core/simulated_commissioning.py:450-487 `set_systematic_multipole_errors`; returns the caller's table as it is
after the call. -/
def setSystematicMultipoles (ords : List Nat) (BA : List (K × K)) (order : Nat) (skew : Bool) :
    Py (SC K) (List (K × K)) := do
  let _ ← lift (idx BA order)
  let newBA := clearEntry BA order skew
  let col := newBA.map (fun p => if skew then p.2 else p.1)
  forEach ords (fun i => forEach ["A", "B"] (fun target =>
    setSysPol i ("SysPol" ++ target ++ "From" ++ (if skew then "A" else "B")) order col))
  Py.pure newBA

end PySC
