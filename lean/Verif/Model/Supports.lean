import Verif.Model.Register
/-
pySC/utils/classdef_tools.py: s_interpolation; pySC/core/simulated_commissioning.py: support_offset_and_roll,
update_supports; pySC/utils/sc_tools.py: update_transformation (the part which reads and writes attributes).
-/
namespace PySC
variable {K : Type} [Field K] [LinearOrder K]
open Py

/-- `np.interp(x, xp, fp)` for increasing sample points, given as list of points: constant outside, piecewise linear
inside -/
def npInterp : List (K × K) → K → Except Err K
  | [], _ => .error .valueError
  | [(_, f0)], _ => .ok f0
  | (x0, f0) :: (x1, f1) :: r, x =>
    if x ≤ x0 then .ok f0
    else if x < x1 then .ok ((f1 - f0) / (x1 - x0) * (x - x0) + f0)
    else npInterp ((x1, f1) :: r) x

/-- `np.interp(x, np.array([x0, x1]), np.array([f0, f1]))` with `x0 < x1` -/
def lineInterp (x0 f0 x1 f1 x : K) : K :=
  if x ≤ x0 then f0 else if x < x1 then (f1 - f0) / (x1 - x0) * (x - x0) + f0 else f1

/-- `off[ind] = g(s[ind])` where `ind` are the indices with `P` -/
def assignWhere (off s : List K) (P : Nat → Bool) (g : K → K) : List K :=
  (off.zip s).mapIdx (fun k p => if P k then g p.2 else p.1)

/-- pySC/utils/classdef_tools.py:37-50, body of the loop: one support from ordinate `a` (offset `f1`) to ordinate `b`
(offset `f2`) in a ring of circumference `C` -/
def sInterpolation1 (s : List K) (C : K) (off : List K) (a b : Nat) (f1 f2 : K) : Except Err (List K) := do
  let s1 ← idx s a
  let s2 ← idx s b
  if s1 = s2 then
    if f1 ≠ f2 then .error .valueError
    else .ok (assignWhere off s (fun k => decide (a ≤ k ∧ k ≤ b)) (fun _ => f1))
  else if s1 < s2 then
    .ok (assignWhere off s (fun k => decide (a ≤ k ∧ k ≤ b)) (lineInterp s1 f1 s2 f2))
  else
    .ok (assignWhere (assignWhere off s (fun k => decide (k ≤ b)) (fun x => lineInterp s1 f1 (s2 + C) f2 (C + x)))
      s (fun k => decide (a ≤ k)) (lineInterp s1 f1 (s2 + C) f2))

/-- `getattr(self.RING[i], name)[dim]` (vectors of length 3) -/
def supportValue (r : Ring K) (i : Nat) (name : String) (dim : Nat) : Except Err K := r.getVecAt i name dim

/-- pySC/core/simulated_commissioning.py:731-739 for one support type and one dimension.  The end offsets of all
supports of the type are computed before any of them is applied. -/
def applySupportType (r : Ring K) (o : Ords) (s : List K) (C : K) (dim : Nat) (t : String) (off : List K) :
    Except Err (List K) := do
  let ends ← (o.pairs t).mapM (fun p => do
    let oa ← idx off p.1
    let xa ← supportValue r p.1 (t ++ "Offset") dim
    let ob ← idx off p.2
    let xb ← supportValue r p.2 (t ++ "Offset") dim
    .ok (p, oa + xa, ob + xb))
  ends.foldlM (fun off e => sInterpolation1 s C off e.1.1 e.1.2 e.2.1 e.2.2) off

/-- pySC/core/simulated_commissioning.py:725-739: the row `off0[dim, :]` -/
def offsetRow (r : Ring K) (o : Ords) (dim : Nat) : Except Err (List K) :=
  supportTypes.foldlM (fun off t => applySupportType r o (findspos r) ((findspos r).getLastD 0) dim t off)
    (zeros (findspos r).length)

/-- pySC/core/simulated_commissioning.py:745-754: the mask of the support from `a` to `b`.  With `a > b` the slice
`mask[a:b]` is empty, so after `mask = ~mask` everything is selected. -/
def supportMask (a b k : Nat) : Bool :=
  if b < a then !(decide (a ≤ k ∧ k < b) && decide (k ≠ a)) else decide ((a ≤ k ∧ k < b) ∨ k = b)

/-- pySC/core/simulated_commissioning.py:744, 749-750: length of the support -/
def supportLength (s : List K) (C : K) (a b : Nat) : Except Err K := do
  let s1 ← idx s a
  let s2 ← idx s b
  .ok (if b < a then C + (s2 - s1) else s2 - s1)

/-- pySC/core/simulated_commissioning.py:755: `roll0[0, mask] += roll_start0` for one support -/
def addRoll (r : Ring K) (t : String) (roll : List K) (p : Nat × Nat) : Except Err (List K) := do
  let x ← r.getVecAt p.1 (t ++ "Roll") 0
  .ok (roll.mapIdx (fun k y => if supportMask p.1 p.2 k then y + x else y))

/-- pySC/core/simulated_commissioning.py:747-748, 756-757: `roll0[1 or 2, mask] = offset / struct_length` for one
support; `off` is the row of the offsets of the corresponding dimension -/
def setTilt (s : List K) (C : K) (off roll : List K) (p : Nat × Nat) : Except Err (List K) := do
  let o1 ← idx off p.2
  let o0 ← idx off p.1
  let len ← supportLength s C p.1 p.2
  let x ← divE (o1 - o0) len
  .ok (roll.mapIdx (fun k y => if supportMask p.1 p.2 k then x else y))

/-- all supports with their types, in the order of the loops of lines 741-742 -/
def typedPairs (o : Ords) : List (String × (Nat × Nat)) := supportTypes.flatMap (fun t => (o.pairs t).map (fun p => (t, p)))

/-- pySC/core/simulated_commissioning.py:741-757: the rows of `roll0` (roll, pitch, yaw) -/
def rollRows (r : Ring K) (o : Ords) (offX offY : List K) : Except Err (List (List K)) := do
  let s := findspos r
  let C := s.getLastD 0
  let z : List K := zeros s.length
  let roll ← (typedPairs o).foldlM (fun row tp => addRoll r tp.1 row tp.2) z
  let pitch ← (typedPairs o).foldlM (fun row tp => setTilt s C offY row tp.2) z
  let yaw ← (typedPairs o).foldlM (fun row tp => setTilt s C offX row tp.2) z
  .ok [roll, pitch, yaw]

/-- insert a sample point (position, first index) into a list sorted by position, unless the position is there -/
def insertPos (x : K) (k : Nat) : List (K × Nat) → List (K × Nat)
  | [] => [(x, k)]
  | (y, j) :: r => if x < y then (x, k) :: (y, j) :: r else if x = y then (y, j) :: r else (y, j) :: insertPos x k r

/-- `np.unique(s_pos, return_index=True)`: the different positions in increasing order, each with the index of its
first occurrence -/
def uniquePos (s : List K) : List (K × Nat) := s.zipIdx.foldl (fun acc p => insertPos p.1 p.2 acc) []

/-- pySC/core/simulated_commissioning.py:762-765: `np.interp(s_locations, s_pos[b], row[b])` -/
def interpRow (s row locs : List K) : Except Err (List K) := do
  let pts ← (uniquePos s).mapM (fun p => do
    let f ← idx row p.2
    .ok (p.1, f))
  locs.mapM (npInterp pts)

/-- pySC/core/simulated_commissioning.py:703-767 `support_offset_and_roll(s_locations)`: rows of the two arrays -/
def supportOffsetAndRoll (r : Ring K) (o : Ords) (locs : List K) : Except Err (List (List K) × List (List K)) := do
  let x ← offsetRow r o 0
  let y ← offsetRow r o 1
  let z ← offsetRow r o 2
  let rolls ← rollRows r o x y
  if locs ≠ findspos r then do
    let off ← [x, y, z].mapM (fun row => interpRow (findspos r) row locs)
    let roll ← rolls.mapM (fun row => interpRow (findspos r) row locs)
    .ok (off, roll)
  else .ok ([x, y, z], rolls)

/-- column `i` of an array given by its rows -/
def column (rows : List (List K)) (i : Nat) : Except Err (List K) := rows.mapM (fun row => idx row i)

/-- `getattr(element, a, 0)` -/
def numOr0 (r : Ring K) (i : Nat) (a : String) : Except Err K := do
  let h ← r.hasA i a
  if h then r.getNum i a else .ok 0

/-- elementwise sum of two 3-vectors -/
def vadd (v w : List K) : Except Err (List K) :=
  if v.length = w.length then .ok (List.zipWith (· + ·) v w) else .error .valueError

/-- `np.roll(v, -1)` -/
def rollLeft : List K → List K
  | [] => []
  | x :: xs => xs ++ [x]

/-- pySC/utils/sc_tools.py:122-125: length, angle, offsets and rolls which enter the transformation of an element -/
def transformInput (r : Ring K) (i : Nat) : Except Err (K × K × List K × List K) := do
  let len ← numOr0 r i "Length"
  let theta ← numOr0 r i "BendingAngle"
  let so ← r.getVec i "SupportOffset"
  let mo ← r.getVec i "MagnetOffset"
  let offsets ← vadd so mo
  let mr ← r.getVec i "MagnetRoll"
  let sr ← r.getVec i "SupportRoll"
  let rolls ← vadd mr sr
  .ok (len, theta, offsets, rollLeft rolls)

/-- pySC/utils/sc_tools.py:121-148 `update_transformation(self.RING[i])`; the matrices are computed by `E.transform`
(see `Verif.Model.Transformation`) -/
def updateTransformation (E : Env K) (i : Nat) : Py (SC K) Unit := do
  let x ← rd (fun r => transformInput r i)
  let t ← lift (E.transform x.1 x.2.1 x.2.2.1 x.2.2.2)
  setAttr i "R1" (.mat t.2.2.1)
  setAttr i "T1" (.vec t.1)
  setAttr i "T2" (.vec t.2.1)
  setAttr i "R2" (.mat t.2.2.2)

/-- pySC/core/simulated_commissioning.py:688-690: copy the transformation of a master magnet to a child -/
def copyTransformation (ind child : Nat) : Py (SC K) Unit :=
  forEach ["T1", "T2", "R1", "R2"] (fun field => do
    let v ← rd (fun r => r.getA ind field)
    setAttr child field v)

/-- `hasattr(self.RING[ind], 'MasterOf')`, then the children (lines 687-688) -/
def masterChildren (r : Ring K) (ind : Nat) : Except Err (List Nat) := do
  let h ← r.hasA ind "MasterOf"
  if h then do
    let m ← r.getA ind "MasterOf"
    m.toOrds
  else .ok []

/-- pySC/core/simulated_commissioning.py:683-690, body of the loop over magnets -/
def updateMagnetSupport (E : Env K) (offs rolls : List (List K)) (p : Nat × Nat) : Py (SC K) Unit := do
  let off ← lift (column offs p.2)
  setAttr p.1 "SupportOffset" (.vec off)
  let roll ← lift (column rolls p.2)
  setAttr p.1 "SupportRoll" (.vec roll)
  updateTransformation E p.1
  let ch ← rd (fun r => masterChildren r p.1)
  forEach ch (copyTransformation p.1)

/-- pySC/core/simulated_commissioning.py:696-699, body of the loop over BPMs -/
def updateBpmSupport (offs rolls : List (List K)) (p : Nat × Nat) : Py (SC K) Unit := do
  let off ← lift (column (offs.take 2) p.2)
  setAttr p.1 "SupportOffset" (.vec off)
  let row ← lift (idx rolls 0)
  let x ← lift (idx row p.2)
  setAttr p.1 "SupportRoll" (.num x)

/-- `s_pos[ords]` -/
def positions (r : Ring K) (ords : List Nat) : Except Err (List K) := ords.mapM (idx (findspos r))

/-- `self.support_offset_and_roll(s_pos[ords])` -/
def supportAt (r : Ring K) (o : Ords) (ords : List Nat) : Except Err (List (List K) × List (List K)) := do
  let locs ← positions r ords
  supportOffsetAndRoll r o locs

/-- pySC/core/simulated_commissioning.py:665-701 `update_supports` -/
def updateSupports (E : Env K) (offset_bpms offset_magnets : Bool) : Py (SC K) Unit := do
  let s ← get
  when (offset_magnets && !s.ORD.Magnet.isEmpty) (do
    let or ← rd (fun r => supportAt r s.ORD s.ORD.Magnet)
    forEach s.ORD.Magnet.zipIdx (updateMagnetSupport E or.1 or.2))
  when (offset_bpms && !s.ORD.BPM.isEmpty) (do
    let or ← rd (fun r => supportAt r s.ORD s.ORD.BPM)
    forEach s.ORD.BPM.zipIdx (updateBpmSupport or.1 or.2))

end PySC
