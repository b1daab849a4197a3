import Verif.Model.Setpoints
import Verif.Model.Beam
/-
pySC/correction/tune.py: tune_scan, _golden_donut_inds (without plotting).  `fit_tune` is in Model/Chroma.
-/
namespace PySC
variable {K : Type} [Field K] [LinearOrder K] [FloorRing K]
open Py

/-- `np.sqrt` and the directions visited by the scan: cosine and sine of the multiples of the golden angle
(pySC/correction/tune.py:102 `phi`) -/
structure TuneEnv (K : Type) where
  sqrt : K → K
  direction : Nat → K × K

/-- `np.round`: to the nearest integer, halves to the nearest even one -/
def npRound (x : K) : ℤ :=
  if x - (⌊x⌋ : K) < 1 / 2 then ⌊x⌋
  else if 1 / 2 < x - (⌊x⌋ : K) then ⌊x⌋ + 1
  else if ⌊x⌋ % 2 = 0 then ⌊x⌋ else ⌊x⌋ + 1

/-- pySC/correction/tune.py:105: one index, clipped to the range from zero to `2 r` -/
def donutIndex (r : Nat) (x : K) : Nat := (max 0 (min (2 * (r : ℤ)) (npRound x + r))).toNat

/-- pySC/correction/tune.py:100-105 `_golden_donut_inds`.  (For a single point the radius is 0/0 and the index an undefined
integer made from NaN.) -/
def goldenDonutInds (T : TuneEnv K) (r : Nat × Nat) (nPoints : Nat) : Except Err (List (Nat × Nat)) :=
  if nPoints = 1 then .error .nonFinite
  else .ok ((List.range nPoints).map (fun (i : Nat) =>
    let a := T.sqrt ((i : K) / ((nPoints : K) - 1))
    (donutIndex r.1 (a * ((r.1 : K) * (T.direction i).1)), donutIndex r.2 (a * ((r.2 : K) * (T.direction i).2)))))

/-- what the scan found at a grid point: number of turns and transmission turn by turn -/
structure ScanPoint (K : Type) where
  ind : Nat × Nat
  turns : Nat
  transmission : List K

/-- the entry of the arrays `max_turns` and `transmission` at a grid point: the latest measurement there -/
def lastAt (results : List (ScanPoint K)) (ind : Nat × Nat) : Option (ScanPoint K) := results.reverse.find? (fun p => p.ind = ind)

/-- `transmission[..., -1]` -/
def finalTransmission (p : ScanPoint K) : K := p.transmission.getLastD 0

/-- `np.argmax`: index of the first maximum -/
def argmaxFirst : List K → Nat
  | [] => 0
  | x :: l => if l.all (fun y => decide (y ≤ x)) then 0 else argmaxFirst l + 1

/-- pySC/correction/tune.py:56: `q_setpoints` -/
def familySetpoints (q : List Nat × List Nat) (f : K × K) : List K := List.replicate q.1.length f.1 ++ List.replicate q.2.length f.2

/-- pySC/correction/tune.py:55-74: the scan.  Returns the factors if the target was reached, and the results. -/
def scanLoop (E : Env K) (B : BeamEnv K) (q : List Nat × List Nat) (rel : List K × List K) (target : K) (nParticles nTurns : Nat)
    (fullScan : Bool) : List (Nat × Nat) → List (ScanPoint K) → Py (SC K) (Option (K × K) × List (ScanPoint K))
  | [], results => Py.pure (none, results)
  | i :: l, results => do
    let f1 ← lift (idx rel.1 i.1)
    let f2 ← lift (idx rel.2 i.2)
    setMagnetSetpoints (q.1 ++ q.2) ⟨false, familySetpoints q (f1, f2)⟩ false 1 "rel" false
    let t ← beamTransmission E B (some nParticles) (some nTurns)
    let results := results ++ [⟨i, t.1, t.2⟩]
    let g1 ← lift (divE 1 f1)
    let g2 ← lift (divE 1 f2)
    setMagnetSetpoints (q.1 ++ q.2) ⟨false, familySetpoints q (g1, g2)⟩ false 1 "rel" false
    if !fullScan && decide (target ≤ t.2.getLastD 0) then do
      setMagnetSetpoints (q.1 ++ q.2) ⟨false, familySetpoints q (f1, f2)⟩ false 1 "rel" false
      Py.pure (some (f1, f2), results)
    else scanLoop E B q rel target nParticles nTurns fullScan l results

/-- pySC/correction/tune.py:76-83: the index of the best point, or an exception -/
def bestPoint (inds : List (Nat × Nat)) (results : List (ScanPoint K)) : Except Err Nat :=
  let pts := inds.filterMap (lastAt results)
  let trans := pts.map finalTransmission
  let turns := pts.map (fun p => (p.turns : K))
  if pts.isEmpty then .error .valueError
  else if turns.all (fun t => decide (t ≤ 0)) then .error .runtimeError
  else .ok (argmaxFirst (if trans.all (fun t => decide (t ≤ 0)) then turns else trans))

/-- pySC/correction/tune.py:19-97 `tune_scan`: returned are the chosen factors and the results in order of measurement (the
code returns arrays that hold the latest result at each visited grid point and NaN elsewhere).  Transmissions are fractions
of particles, so a maximum of zero is the same as no positive one.  (The division by zero for a factor of zero, which makes
the set-points infinite, ends the model.) -/
def tuneScan (E : Env K) (B : BeamEnv K) (T : TuneEnv K) (q : List Nat × List Nat) (rel : List K × List K) (target : K)
    (nPoints : Nat) (nParticles nTurns : Option Nat) (fullScan : Bool) : Py (SC K) ((K × K) × List (ScanPoint K)) := do
  let s ← get
  let np := nParticles.getD s.INJ.nParticles
  let nt := nTurns.getD s.INJ.nTurns
  let inds ← lift (goldenDonutInds T (rel.1.length / 2, rel.2.length / 2) nPoints)
  let a ← lift (idx q.1 0)
  let _ ← rd (fun r => r.getStr a "FamName")
  let b ← lift (idx q.2 0)
  let _ ← rd (fun r => r.getStr b "FamName")
  let out ← scanLoop E B q rel target np nt fullScan inds []
  match out.1 with
  | some f => Py.pure (f, out.2)
  | none => do
    let k ← lift (bestPoint inds out.2)
    let i ← lift (idx inds k)
    let f1 ← lift (idx rel.1 i.1)
    let f2 ← lift (idx rel.2 i.2)
    setMagnetSetpoints (q.1 ++ q.2) ⟨false, familySetpoints q (f1, f2)⟩ false 1 "rel" false
    Py.pure ((f1, f2), out.2)

end PySC
