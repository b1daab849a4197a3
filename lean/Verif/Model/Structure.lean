import Verif.Model.Magnets
/-
pySC/core/simulated_commissioning.py: very_deep_copy, verify_structure.
-/
namespace PySC
variable {K : Type} [Field K] [LinearOrder K]
open Py

/-- pySC/core/simulated_commissioning.py:948-955 `very_deep_copy`: both rings of the copy are filled with copies of the
elements of `RING` (line 954).  Values of the model have no identity, so a copy is the value itself. -/
def veryDeepCopy : Py (SC K) (SC K) := do
  let s ← get
  if s.IDEALRING.length < s.RING.length then throw .indexError
  else Py.pure { s with IDEALRING := s.RING ++ s.IDEALRING.drop s.RING.length }

/-- `raise ValueError` if the condition fails -/
def require (c : Bool) : Except Err Unit := if c then .ok () else .error .valueError

/-- `len(self.RING[ord].a) == len(self.RING[ord].b)` or ValueError -/
def requireSameLength (r : Ring K) (i : Nat) (a b : String) : Except Err Unit := do
  let v ← r.getVec i a
  let w ← r.getVec i b
  require (decide (v.length = w.length))

/-- pySC/core/simulated_commissioning.py:988-993: `self.RING[ord].CMlimit[k]` is read (a zero limit is only logged) -/
def verifyLimit (r : Ring K) (k i : Nat) : Except Err Unit := do
  let a ← r.getA i "CMlimit"
  let ls ← a.toLims
  let _ ← idx ls k
  .ok ()

/-- pySC/core/simulated_commissioning.py:1003-1004 -/
def verifyOffsets (r : Ring K) (i : Nat) : Except Err Unit := do
  let h ← r.hasA i "PolynomBOffset"
  if h then requireSameLength r i "PolynomBOffset" "PolynomAOffset" else .ok ()

/-- pySC/core/simulated_commissioning.py:1005-1011 (zero values are only logged) -/
def verifyCombined (r : Ring K) (i : Nat) : Except Err Unit := do
  let cf ← isCombinedFunction r i
  if cf then do
    let h ← r.hasA i "BendingAngle"
    require h
    let _ ← r.getVecAt i "NomPolynomB" 1
    .ok ()
  else .ok ()

/-- `self.SIG.X[ord]` -/
def verifyEntry (d : Dict Nat (Dict String (Attr K))) (i : Nat) : Except Err Unit :=
  if d.has i then .ok () else .error .keyError

/-- pySC/core/simulated_commissioning.py:1018-1022: the children are elements of the ring.  (The loop over the fields of a
child is taken to work; it only logs.) -/
def verifyChildren (r : Ring K) (i : Nat) : Except Err Unit := do
  let ch ← childrenOf r i
  ch.forM (fun c => if c < r.length then .ok () else .error .indexError)

/-- pySC/core/simulated_commissioning.py:996-1022, body of the loop over the magnets -/
def verifyMagnet (s : SC K) (i : Nat) : Except Err Unit := do
  requireSameLength s.RING i "PolynomB" "PolynomA"
  requireSameLength s.RING i "SetPointB" "CalErrorB"
  requireSameLength s.RING i "SetPointA" "CalErrorA"
  verifyOffsets s.RING i
  verifyCombined s.RING i
  verifyEntry s.SIG.Magnet i
  verifyChildren s.RING i

/-- pySC/core/simulated_commissioning.py:957-1050 `verify_structure` without the log messages -/
def verifyStructure (s : SC K) : Except Err Unit := do
  require (!(s.ORD.Girder.isEmpty && !(s.ORD.Plinth.isEmpty && s.ORD.Section.isEmpty)))
  s.ORD.HCM.forM (verifyLimit s.RING 0)
  s.ORD.VCM.forM (verifyLimit s.RING 1)
  s.ORD.Magnet.forM (verifyMagnet s)
  s.ORD.RF.forM (fun i => do
    verifyEntry s.SIG.RF i
    if i < s.RING.length then .ok () else
      if (((s.SIG.RF.get? i).getD []).isEmpty) then .ok () else .error .indexError)
  require (decide (s.INJ.beamSize.length = 6) && s.INJ.beamSize.all (fun row => decide (row.length = 6)))
  require (decide (s.SIG.randomInjectionZ.length = 6))
  require (decide (s.SIG.staticInjectionZ.length = 6))

/-- `verify_structure()` as a method -/
def verify : Py (SC K) Unit := do
  let s ← get
  lift (verifyStructure s)

end PySC
