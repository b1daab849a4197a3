import Verif.Model.Supports
/-
pySC/plotting/plot_synoptic.py: the shapes and markers of the synoptic.  Colours, labels, axes and names are left out.
-/
namespace PySC
variable {K : Type} [Field K] [LinearOrder K]

/-- classes of elements of pyAT, as `plot_synoptic` tells them apart.  Multipoles are those which are neither dipoles, quadrupoles nor
sextupoles (pySC/plotting/plot_synoptic.py:39-40). -/
inductive ElemClass
  | dipole | quadrupole | sextupole | multipole | monitor | other
deriving DecidableEq

/-- pySC/plotting/plot_synoptic.py:93-105: the corners of the shapes for unit length -/
def unitShape (mtype : String) : Except Err (List (K × K)) :=
  if mtype = "dipole" then .ok [(0, 0), (0, 1), (1, 1), (1, 0)]
  else if mtype = "hcor" then .ok [(0, 0), (0, 11/10), (9/10, 11/10), (9/10, 0)]
  else if mtype = "vcor" then .ok [(0, 0), (0, -(21/20)), (19/20, -(21/20)), (19/20, 0)]
  else if mtype = "f_quadrupole" then .ok [(0, 0), (0, 1), (1/2, 7/5), (1, 1), (1, 0)]
  else if mtype = "d_quadrupole" then .ok [(0, 0), (0, 1), (1/2, 3/5), (1, 1), (1, 0)]
  else if mtype = "f_skewquadrupole" then .ok [(0, 0), (0, 11/10), (1/2, 3/2), (9/10, 11/10), (9/10, 0)]
  else if mtype = "d_skewquadrupole" then .ok [(0, 0), (0, 11/10), (1/2, 7/10), (9/10, 11/10), (9/10, 0)]
  else if mtype = "f_sextupole" then .ok [(0, 0), (0, 4/5), (33/100, 1), (33/50, 1), (1, 4/5), (1, 0)]
  else if mtype = "d_sextupole" then .ok [(0, 0), (0, 4/5), (33/100, 3/5), (33/50, 3/5), (1, 4/5), (1, 0)]
  else if mtype = "multipole" then .ok [(0, 0), (0, 4/5), (1, 4/5), (1, 0)]
  else if mtype = "monitor" then .ok [(0, 0), (0, 6/5)]
  else .error .keyError

/-- pySC/plotting/plot_synoptic.py:92-106 `_get_shape` -/
def getShape (s length : K) (mtype : String := "monitor") : Except Err (List (K × K)) := do
  let u ← unitShape mtype
  .ok (u.map (fun p => (p.1 * length + s, p.2)))

/-- the shape of element `i`, given its length and the name of its shape, as in pySC/plotting/plot_synoptic.py:44-66; the positions are those of line 30 -/
def shapeOf (r : Ring K) (length : Except Err K) (mtype : Except Err String) (i : Nat) : Except Err (List (K × K)) := do
  let s ← idx (findspos r).dropLast i
  let l ← length
  let m ← mtype
  getShape s l m

/-- `getattr(el, "Length", 0)`, pySC/plotting/plot_synoptic.py:44, 65 -/
def lengthOr0 (r : Ring K) (i : Nat) : Except Err K := do
  let h ← r.hasA i "Length"
  if h then r.getNum i "Length" else .ok 0

/-- `'f' if el.PolynomX[k] >= 0.0 else 'd'` before the rest of the name, pySC/plotting/plot_synoptic.py:46, 60, 62 -/
def signed (r : Ring K) (i : Nat) (a : String) (k : Nat) (name : String) : Except Err String := do
  let x ← r.getVecAt i a k
  .ok ((if x ≥ 0 then "f_" else "d_") ++ name)

/-- pySC/plotting/plot_synoptic.py:57-67, 73: the shapes of a figure, by colour, and the positions of the markers of monitors -/
structure MagnetFigure (K : Type) where
  dipoles : List (List (K × K))
  quadrupoles : List (List (K × K))
  sextupoles : List (List (K × K))
  multipoles : List (List (K × K))
  monitors : List (List (K × K))
  markers : List K
deriving DecidableEq

/-- pySC/plotting/plot_synoptic.py:42-55 with correctors: shapes and markers -/
structure CorrectorFigure (K : Type) where
  hcors : List (List (K × K))
  vcors : List (List (K × K))
  skews : List (List (K × K))
  monitors : List (List (K × K))
  markers : List K
deriving DecidableEq

/-- pySC/plotting/plot_synoptic.py:56-74 `plot_synoptic` without correctors; `r` is the design lattice (line 18) and `cls` tells the
classes of its elements.  The exceptions of all shapes are taken before the first is drawn. -/
def synopticMagnets (r : Ring K) (cls : Nat → ElemClass) : Except Err (MagnetFigure K) := do
  let are := fun c => (List.range r.length).filter (fun i => decide (cls i = c))
  let d ← (are .dipole).mapM (fun i => shapeOf r (r.getNum i "Length") (.ok "dipole") i)
  let q ← (are .quadrupole).mapM (fun i => shapeOf r (r.getNum i "Length") (signed r i "PolynomB" 1 "quadrupole") i)
  let s ← (are .sextupole).mapM (fun i => shapeOf r (r.getNum i "Length") (signed r i "PolynomB" 2 "sextupole") i)
  let m ← (are .multipole).mapM (fun i => shapeOf r (r.getNum i "Length") (.ok "monitor") i)
  let b ← (are .monitor).mapM (fun i => shapeOf r (lengthOr0 r i) (.ok "monitor") i)
  let k ← (are .monitor).mapM (fun i => idx (findspos r).dropLast i)
  .ok ⟨d, q, s, m, b, k⟩

/-- pySC/plotting/plot_synoptic.py:42-55, 74 `plot_synoptic` with correctors -/
def synopticCorrectors (r : Ring K) (o : Ords) : Except Err (CorrectorFigure K) := do
  let h ← o.HCM.mapM (fun i => shapeOf r (r.getNum i "Length") (.ok "hcor") i)
  let v ← o.VCM.mapM (fun i => shapeOf r (r.getNum i "Length") (.ok "vcor") i)
  let q ← o.SkewQuad.mapM (fun i => shapeOf r (r.getNum i "Length") (signed r i "PolynomA" 1 "skewquadrupole") i)
  let b ← o.BPM.mapM (fun i => shapeOf r (lengthOr0 r i) (.ok "monitor") i)
  let k ← o.BPM.mapM (fun i => idx (findspos r).dropLast i)
  .ok ⟨h, v, q, b, k⟩

end PySC
