import Verif.Model.Supports
/-
pySC/plotting/plot_lattice.py `plot_lattice` and pySC/plotting/plot_apertures.py `plot_data_apertures`.
-/
namespace PySC
variable {K : Type} [Field K] [LinearOrder K]
open Py

/-- what `plot_lattice` works with: the two lattices with their plot ranges (`Lattice.s_range` of pyAT) and the font size
of matplotlib -/
structure Bench (K : Type) where
  ring : Ring K
  ideal : Ring K
  range : K × K
  idealRange : K × K
  font : K

/-- pySC/plotting/plot_lattice.py:118-127 `_get_s_range`; `own` is the range of the lattice -/
def sRange (r : Ring K) (own : K × K) (range : Option (K × K)) (indices : Option (List Nat)) (sectors : Option Nat) : Except Err (K × K) :=
  match range, indices, sectors with
  | some p, _, _ => .ok p
  | none, some [], _ => .error .valueError
  | none, some (i :: l), _ => do
    let a ← idx (findspos r) (l.foldl min i)
    let b ← idx (findspos r) (l.foldl max i)
    .ok (a, b)
  | none, none, some n => do
    let b ← divE ((findspos r).getLastD 0) (n : K)
    .ok (0, b)
  | none, none, none => .ok own

/-- pySC/plotting/plot_lattice.py:13-93 `plot_lattice`, from setting the font size (line 54) to restoring it (line 93).  `draw` is what
happens in between (lines 61-86: optics, apertures, synoptics), given the lattice and the range; it may raise.  The result is the
range that is shown. -/
def plotLattice (draw : Ring K → K × K → Option Err) (range : Option (K × K)) (indices : Option (List Nat)) (sectors : Option Nat)
    (idealRing : Bool) (fontSize : K) : Py (Bench K) (K × K) := fun w =>
  let font := w.font
  let w := { w with font := fontSize }
  let r := if idealRing then w.ideal else w.ring
  let own := if idealRing then w.idealRange else w.range
  match sRange r own range indices sectors with
  | .error e => .error e w
  | .ok p =>
    let w := if idealRing then { w with idealRange := p } else { w with range := p }
    match draw r p with
    | some e => .error e w
    | none =>
      let w := if idealRing then { w with idealRange := own } else { w with range := own }
      .ok p { w with font := font }

/-- pySC/plotting/plot_apertures.py:99 for one element: lower and upper elliptic limits in both directions; NaN without aperture -/
def ellipticLimits (r : Ring K) (i : Nat) : Except Err ((Option K × Option K) × (Option K × Option K)) := do
  let h ← r.hasA i "EApertures"
  if h then do
    let v ← r.getVec i "EApertures"
    match v with
    | [a, b] => .ok ((some (-a), some a), (some (-b), some b))
    | _ => .error .valueError
  else .ok ((none, none), (none, none))

/-- pySC/plotting/plot_apertures.py:100 for one element: lower and upper rectangular limits in both directions -/
def rectangularLimits (r : Ring K) (i : Nat) : Except Err ((Option K × Option K) × (Option K × Option K)) := do
  let h ← r.hasA i "RApertures"
  if h then do
    let v ← r.getVec i "RApertures"
    match v with
    | [a, b, c, d] => .ok ((some a, some b), (some c, some d))
    | _ => .error .valueError
  else .ok ((none, none), (none, none))

/-- pySC/plotting/plot_apertures.py:22-26: millimetres, and NaN beyond the cut-off -/
def apertureMm (cutOff : Option K) (x : Option K) : Option K :=
  match x, cutOff with
  | some x, some c => if |x * 1000| > c * 1000 then none else some (x * 1000)
  | some x, none => some (x * 1000)
  | none, _ => none

/-- pySC/plotting/plot_apertures.py:28-32: lower limits, a gap, upper limits -/
def joinedCurve (s : List K) (lims : List (Option K × Option K)) : List (K × Option K) :=
  s.zip (lims.map (·.1)) ++ [(s.getLastD 0, none), (s.headD 0, none)] ++ s.zip (lims.map (·.2))

/-- pySC/plotting/plot_apertures.py:13-36 `plot_data_apertures`: the curves of the elliptic limits in x and y and of the rectangular
ones -/
def plotDataApertures (r : Ring K) (refpts : List Nat) (cutOff : Option K) : Except Err (List (List (K × Option K))) := do
  let last ← idx refpts (refpts.length - 1)
  let refs := if last = r.length then refpts.dropLast else refpts
  let allE ← (List.range r.length).mapM (ellipticLimits r)
  let allR ← (List.range r.length).mapM (rectangularLimits r)
  let pos ← refs.mapM (idx (findspos r))
  let e ← refs.mapM (idx allE)
  let a ← refs.mapM (idx allR)
  if pos.isEmpty then .error .indexError
  else
    let mm := fun (p : Option K × Option K) => (apertureMm cutOff p.1, apertureMm cutOff p.2)
    .ok [joinedCurve pos (e.map (fun q => mm q.1)), joinedCurve pos (e.map (fun q => mm q.2)),
      joinedCurve pos (a.map (fun q => mm q.1)), joinedCurve pos (a.map (fun q => mm q.2))]

end PySC
