import Verif.Model.Basic
import Mathlib.Data.Sign.Basic
import Mathlib.Analysis.SpecialFunctions.Trigonometric.Basic
/-
pySC/lattice_properties/apertures.py.  Whether a particle survives is a parameter.  Plotting is not modelled; polar
coordinates and `_autothetas` are in `Verif.Model.Polar`.
-/
namespace PySC
variable {K : Type} [Field K] [LinearOrder K]

/-- `np.mean(limits)` -/
def mean2 (l : K × K) : K := (l.1 + l.2) / 2

/-- pySC/lattice_properties/apertures.py:13-14: bounds sorted by their absolute value -/
def sortBounds (l : K × K) : K × K := if |l.1| ≤ |l.2| then l else (l.2, l.1)

/-- pySC/lattice_properties/apertures.py:176-184 `scale_bounds` -/
def scaleBounds (alpha : K) (l : K × K) : K × K :=
  let lower := mean2 l - (mean2 l - l.1) * alpha
  let upper := mean2 l - (mean2 l - l.2) * alpha
  (if SignType.sign lower ≠ SignType.sign l.1 then 0 else lower, if SignType.sign upper ≠ SignType.sign l.2 then 0 else upper)

/-- pySC/lattice_properties/apertures.py:30-36: at most `n` scalings -/
def scaleLoop (check : K × K → Except Err Bool) : Nat → K × K → Except Err (K × K)
  | 0, l => .ok l
  | n + 1, l => do
    let b ← check l
    if b then .ok l else scaleLoop check n (scaleBounds 10 l)

/-- pySC/lattice_properties/apertures.py:110-119 `_refine_bounds`; `alive r` says whether the particle started at radius `r` survives -/
def refineBounds (alive : K → Except Err Bool) (l : K × K) : Except Err (K × K) := do
  let b ← alive (mean2 l)
  if b then .ok (mean2 l, l.2) else .ok (l.1, mean2 l)

/-- pySC/lattice_properties/apertures.py:37-39 (at most `fuel` rounds) -/
def refineLoop (alive : K → Except Err Bool) (accuracy : K) : Nat → K × K → Except Err (K × K)
  | 0, l => if accuracy < |l.2 - l.1| then .error .outOfFuel else .ok l
  | fuel + 1, l =>
    if accuracy < |l.2 - l.1| then do
      let l' ← refineBounds alive l
      refineLoop alive accuracy fuel l'
    else .ok l

/-- pySC/lattice_properties/apertures.py:26-40: the radius for one angle -/
def apertureRadius (check : K × K → Except Err Bool) (alive : K → Except Err Bool) (accuracy : K) (fuel : Nat) (bounds : K × K) : Except Err K := do
  let l ← scaleLoop check 16 bounds
  let l ← refineLoop alive accuracy fuel l
  .ok (mean2 l)

/-- pySC/lattice_properties/apertures.py:8-40: the radii for all angles -/
def apertureRadii (check : K → K × K → Except Err Bool) (alive : K → K → Except Err Bool) (accuracy : K) (fuel : Nat) (bounds : K × K)
    (thetas : List K) : Except Err (List K) :=
  thetas.mapM (fun theta => apertureRadius (check theta) (alive theta) accuracy fuel (sortBounds bounds))

/-- pySC/lattice_properties/apertures.py:98-107 `_check_bounds` if tracking were read out correctly: `Zmin` and `Zmax` are views of the
same array, so both particles start at the upper end. -/
def checkShared (alive : K → Except Err Bool) (l : K × K) : Except Err Bool := do
  let a ← alive l.2
  let b ← alive l.2
  .ok (a && !b)

/-- pySC/lattice_properties/apertures.py:105-107: how `_check_bounds` reads the result of tracking.  `out r` are the particles after
tracking with both started at `r` (`none` if lost); the array has the shape (6, particles, 1, turns), so that its length is 6 and
`ROUT[:, 5:6]` selects particles. -/
def checkRead (out : K → List (Option K)) (l : K × K) : Except Err Bool :=
  let last := ((out l.2).drop 5).take 1
  match last[0]? with
  | none => .error .indexError
  | some x => if x.isNone then .ok false else
    match last[1]? with
    | none => .error .indexError
    | some y => .ok y.isNone

/-- pySC/lattice_properties/apertures.py:117-119: how `_refine_bounds` reads the result of tracking: `ROUT[:, 5]` is a particle, not
a turn -/
def aliveRead (out : K → List (Option K)) (r : K) : Except Err Bool :=
  match (out r)[5]? with
  | none => .error .indexError
  | some x => .ok x.isSome

/-- pySC/lattice_properties/apertures.py:45-48: the area `DA` -/
noncomputable def apertureArea : List (ℝ × ℝ) → ℝ
  | (r0, t0) :: (r1, t1) :: l => Real.sin (t1 - t0) * r0 * r1 / 2 + apertureArea ((r1, t1) :: l)
  | _ => 0

/-! ### Momentum aperture -/

/-- pySC/lattice_properties/apertures.py:171-173 `mysign` -/
def mySign (v : K) : K := 1 - 2 * (if v < 0 then 1 else 0)

/-- pySC/lattice_properties/apertures.py:166-168 `increment_bounds` -/
def incrementBounds (step : K) (l : K × K) : K × K := (l.1 + -1 * mySign l.1 * step, l.2 + 1 * mySign l.2 * step)

/-- pySC/lattice_properties/apertures.py:145-154 `refine_bounds`.  `z` is the momentum deviation in the array of the closed orbit, to
which the middle of the interval is added in each call (`Z0 = ZCO` does not copy).  `alive z` says whether a particle started with
the momentum deviation `z` survives. -/
def refineMomentum (alive : K → Bool) (x : (K × K) × K) : (K × K) × K :=
  let z := x.2 + mean2 x.1
  if alive z then ((mean2 x.1, x.1.2), z) else ((x.1.1, mean2 x.1), z)

/-- pySC/lattice_properties/apertures.py:79-81 (at most `fuel` rounds) -/
def momentumLoop (alive : K → Bool) (accuracy : K) : Nat → (K × K) × K → Except Err (K × K)
  | fuel, x =>
    if max x.1.1 x.1.2 = 0 then .error .nonFinite
    else if accuracy < |(x.1.2 - x.1.1) / max x.1.1 x.1.2| then
      match fuel with
      | 0 => .error .outOfFuel
      | fuel + 1 => momentumLoop alive accuracy fuel (refineMomentum alive x)
    else .ok x.1

end PySC
