import Verif.Model.Basic
/-
pySC/utils/sc_tools.py: randnc; pySC/utils/classdef_tools.py: randn_cutoff, intersect;
pySC/core/simulated_commissioning.py: set_random_multipole_errors, set_systematic_multipole_errors.
-/
namespace PySC
variable {K : Type} [Field K] [LinearOrder K]
open Py

/-- one pass of the loop in pySC/utils/sc_tools.py:36-39: every value beyond the cut-off is replaced by the next
value of the random stream; returns also the new position in the stream -/
def redraw (randn : Nat → K) (cut : K) : Nat → List K → List K × Nat
  | pos, [] => ([], pos)
  | pos, x :: xs =>
    if |cut| < |x| then (randn pos :: (redraw randn cut (pos + 1) xs).1, (redraw randn cut (pos + 1) xs).2)
    else (x :: (redraw randn cut pos xs).1, (redraw randn cut pos xs).2)

/-- pySC/utils/sc_tools.py:35-39: redraw until no value is beyond the cut-off (`fuel` bounds the number of passes) -/
def resample (randn : Nat → K) (cut : K) : Nat → List K → Nat → Except Err (List K × Nat)
  | fuel, out, pos =>
    if out.all (fun x => decide (|x| ≤ |cut|)) then .ok (out, pos)
    else match fuel with
      | 0 => .error .outOfFuel
      | n + 1 => resample randn cut n (redraw randn cut pos out).1 (redraw randn cut pos out).2

/-- pySC/utils/sc_tools.py:34-42 for an output of `n` values: the values and the new position in the stream
(negative shapes can not occur in the model) -/
def randncFrom (E : Env K) (cut : K) (n pos : Nat) : Except Err (List K × Nat) :=
  resample E.randn cut E.fuel ((List.range n).map (fun k => E.randn (pos + k))) (pos + n)

/-- pySC/utils/sc_tools.py:15-42 `randnc(cut_off, shape)` with `n` the product of the shape -/
def randnc (E : Env K) (cut : K) (n : Nat) : Py (SC K) (List K) := fun s =>
  match randncFrom E cut n s.rng with
  | .ok (l, pos) => .ok l { s with rng := pos }
  | .error e => .error e s

/-- `sigma * randnc(cut, np.shape(sigma))` for a scalar or a 1-D array.  (The shape `(0,)` makes `randnc` draw one
number and return it as a scalar, pySC/utils/sc_tools.py:34, 40-41.) -/
def scaledRandn (E : Env K) (cut : K) : Attr K → Py (SC K) (Attr K)
  | .num x => do
    let z ← randnc E cut 1
    Py.pure (.num (x * z.headD 0))
  | .vec v => do
    let z ← randnc E cut (if v.length < 1 then 1 else v.length)
    Py.pure (.vec (List.zipWith (· * ·) v z))
  | _ => Py.throw .typeError

/-- pySC/utils/classdef_tools.py:17-20 `randn_cutoff` (uncertainties are scalars or 1-D arrays, possibly with their own
cut-off) -/
def randnCutoff (E : Env K) (field : Attr K) (ncut : K) : Py (SC K) (Attr K) :=
  match field with
  | .pair v c => scaledRandn E c v
  | v => scaledRandn E ncut v

/-- pySC/utils/classdef_tools.py:13-14 `intersect` -/
def intersect (primary secondary : List Nat) : List Nat := primary.filter (fun x => decide (x ∈ secondary))

/-- `re.search(sub, s)` / `sub in s` for a literal `sub` -/
def strContains (sub s : String) : Bool := s.toList.tails.any (fun t => sub.toList.isPrefixOf t)

end PySC
