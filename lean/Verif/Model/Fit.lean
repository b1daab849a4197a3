import Verif.Model.Basic
/-
`np.polyfit` of degree one, as used in pySC/correction/rf.py, pySC/correction/bba.py and pySC/correction/injection_fit.py.
-/
namespace PySC
variable {K : Type} [Field K] [LinearOrder K]

/-- a point of a fit: abscissa, ordinate and weight (`w` of `np.polyfit`, which multiplies the residual) -/
structure Pt (K : Type) where
  x : K
  y : K
  w : K
  deriving DecidableEq, Repr

/-- result of `np.polyfit(x, y, 1, w=w, cov="unscaled")`: coefficients and diagonal of the covariance matrix -/
structure Line (K : Type) where
  slope : K
  intercept : K
  varSlope : K
  varIntercept : K
  deriving DecidableEq, Repr

/-- `sum(f(p) for p in pts)` -/
def sumOf {α : Type} (pts : List α) (f : α → K) : K := (pts.map f).sum

/-- `np.polyfit(x, y, 1, w=w, cov="unscaled")`, solved by the normal equations.  Without points numpy raises TypeError; if
the abscissas (with non-zero weight) do not differ, the inverse in the covariance raises LinAlgError. -/
def lineFit (pts : List (Pt K)) : Except Err (Line K) :=
  let S := sumOf pts (fun p => p.w ^ 2)
  let Sx := sumOf pts (fun p => p.w ^ 2 * p.x)
  let Sxx := sumOf pts (fun p => p.w ^ 2 * p.x ^ 2)
  let Sy := sumOf pts (fun p => p.w ^ 2 * p.y)
  let Sxy := sumOf pts (fun p => p.w ^ 2 * (p.x * p.y))
  let D := S * Sxx - Sx ^ 2
  if pts.isEmpty then .error .typeError
  else if D = 0 then .error .linAlgError
  else .ok ⟨(S * Sxy - Sx * Sy) / D, (Sxx * Sy - Sx * Sxy) / D, S / D, Sxx / D⟩

/-- `np.linspace(a, b, n)` for `n > 1` -/
def linspace (a b : K) (n : Nat) : List K := (List.range n).map (fun (k : Nat) => a + (k : K) * ((b - a) / ((n - 1 : Nat) : K)))

/-- `np.mean` of a 1-D array, NaN if it is empty or contains NaN -/
def npMean (v : List (Option K)) : Option K :=
  if v.isEmpty || v.any (fun x => x.isNone) then none
  else some ((v.filterMap id).sum / ((v.filterMap id).length : K))

/-- difference of two readings -/
def nanSub (a b : Option K) : Option K :=
  match a, b with
  | some x, some y => some (x - y)
  | _, _ => none

end PySC
