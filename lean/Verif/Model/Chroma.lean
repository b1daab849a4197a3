import Verif.Model.Setpoints
/-
pySC/correction/chroma.py, and `fit_tune` of pySC/correction/tune.py.  Chromaticities and tunes are parameters, as is the minimiser.
-/
namespace PySC
variable {K : Type} [Field K] [LinearOrder K] [FloorRing K]
open Py

/-- A minimiser such as scipy's `fmin`: after the values of the function found so far it either asks for the value at another point or
returns its result.  It starts from `x0`. -/
structure Minimiser (K : Type) where
  next : List K → List (List K × Option K) → List K ⊕ List K

/-- `fmin(f, x0)`: at most `fuel` evaluations (`fmin` ends after 200 evaluations per parameter) -/
def minimise {σ : Type} (m : Minimiser K) (x0 : List K) (f : List K → Py σ (Option K)) : Nat → List (List K × Option K) → Py σ (List K)
  | fuel, hist =>
    match m.next x0 hist with
    | .inr x => Py.pure x
    | .inl x =>
      match fuel with
      | 0 => Py.throw .outOfFuel
      | fuel + 1 => do
        let y ← f x
        minimise m x0 f fuel (hist ++ [(x, y)])

/-- pySC/correction/chroma.py:40-45: the set-points before.  They are stored in arrays like those of the ordinates, that is, of
integers. -/
def chromaSetpoints (r : Ring K) (fams : List (List Nat)) : Except Err (List (List K)) :=
  fams.mapM (fun fam => fam.mapM (fun o => do
    let v ← r.getVec o "SetPointB"
    let x ← idx v 2
    .ok (truncZ x)))

/-- pySC/correction/chroma.py:54-55: set all families -/
def chromaSet (x : List K) : Nat → List (List Nat) → List (List K) → Py (SC K) Unit
  | _, [], _ => Py.pure ()
  | n, fam :: fams, sp0 => do
    let xn ← lift (idx x n)
    match sp0 with
    | [] => Py.throw .indexError
    | s0 :: sp0 => do
      setMagnetSetpoints fam ⟨false, s0.map (fun s => xn + s)⟩ false 2 "abs" true
      chromaSet x (n + 1) fams sp0

/-- pySC/correction/chroma.py:53-57 `_fit_chroma_fun`; `merit` is the rms difference between chromaticity and target -/
def chromaFun (merit : Ring K → Option K) (fams : List (List Nat)) (sp0 : List (List K)) (x : List K) : Py (SC K) (Option K) := do
  chromaSet x 0 fams sp0
  let s ← get
  Py.pure (merit s.RING)

/-- pySC/correction/chroma.py:16-50 `fit_chroma`; `merit target` is as above and `design` the chromaticity of a lattice.  (`target` is
`none` if it is not given.) -/
def fitChroma (m : Minimiser K) (fuel : Nat) (merit : K × K → Ring K → Option K) (design : Ring K → Option K × Option K) (fams : List (List Nat))
    (target : Option (Option K × Option K)) (x0 : List K) : Py (SC K) Unit := do
  let s ← get
  match target.getD (design s.IDEALRING) with
  | (some a, some b) => do
    let sp0 ← rd (fun r => chromaSetpoints r fams)
    let _ ← minimise m x0 (chromaFun (merit (a, b)) fams sp0) fuel []
    Py.pure ()
  | _ => Py.pure ()

/-- pySC/correction/tune.py:137-140: the set-points before -/
def tuneSetpoints (r : Ring K) (fams : List (List Nat)) : Except Err (List (List K)) := do
  let first ← idx fams 0
  fams.mapM (fun fam => if first.length < fam.length then .error .indexError else fam.mapM (fun o => do
    let v ← r.getVec o "SetPointB"
    idx v 1))

/-- pySC/correction/tune.py:132-145 `fit_tune`: `fmin` is called without a start value. `tune` are the calculations of the tunes, which
may fail. -/
def fitTune (tune : Ring K → Except Err Unit) (fams : List (List Nat)) (given : Bool) : Py (SC K) Unit := do
  let s ← get
  lift (if given then .ok () else tune s.IDEALRING)
  lift (tune s.RING)
  let _ ← rd (fun r => tuneSetpoints r fams)
  Py.throw .typeError

end PySC
