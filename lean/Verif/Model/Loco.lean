import Verif.Model.Response
import Verif.Model.ScTools
/-
pySC/correction/loco.py.  `measure_closed_orbit_response_matrix` is in Model/Response.lean, the optics calculation of
`model_beta_beat` and plotting are not modelled.
-/
namespace PySC
variable {K : Type} [Field K] [LinearOrder K]
open Py

/-! ### The Jacobian.  Response matrices are lists of columns. -/

/-- `a - b` for numbers which may be NaN -/
def optSub (a b : Option K) : Option K :=
  match a, b with
  | some a, some b => some (a - b)
  | _, _ => none

/-- `a - b` for matrices.  (Numpy also accepts matrices with a single row or column; not modelled.) -/
def subMatrix (a b : List (List (Option K))) : Except Err (List (List (Option K))) :=
  if a.map List.length ≠ b.map List.length then .error .valueError
  else .ok (List.zipWith (List.zipWith optSub) a b)

/-- `a / d` -/
def divMatrix (d : K) (a : List (List (Option K))) : List (List (Option K)) := a.map (fun c => c.map (fun x => x.map (· / d)))

section
variable [FloorRing K]

/-- pySC/correction/loco.py:41-59 `generating_quads_response_matrices` for one quadrupole.  `SCgetModelRM` and `SCgetModelDispersion`
are called with their default `Z0` and `nTurns`; the latter also with its default mode and with the design lattice. `disp` is the list
of cavities and the frequency step if the dispersion is included.  (`dk` is a float.) -/
def quadResponse (B : BeamEnv K) (C : List (List (Option K))) (bpms : List Nat) (cms : List Nat × List Nat) (dkick dk : K) (mode : String)
    (useIdeal skew : Bool) (order : Nat) (method : String) (disp : Option (List Nat × K)) (quad : Nat) :
    Py (SC K) (List (List (Option K))) := do
  match disp with
  | none => do
    setMagnetSetpoints [quad] ⟨false, [dk]⟩ skew order method false
    let c ← modelRM B bpms cms mode (List.replicate 6 0) 1 dkick useIdeal
    setMagnetSetpoints [quad] ⟨false, [-dk]⟩ skew order method false
    lift (subMatrix c C)
  | some (cavs, rfStep) => do
    let d0 ← modelDispersion B bpms cavs "ORB" (List.replicate 6 0) 1 1000 true
    setMagnetSetpoints [quad] ⟨false, [dk]⟩ skew order method false
    let c ← modelRM B bpms cms mode (List.replicate 6 0) 1 dkick useIdeal
    let d1 ← modelDispersion B bpms cavs "ORB" (List.replicate 6 0) 1 rfStep true
    setMagnetSetpoints [quad] ⟨false, [-dk]⟩ skew order method false
    let m ← lift (subMatrix c C)
    Py.pure (m ++ [List.zipWith optSub d1 d0])

end

/-- The result of a call in another process: its state is dropped. -/
def elsewhere {σ α : Type} (f : Py σ α) (s : σ) : Except Err α :=
  match f s with
  | .ok a _ => .ok a
  | .error e _ => .error e

/-- pySC/correction/loco.py:16-24: `pool.map(f, args)`.  The arguments are cut into chunks.  Each chunk is sent as a whole to some
process, where its calls run one after the other with the same copy of the machine.  Which chunks there are depends on the number
of processors.  (If several chunks fail, any of the exceptions may be raised; the model takes the first.) -/
def poolMap {σ α β : Type} (s : σ) (chunks : List (List β)) (f : β → Py σ α) : Except Err (List α) := do
  let res ← chunks.mapM (fun c => elsewhere (mapEach c f) s)
  .ok res.flatten

/-- pySC/correction/loco.py:31-33: the matrix which has column `i` of `C` and is zero elsewhere -/
def gainColumn (C : List (List (Option K))) (i : Nat) : Except Err (List (List (Option K))) :=
  match C[i]? with
  | none => .error .indexError
  | some c => .ok ((C.map (fun c => c.map (fun _ => some 0))).set i c)

/-- pySC/correction/loco.py:34-36: the matrix which has row `i` of `C` (with `rows` rows) and is zero elsewhere -/
def gainRow (C : List (List (Option K))) (rows i : Nat) : Except Err (List (List (Option K))) :=
  if rows ≤ i then .error .indexError
  else .ok (C.map (fun c => (c.map (fun _ => some 0)).set i (c.getD i none)))

section
variable [FloorRing K]

/-- pySC/correction/loco.py:13-38 `calculate_jacobian`; `chunks` says how the quadrupoles are distributed.  (`C` is a matrix with
`rows` rows; without quadrupoles, and if the sizes of the matrices differ, `np.concatenate` raises.) -/
def jacobian (B : BeamEnv K) (rows : Nat) (C : List (List (Option K))) (bpms : List Nat) (cms : List Nat × List Nat) (chunks : List (List Nat))
    (dkick dk : K) (mode : String) (useIdeal skew : Bool) (order : Nat) (method : String) (disp : Option (List Nat × K)) (full : Bool) :
    Py (SC K) (List (List (List (Option K)))) := do
  let s ← get
  let res ← lift (poolMap s chunks (quadResponse B C bpms cms dkick dk mode useIdeal skew order method disp))
  if dk = 0 ∧ res ≠ [] then Py.throw .nonFinite
  else do
    let res := res.map (divMatrix dk)
    if full then do
      let jc ← lift ((List.range (cms.1.length + cms.2.length)).mapM (gainColumn C))
      let jb ← lift ((List.range (bpms.length * 2)).mapM (gainRow C rows))
      if res = [] ∨ ∃ m ∈ res, m.length ≠ C.length then Py.throw .valueError
      else Py.pure (res ++ jc ++ jb)
    else Py.pure res

end

/-! ### The fit.  Response matrices have `m` rows (BPMs) and `c` columns (correctors). -/

/-- pySC/correction/loco.py:108-114 `_get_parameters_mask` -/
def parametersMask (fit : List String) (lengths : Nat × Nat × Nat) : List Bool :=
  (List.range (lengths.1 + lengths.2.1 + lengths.2.2)).map (fun i =>
    if i < lengths.1 then decide ("quads" ∈ fit)
    else if i < lengths.1 + lengths.2.1 then decide ("cor" ∈ fit)
    else decide ("bpm" ∈ fit))

/-- `a[mask]` -/
def maskSelect {α : Type} (mask : List Bool) (a : List α) : Except Err (List α) :=
  if mask.length ≠ a.length then .error .indexError
  else .ok (((mask.zip a).filter (fun p => p.1)).map Prod.snd)

section
variable {m c : Nat}

/-- pySC/correction/loco.py:103-105 `objective`, before `ravel`.  `W` is the matrix of weights (a number `w` as weight acts like the
matrix `w • 1`); its square root is taken element by element. -/
def objective (sqrt : K → K) (p : List K) (R : Matrix (Fin m) (Fin c) K) (J : List (Matrix (Fin m) (Fin c) K)) (W : Matrix (Fin m) (Fin m) K) :
    Except Err (Matrix (Fin c) (Fin m) K) :=
  if p.length ≠ J.length then .error .valueError
  else .ok ((R - (List.zipWith (fun x M => x • M) p J).sum).transpose * W.map sqrt)

/-- pySC/correction/loco.py:82-89 `loco_correction_lm`; `solve f x0` stands for `least_squares(f, x0).x` -/
def locoLm (sqrt : K → K) (solve : (List K → Except Err (Matrix (Fin c) (Fin m) K)) → List K → Except Err (List K)) (guess : List K)
    (model measured : Matrix (Fin m) (Fin c) K) (J : List (Matrix (Fin m) (Fin c) K)) (lengths : Nat × Nat × Nat) (fit : List String)
    (W : Matrix (Fin m) (Fin m) K) : Except Err (List K) := do
  let g ← maskSelect (parametersMask fit lengths) guess
  let Jm ← maskSelect (parametersMask fit lengths) J
  solve (fun p => objective sqrt p (measured - model) Jm W) g

/-- pySC/correction/loco.py:180 `Jt`: sums over the columns -/
def columnSums (J : List (Matrix (Fin m) (Fin c) K)) : Matrix (Fin J.length) (Fin m) K := fun i a => ∑ b, J.get i a b

/-- pySC/correction/loco.py:181-182 -/
def normalMatrix (J : List (Matrix (Fin m) (Fin c) K)) (W : Matrix (Fin m) (Fin m) K) (lambda : K) : Matrix (Fin J.length) (Fin J.length) K :=
  let g := columnSums J * W * (columnSums J).transpose
  g + lambda • Matrix.diagonal (fun i => g i i)

/-- pySC/correction/loco.py:160-186 `get_inverse`; `svd` is the singular value decomposition -/
def getInverse (svd : (n : Nat) → Matrix (Fin n) (Fin n) K → Svd K n n n) (J : List (Matrix (Fin m) (Fin c) K)) (b : Fin J.length → K)
    (sCut : Int) (W : Matrix (Fin m) (Fin m) K) (lambda : K) : Fin J.length → K :=
  (pinvOf (svd J.length (normalMatrix J W lambda)) (J.length - min (J.length : Int) sCut) 0 1).mulVec b

/-- pySC/correction/loco.py:92-100 `loco_correction_ng`.  The vector `t2` is made from the first entries of `J`, not from the
selected ones. -/
def locoNg (sqrt : K → K) (svd : (n : Nat) → Matrix (Fin n) (Fin n) K → Svd K n n n) (guess : List K) (model measured : Matrix (Fin m) (Fin c) K)
    (J : List (Matrix (Fin m) (Fin c) K)) (lengths : Nat × Nat × Nat) (fit : List String) (sCut : Int) (W : Matrix (Fin m) (Fin m) K)
    (lambda : K) : Except Err (List K) := do
  let g ← maskSelect (parametersMask fit lengths) guess
  let Jm ← maskSelect (parametersMask fit lengths) J
  let r ← objective sqrt g (measured - model) Jm W
  .ok (List.ofFn (getInverse svd Jm (fun i => ∑ a, ∑ b, ((J.getD i.1 0).transpose * W * r.transpose) a b) sCut W lambda))

end

/-- pySC/correction/loco.py:117-124 `set_correction`, one value per magnet -/
def setCorrection [FloorRing K] (r : NpArr K) (ords : List Nat) (skew : Bool) (order : Nat) (method : String) (comp : Bool) : Py (SC K) Unit :=
  setMagnetSetpoints ords ⟨r.isInt, r.vals.map (fun x => -x)⟩ skew order method comp

/-- pySC/correction/loco.py:117-124 `set_correction`, one value per family -/
def setCorrectionFamilies [FloorRing K] (r : NpArr K) (fams : List (List Nat)) (skew : Bool) (order : Nat) (method : String) (comp : Bool) :
    Py (SC K) Unit :=
  forEach fams.zipIdx (fun f => do
    let x ← lift (idx r.vals f.2)
    setMagnetSetpoints f.1 ⟨r.isInt, [-x]⟩ skew order method comp)

/-- pySC/correction/loco.py:130-133: root mean square of the relative differences.  `beta` are the beta functions of the machine, `beta0`
those of the model.  (Dividing by zero, and no elements, give NaN in Python.) -/
def betaBeat (sqrt : K → K) (beta beta0 : List K) : Except Err K := do
  if beta.length ≠ beta0.length then .error .valueError
  else if beta = [] ∨ (0 : K) ∈ beta0 then .error .nonFinite
  else .ok (sqrt ((List.zipWith (fun b b0 => (b / b0 - 1) ^ 2) beta beta0).sum / beta.length))

/-- `l[::step]` for a positive step: the elements number 0, `step`, `2 * step`, ... -/
def everyNth {α : Type} (l : List α) (step : Nat) : List α :=
  (List.range ((l.length + step - 1) / step)).filterMap (fun i => l[i * step]?)

/-- pySC/correction/loco.py:155-157 `select_equally_spaced_elements`.  `//` rounds down, so that less than one element gives a
negative step, which goes backwards from the end. -/
def selectEqually {α : Type} (l : List α) (num : Int) : Except Err (List α) :=
  if num - 1 = 0 then .error .zeroDivision
  else
    let step := Int.fdiv l.length (num - 1)
    if step = 0 then .error .valueError
    else if 0 < step then .ok (everyNth l step.toNat)
    else .ok (everyNth l.reverse (-step).toNat)

end PySC
