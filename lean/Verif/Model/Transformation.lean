import Verif.Model.Basic
import Mathlib.Analysis.SpecialFunctions.Trigonometric.Basic
import Mathlib.LinearAlgebra.Matrix.Notation
import Mathlib.LinearAlgebra.Matrix.NonsingularInverse
/-
pySC/utils/sc_tools.py: rotation, _translation_vector, _r_matrix, update_transformation (the numerical part) over the
real numbers.
-/
namespace PySC
open Matrix

/-- pySC/utils/sc_tools.py:183-191 `rotation` -/
noncomputable def rotation (rolls : Fin 3 → ℝ) : Matrix (Fin 3) (Fin 3) ℝ :=
  let ax := rolls 0
  let ay := rolls 1
  let az := rolls 2
  !![Real.cos ay * Real.cos az, -Real.cos ay * Real.sin az, Real.sin ay;
     Real.cos az * Real.sin ax * Real.sin ay + Real.cos ax * Real.sin az,
     Real.cos ax * Real.cos az - Real.sin ax * Real.sin ay * Real.sin az, -Real.cos ay * Real.sin ax;
     -Real.cos ax * Real.cos az * Real.sin ay + Real.sin ax * Real.sin az,
     Real.cos az * Real.sin ax + Real.cos ax * Real.sin ay * Real.sin az, Real.cos ax * Real.cos ay]

/-- pySC/utils/sc_tools.py:194-197 `_translation_vector` (for `r3d[2, 2] ≠ 0`) -/
noncomputable def translationVector (ld : ℝ) (r : Matrix (Fin 3) (Fin 3) ℝ) (xaxis yaxis offsets : Fin 3 → ℝ) : Fin 6 → ℝ :=
  ![ld * r 2 0 / r 2 2, r 2 0, ld * r 2 1 / r 2 2, r 2 1, 0, ld / r 2 2] +
  ![-(offsets ⬝ᵥ xaxis), 0, -(offsets ⬝ᵥ yaxis), 0, 0, 0]

/-- pySC/utils/sc_tools.py:200-208 `_r_matrix` (for `r3d[2, 2] ≠ 0`) -/
noncomputable def rMatrix (ld : ℝ) (r : Matrix (Fin 3) (Fin 3) ℝ) : Matrix (Fin 6) (Fin 6) ℝ :=
  !![r 1 1 / r 2 2, ld * r 1 1 / r 2 2 ^ 2, -r 0 1 / r 2 2, -ld * r 0 1 / r 2 2 ^ 2, 0, 0;
     0, r 0 0, 0, r 1 0, r 2 0, 0;
     -r 1 0 / r 2 2, -ld * r 1 0 / r 2 2 ^ 2, r 0 0 / r 2 2, ld * r 0 0 / r 2 2 ^ 2, 0, 0;
     0, r 0 1, 0, r 1 1, r 2 1, 0;
     0, 0, 0, 0, 1, 0;
     -r 0 2 / r 2 2, -ld * r 0 2 / r 2 2 ^ 2, -r 1 2 / r 2 2, -ld * r 1 2 / r 2 2 ^ 2, 0, 1]

/-- what `update_transformation` stores -/
structure Transformation where
  T1 : Fin 6 → ℝ
  T2 : Fin 6 → ℝ
  R1 : Matrix (Fin 6) (Fin 6) ℝ
  R2 : Matrix (Fin 6) (Fin 6) ℝ

/-- pySC/utils/sc_tools.py:139-141 `OPp` -/
noncomputable def designExit (length theta : ℝ) : Fin 3 → ℝ :=
  ![if theta ≠ 0 then length * (Real.cos theta - 1) / theta else 0,
    0,
    length * (if theta ≠ 0 then Real.sin theta / theta else 1)]

/-- pySC/utils/sc_tools.py:126-147, from length, angle, offsets and angles (already in the order x, y, z).  A vanishing
`r_3d[2, 2]` would give inf and nan in numpy; the model stops with `nonFinite`. -/
noncomputable def transformation (length theta : ℝ) (offsets rolls : Fin 3 → ℝ) : Except Err Transformation :=
  let xAxis : Fin 3 → ℝ := ![1, 0, 0]
  let yAxis : Fin 3 → ℝ := ![0, 1, 0]
  let zAxis : Fin 3 → ℝ := ![0, 0, 1]
  let r3d := rotation rolls
  let ld := (r3d *ᵥ zAxis) ⬝ᵥ offsets
  if r3d 2 2 = 0 then .error .nonFinite
  else
    let T := translationVector ld r3d (r3d *ᵥ xAxis) (r3d *ᵥ yAxis) offsets
    let R1 := rMatrix ld r3d
    if R1.det = 0 then .error .linAlgError
    else
      let T1 := R1⁻¹ *ᵥ T
      let RX := rotation rolls
      let RB := rotation ![0, -theta, 0]
      let r3d' := RBᵀ * (RXᵀ * RB)
      let OPp := designExit length theta
      let OpPp := OPp - RX *ᵥ OPp - offsets
      let ld' := (RB *ᵥ zAxis) ⬝ᵥ OpPp
      if r3d' 2 2 = 0 then .error .nonFinite
      else .ok ⟨T1, translationVector ld' r3d' (RB *ᵥ xAxis) (RB *ᵥ yAxis) OpPp, R1, rMatrix ld' r3d'⟩

/-- a numpy array of three numbers -/
noncomputable def toVec3 : List ℝ → Except Err (Fin 3 → ℝ)
  | [a, b, c] => .ok ![a, b, c]
  | _ => .error .valueError

/-- rows of a matrix -/
def matRows (m : Matrix (Fin 6) (Fin 6) ℝ) : List (List ℝ) := List.ofFn (fun i => List.ofFn (m i))

/-- `update_transformation` on the arrays of an element: the parameter `transform` of `Env` -/
noncomputable def transformLists (length theta : ℝ) (offsets rolls : List ℝ) :
    Except Err (List ℝ × List ℝ × List (List ℝ) × List (List ℝ)) := do
  let o ← toVec3 offsets
  let r ← toVec3 rolls
  let t ← transformation length theta o r
  .ok (List.ofFn t.T1, List.ofFn t.T2, matRows t.R1, matRows t.R2)

end PySC
