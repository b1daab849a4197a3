import Mathlib.Analysis.SpecialFunctions.Trigonometric.Basic
import Mathlib.LinearAlgebra.Matrix.Notation
/-
Geometry of a misaligned element, independent of the code (C30).
-/
namespace PySC.Spec
open Matrix

/-- the rotations by an angle about the three axes -/
noncomputable def aboutX (a : ℝ) : Matrix (Fin 3) (Fin 3) ℝ :=
  !![1, 0, 0; 0, Real.cos a, -Real.sin a; 0, Real.sin a, Real.cos a]
noncomputable def aboutY (a : ℝ) : Matrix (Fin 3) (Fin 3) ℝ :=
  !![Real.cos a, 0, Real.sin a; 0, 1, 0; -Real.sin a, 0, Real.cos a]
noncomputable def aboutZ (a : ℝ) : Matrix (Fin 3) (Fin 3) ℝ :=
  !![Real.cos a, -Real.sin a, 0; Real.sin a, Real.cos a, 0; 0, 0, 1]

/-- pitch, yaw and roll together: the roll is applied first -/
noncomputable def turned (pitch yaw roll : ℝ) : Matrix (Fin 3) (Fin 3) ℝ := aboutX pitch * aboutY yaw * aboutZ roll

/-- the axis of a body turned by pitch, yaw and roll is at right angles to the design trajectory, where it enters or where it leaves -/
def Crosswise (θ pitch yaw roll : ℝ) : Prop :=
  let before : Fin 3 → ℝ := ![0, 0, 1]
  let behind : Fin 3 → ℝ := aboutY (-θ) *ᵥ ![0, 0, 1]
  before ⬝ᵥ turned pitch yaw roll *ᵥ before = 0 ∨ behind ⬝ᵥ turned pitch yaw roll *ᵥ behind = 0

/-- A place in space with its own axes (the columns of `axes`): the third axis is the direction of the design beam. -/
structure Place where
  origin : Fin 3 → ℝ
  axes : Matrix (Fin 3) (Fin 3) ℝ

/-- coordinates of a point as seen from a place -/
def Place.coords (F : Place) (P : Fin 3 → ℝ) : Fin 3 → ℝ := F.axesᵀ *ᵥ (P - F.origin)

/-- `F` moved as part of a rigid body which is turned by `R` about the origin and then displaced by `d` -/
def Place.moved (F : Place) (R : Matrix (Fin 3) (Fin 3) ℝ) (d : Fin 3 → ℝ) : Place := ⟨R *ᵥ F.origin + d, R * F.axes⟩

/-- where the design trajectory enters an element -/
def entrance : Place := ⟨0, 1⟩

/-- where the design trajectory, an arc of length `L` and angle `θ`, leaves the element -/
noncomputable def exitPlace (L θ : ℝ) : Place :=
  ⟨if θ = 0 then ![0, 0, L] else ![L / θ * (Real.cos θ - 1), 0, L / θ * Real.sin θ], aboutY (-θ)⟩

/-- A particle which moves parallel to the axis of the place `F`, with the nominal momentum and phase space coordinates `v`
there, arrives in the transverse plane of the place `G`, where it has the coordinates `w`. -/
def Arrives (F G : Place) (v w : Fin 6 → ℝ) : Prop :=
  v 1 = 0 ∧ v 3 = 0 ∧ v 4 = 0 ∧ ∃ (t : ℝ) (P direction : Fin 3 → ℝ),
    F.coords P = ![v 0, v 2, 0] ∧ direction = F.axes *ᵥ ![0, 0, 1] ∧
    G.coords (P + t • direction) = ![w 0, w 2, 0] ∧
    w 1 = (G.axesᵀ *ᵥ direction) 0 ∧ w 3 = (G.axesᵀ *ᵥ direction) 1 ∧ w 4 = v 4 ∧ w 5 = v 5 + t

/-- the symplectic form of the coordinates x, px, y, py, delta, ct -/
def J6 : Matrix (Fin 6) (Fin 6) ℝ :=
  !![0, 1, 0, 0, 0, 0; -1, 0, 0, 0, 0, 0; 0, 0, 0, 1, 0, 0; 0, 0, -1, 0, 0, 0; 0, 0, 0, 0, 0, 1; 0, 0, 0, 0, -1, 0]

/-- linear maps of phase space without damping or growth -/
def Symplectic6 (M : Matrix (Fin 6) (Fin 6) ℝ) : Prop := Mᵀ * J6 * M = J6

end PySC.Spec
