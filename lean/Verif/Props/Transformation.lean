import Verif.Lemmas.Transformation
import Verif.Props.Perfect
import Mathlib.Analysis.SpecialFunctions.Trigonometric.Bounds
import Mathlib.Algebra.Order.Archimedean.Real.Basic
/-
C30 (alignment transformations), C66 (direction of magnets on tilted supports), and C23 with the actual transformations.
-/
namespace PySC
open Py Spec Matrix
set_option linter.unusedSectionVars false

/-! ### C30 -/

/-- **C30**: `rotation` is the rotation by pitch, yaw and roll about the axes x, y, z of the design frame, the roll being
applied first; it is orthogonal and keeps orientation. -/
theorem C30_rotation (rolls : Fin 3 → ℝ) : rotation rolls = aboutX (rolls 0) * aboutY (rolls 1) * aboutZ (rolls 2) ∧
    (rotation rolls)ᵀ * rotation rolls = 1 ∧ (rotation rolls).det = 1 :=
  ⟨rotation_eq_turned rolls, (proper_rotation rolls).orth, (proper_rotation rolls).det⟩

/-- **C30**: what is stored for the entrance describes the rigid motion of the element: a particle which moves parallel to
the design axis gets exactly the coordinates at which its straight path meets the entrance plane of the displaced element, as
seen from there. -/
theorem C30_entrance (L θ : ℝ) (offsets angles : Fin 3 → ℝ) (t : Transformation)
    (h : transformation L θ offsets angles = .ok t) (v : Fin 6 → ℝ) (hx : v 1 = 0) (hy : v 3 = 0) (hd : v 4 = 0) :
    Arrives entrance (entrance.moved (turned (angles 0) (angles 1) (angles 2)) offsets) v (t.R1 *ᵥ (v + t.T1)) :=
  arrives_entrance h hx hy hd

/-- **C30**: the same for the exit: a particle which leaves the displaced element parallel to its axis gets exactly the
coordinates at which its path meets the design exit plane. -/
theorem C30_exit (L θ : ℝ) (offsets angles : Fin 3 → ℝ) (t : Transformation)
    (h : transformation L θ offsets angles = .ok t) (v : Fin 6 → ℝ) (hx : v 1 = 0) (hy : v 3 = 0) (hd : v 4 = 0) :
    Arrives ((exitPlace L θ).moved (turned (angles 0) (angles 1) (angles 2)) offsets) (exitPlace L θ) v (t.R2 *ᵥ v + t.T2) :=
  arrives_exit h hx hy hd

/-- **C30**: the momenta of every particle are the components of its momentum along the axes of the displaced element. -/
theorem C30_momenta (L θ : ℝ) (offsets angles : Fin 3 → ℝ) (t : Transformation)
    (h : transformation L θ offsets angles = .ok t) (v : Fin 6 → ℝ) :
    let p : Fin 3 → ℝ := ![v 1, v 3, 1 + v 4]
    let w := t.R1 *ᵥ (v + t.T1)
    let u := t.R2 *ᵥ v + t.T2
    let R := turned (angles 0) (angles 1) (angles 2)
    w 1 = (Rᵀ *ᵥ p) 0 ∧ w 3 = (Rᵀ *ᵥ p) 1 ∧ w 4 = v 4 ∧
    u 1 = ((aboutY (-θ))ᵀ *ᵥ (R *ᵥ (aboutY (-θ) *ᵥ p))) 0 ∧ u 3 = ((aboutY (-θ))ᵀ *ᵥ (R *ᵥ (aboutY (-θ) *ᵥ p))) 1 ∧ u 4 = v 4 := by
  obtain ⟨-, -, e1, e2, e3, e4⟩ := transformation_eq_ok h
  have hB : rotation ![0, -θ, 0] = aboutY (-θ) := rotation_exit θ
  intro p w u R
  have hR : rotation angles = R := rotation_eq_turned angles
  have hw : w = t.R1 *ᵥ v + t.R1 *ᵥ t.T1 := Matrix.mulVec_add _ _ _
  have hu : u = t.R2 *ᵥ v + t.T2 := rfl
  rw [e2, e1] at hw
  rw [e3, e4] at hu
  rw [hR] at hw
  rw [hB, hR] at hu
  have key : ∀ (ld : ℝ) (r : Matrix (Fin 3) (Fin 3) ℝ) (xa ya o : Fin 3 → ℝ),
      let w := rMatrix ld r *ᵥ v + translationVector ld r xa ya o
      w 1 = (rᵀ *ᵥ p) 0 ∧ w 3 = (rᵀ *ᵥ p) 1 ∧ w 4 = v 4 := by
    intro ld r xa ya o w
    refine ⟨?_, ?_, ?_⟩
    all_goals
      simp [w, p, rMatrix, translationVector, Matrix.mulVec, dotProduct, Fin.sum_univ_six, Fin.sum_univ_three] <;> ring
  have htr : ((aboutY (-θ))ᵀ * (Rᵀ * aboutY (-θ)))ᵀ = (aboutY (-θ))ᵀ * (R * aboutY (-θ)) := by
    simp [Matrix.transpose_mul, Matrix.mul_assoc]
  obtain ⟨g1, g2, g3⟩ := key ((R *ᵥ ![0, 0, 1]) ⬝ᵥ offsets) R (R *ᵥ ![1, 0, 0]) (R *ᵥ ![0, 1, 0]) offsets
  obtain ⟨k1, k2, k3⟩ := key ((aboutY (-θ) *ᵥ ![0, 0, 1]) ⬝ᵥ (designExit L θ - R *ᵥ designExit L θ - offsets))
    ((aboutY (-θ))ᵀ * (Rᵀ * aboutY (-θ))) (aboutY (-θ) *ᵥ ![1, 0, 0]) (aboutY (-θ) *ᵥ ![0, 1, 0])
    (designExit L θ - R *ᵥ designExit L θ - offsets)
  rw [htr] at k1 k2
  rw [hw, hu]
  refine ⟨g1, g2, g3, ?_, ?_, k3⟩
  · rw [k1, ← Matrix.mulVec_mulVec, ← Matrix.mulVec_mulVec]
  · rw [k2, ← Matrix.mulVec_mulVec, ← Matrix.mulVec_mulVec]

/-- **C30**: both matrices are symplectic, whatever the misalignment: it neither damps nor excites the beam. -/
theorem C30_symplectic (L θ : ℝ) (offsets angles : Fin 3 → ℝ) (t : Transformation)
    (h : transformation L θ offsets angles = .ok t) : Symplectic6 t.R1 ∧ Symplectic6 t.R2 := by
  obtain ⟨h1, h2, e1, -, e3, -⟩ := transformation_eq_ok h
  rw [e1, e3]
  have hB := proper_rotation ![0, -θ, 0]
  have hX := proper_rotation angles
  exact ⟨symplectic_rMatrix _ hX h1, symplectic_rMatrix _ (hB.transpose.mul (hX.transpose.mul hB)) h2⟩

/-- the beam axis of a straight element -/
theorem exit_straight (a : Fin 3 → ℝ) :
    (rotation ![0, -0, 0])ᵀ * ((rotation a)ᵀ * rotation ![0, -0, 0]) = (rotation a)ᵀ := by
  have : rotation ![0, -0, 0] = 1 := by
    unfold rotation
    ext i j
    fin_cases i <;> fin_cases j <;> simp
  rw [this]; simp

/-- **C30**: for straight elements the call succeeds unless the element is turned by a right angle out of the beam. -/
theorem C30_straight_succeeds (L : ℝ) (offsets angles : Fin 3 → ℝ) :
    (∃ t, transformation L 0 offsets angles = .ok t) ↔ Real.cos (angles 0) ≠ 0 ∧ Real.cos (angles 1) ≠ 0 := by
  have h22 : rotation angles 2 2 = Real.cos (angles 0) * Real.cos (angles 1) := by simp [rotation]
  rw [← mul_ne_zero_iff, ← h22]
  constructor
  · rintro ⟨t, h⟩; exact (transformation_eq_ok h).1
  · intro h
    exact transformation_ok L offsets h (by rw [exit_straight]; exact h)

theorem rMatrix_one : rMatrix 0 1 = 1 := by
  unfold rMatrix
  ext i j
  fin_cases i <;> fin_cases j <;> simp

theorem rotation_zero : rotation 0 = 1 := by
  unfold rotation
  ext i j
  fin_cases i <;> fin_cases j <;> simp

/-- **C30**: without offsets and rolls there is no transformation, for all lengths and bending angles. -/
theorem C30_no_misalignment (L θ : ℝ) : transformation L θ 0 0 = .ok ⟨0, 0, 1, 1⟩ := by
  have hB : (rotation ![0, -θ, 0])ᵀ * rotation ![0, -θ, 0] = 1 := (proper_rotation _).orth
  have h1 : rotation (0 : Fin 3 → ℝ) 2 2 ≠ 0 := by rw [rotation_zero]; simp
  have h2 : ((rotation ![0, -θ, 0])ᵀ * ((rotation (0 : Fin 3 → ℝ))ᵀ * rotation ![0, -θ, 0])) = 1 := by
    rw [rotation_zero]; simpa using hB
  obtain ⟨t, ht⟩ := transformation_ok L 0 h1 (θ := θ) (by rw [h2]; simp)
  rw [ht]
  obtain ⟨-, -, e1, e2, e3, e4⟩ := transformation_eq_ok ht
  rw [h2] at e3 e4
  rw [rotation_zero] at e1 e2 e3 e4
  have hz : designExit L θ - (1 : Matrix (Fin 3) (Fin 3) ℝ) *ᵥ designExit L θ - 0 = 0 := by simp
  rw [hz] at e3 e4
  simp only [dotProduct_zero] at e1 e2 e3 e4
  have hT : ∀ xa ya : Fin 3 → ℝ, translationVector 0 1 xa ya 0 = 0 := by
    intro xa ya
    unfold translationVector
    ext i
    fin_cases i <;> simp
  rw [rMatrix_one] at e1 e3
  rw [hT] at e2 e4
  rw [e1, Matrix.one_mulVec] at e2
  cases t; simp_all

/-- **C30**: a straight element displaced sideways shifts the beam by the opposite amount at the entrance and back at the exit. -/
theorem C30_straight_offset (L x y : ℝ) :
    transformation L 0 ![x, y, 0] 0 = .ok ⟨![-x, 0, -y, 0, 0, 0], ![x, 0, y, 0, 0, 0], 1, 1⟩ := by
  obtain ⟨t, ht⟩ := (C30_straight_succeeds L ![x, y, 0] 0).2 (by simp)
  rw [ht]
  obtain ⟨-, -, e1, e2, e3, e4⟩ := transformation_eq_ok ht
  rw [exit_straight] at e3 e4
  have hR0 : rotation ![0, -0, 0] = 1 := by
    rw [show (![0, -0, 0] : Fin 3 → ℝ) = 0 by ext i; fin_cases i <;> simp, rotation_zero]
  rw [rotation_zero] at e1 e2 e3 e4
  rw [hR0] at e3 e4
  have hz : designExit L 0 - (1 : Matrix (Fin 3) (Fin 3) ℝ) *ᵥ designExit L 0 - ![x, y, 0] = ![-x, -y, 0] := by
    ext i; fin_cases i <;> simp
  rw [hz] at e3 e4
  have hld : ((1 : Matrix (Fin 3) (Fin 3) ℝ) *ᵥ ![0, 0, 1]) ⬝ᵥ ![x, y, 0] = 0 := by simp [dotProduct, Fin.sum_univ_three]
  have hld' : ((1 : Matrix (Fin 3) (Fin 3) ℝ) *ᵥ ![0, 0, 1]) ⬝ᵥ ![-x, -y, 0] = 0 := by simp [dotProduct, Fin.sum_univ_three]
  rw [hld] at e1 e2
  rw [hld'] at e3 e4
  simp only [Matrix.transpose_one, rMatrix_one] at e1 e3 e4
  rw [e1, Matrix.one_mulVec] at e2
  have hT1 : t.T1 = ![-x, 0, -y, 0, 0, 0] := by
    rw [e2]; unfold translationVector
    ext i; fin_cases i <;> simp [dotProduct, Fin.sum_univ_three]
  have hT2 : t.T2 = ![x, 0, y, 0, 0, 0] := by
    rw [e4]; unfold translationVector
    ext i; fin_cases i <;> simp [dotProduct, Fin.sum_univ_three]
  cases t; simp_all

/-- **C30**: for a straight element with any offsets which is only rolled about the beam, the exit undoes what the entrance
did: for an element which does nothing the misalignment has no effect on any particle. -/
theorem C30_rolled_element_undone (L roll : ℝ) (offsets : Fin 3 → ℝ) (t : Transformation)
    (h : transformation L 0 offsets ![0, 0, roll] = .ok t) (v : Fin 6 → ℝ) : t.R2 *ᵥ (t.R1 *ᵥ (v + t.T1)) + t.T2 = v := by
  obtain ⟨-, -, e1, e2, e3, e4⟩ := transformation_eq_ok h
  rw [Matrix.mulVec_add, e2]
  rw [exit_straight] at e3 e4
  have hR0 : rotation ![0, -0, 0] = 1 := by
    rw [show (![0, -0, 0] : Fin 3 → ℝ) = 0 by ext i; fin_cases i <;> simp, rotation_zero]
  rw [hR0] at e3 e4
  have hz : designExit L 0 - rotation ![0, 0, roll] *ᵥ designExit L 0 - offsets = -offsets := by
    have : rotation ![0, 0, roll] *ᵥ designExit L 0 = designExit L 0 := by
      ext i
      rw [Matrix.mulVec, dotProduct, Fin.sum_univ_three]
      fin_cases i <;> simp [designExit, rotation]
    rw [this]; simp
  rw [hz] at e3 e4
  rw [e1, e3, e4]
  have hs := Real.sin_sq_add_cos_sq roll
  ext i
  fin_cases i <;>
    simp [rMatrix, translationVector, rotation, Matrix.mulVec, dotProduct, Fin.sum_univ_six, Fin.sum_univ_three]
  · linear_combination (v 0 - offsets 0) * hs
  · linear_combination (v 1) * hs
  · linear_combination (v 2 - offsets 1) * hs
  · linear_combination (v 3) * hs

-- a quadrupole and a dipole with offsets and angles for which the call succeeds
example : (∃ t, transformation 1 0 ![1, 2, 3] ![1, 1/2, 7] = .ok t) ∧
    ∃ t, transformation 2 (Real.pi / 2) ![1, 2, 3] ![0, Real.pi, 0] = .ok t := by
  constructor
  · rw [C30_straight_succeeds]
    exact ⟨(Real.cos_pos_of_le_one (by norm_num)).ne', (Real.cos_pos_of_le_one (by norm_num [abs_of_pos])).ne'⟩
  · apply transformation_ok
    · simp [rotation]
    · simp [rotation, Matrix.mul_apply, Fin.sum_univ_three]

/-! ### C66 -/

theorem transformLists_eq_ok {L θ : ℝ} {o a : Fin 3 → ℝ} {t : List ℝ × List ℝ × List (List ℝ) × List (List ℝ)}
    (h : transformLists L θ [o 0, o 1, o 2] [a 0, a 1, a 2] = .ok t) :
    ∃ t', transformation L θ o a = .ok t' ∧ t = (List.ofFn t'.T1, List.ofFn t'.T2, matRows t'.R1, matRows t'.R2) := by
  change (transformation L θ ![o 0, o 1, o 2] ![a 0, a 1, a 2] >>= fun t => _) = _ at h
  rw [vec3_eta, vec3_eta] at h
  cases ht : transformation L θ o a with
  | error e => rw [ht] at h; cases h
  | ok t' => rw [ht] at h; cases h; exact ⟨t', rfl, rfl⟩

/-- the direction of the design beam in a magnet turned by pitch, yaw and roll -/
theorem turned_axis (pitch yaw roll : ℝ) :
    turned pitch yaw roll *ᵥ ![0, 0, 1] = ![Real.sin yaw, -(Real.sin pitch * Real.cos yaw), Real.cos pitch * Real.cos yaw] := by
  unfold turned aboutX aboutY aboutZ
  ext i
  rw [Matrix.mulVec, dotProduct, Fin.sum_univ_three]
  fin_cases i <;> simp [Matrix.mul_apply, Fin.sum_univ_three]

/-- **C66**: after `apply_errors` a magnet on supports which has no angles of its own carries the transformation of a body
turned by `slopeAt 1` about x and by `slopeAt 0` about y, the slopes of its support.  For the horizontal plane this
makes its axis follow the support; for the vertical plane it does not, see `C66_violated_pitch`. -/
theorem C66_direction_partial (E : Env ℝ) (hE : E.transform = transformLists) (nsigmas : ℝ) (s s' : SC ℝ) (ht : Tidy s.ORD)
    (hw : WellRegistered s.SIG) (hf : Forward s'.RING) (hL : Layouts s'.RING s.ORD) (hn : NoWrap s.ORD)
    (h : applyErrors E nsigmas s = .ok () s') (i : Nat) (hi : i ∈ s.ORD.Magnet) (hb : i ∉ s.ORD.BPM)
    (hno : ∀ i' ∈ s.ORD.Magnet, i' ≠ i → ¬ ChildOf s'.RING i' i) (j : Nat) (hj : FirstThere s'.RING i j)
    (hm : s'.RING.attr i "MagnetRoll" = some (.vec [0, 0, 0])) :
    ∃ offsets t, transformation (numAt s'.RING i "Length") (numAt s'.RING i "BendingAngle") offsets
        ![slopeAt s'.RING s.ORD 1 j, slopeAt s'.RING s.ORD 0 j, rollAt s'.RING s.ORD j] = .ok t ∧
      s'.RING.attr i "T1" = some (.vec (List.ofFn t.T1)) ∧ s'.RING.attr i "R1" = some (.mat (matRows t.R1)) ∧
      s'.RING.attr i "T2" = some (.vec (List.ofFn t.T2)) ∧ s'.RING.attr i "R2" = some (.mat (matRows t.R2)) ∧
      (turned (slopeAt s'.RING s.ORD 1 j) (slopeAt s'.RING s.ORD 0 j) (rollAt s'.RING s.ORD j) *ᵥ ![0, 0, 1]) 0 =
        Real.sin (slopeAt s'.RING s.ORD 0 j) := by
  have h64 := (C64_rolls_and_slopes_partial E nsigmas s s' ht hw hf hL hn h).1 i hi hb j hj
  obtain ⟨ox, oy, oz, mx, my, mz, roll, pitch, yaw, mroll, mpitch, myaw, t, -, -, g3, g4, g5, g6, g7, g8, g9⟩ :=
    (C65_children_placed_like_master E nsigmas s s' ht hw hf hL h i hi hb hno).1
  rw [h64] at g3
  rw [hm] at g4
  cases g3; cases g4
  rw [hE] at g5
  simp only [zero_add] at g5
  obtain ⟨t', e1, rfl⟩ := transformLists_eq_ok (o := ![ox + mx, oy + my, oz + mz])
    (a := ![slopeAt s'.RING s.ORD 1 j, slopeAt s'.RING s.ORD 0 j, rollAt s'.RING s.ORD j]) g5
  exact ⟨_, t', e1, g6, g8, g7, g9, by rw [turned_axis]; rfl⟩

/-- **C66 is violated**: a magnet on a support which rises (as seen along the beam) points downwards: the pitch which is
stored for the slope is a turn about the x-axis, which has the opposite sign. -/
theorem C66_violated_pitch (slopeY slopeX roll : ℝ) (hy : 0 < slopeY) (hy' : slopeY < Real.pi) (hx : |slopeX| < Real.pi / 2) :
    (turned slopeY slopeX roll *ᵥ ![0, 0, 1]) 1 < 0 := by
  rw [turned_axis]
  have h1 := Real.sin_pos_of_pos_of_lt_pi hy hy'
  have h2 := Real.cos_pos_of_mem_Ioo ⟨(abs_lt.1 hx).1, (abs_lt.1 hx).2⟩
  simp only [Matrix.cons_val_one, Matrix.cons_val_zero]
  exact neg_neg_of_pos (mul_pos h1 h2)

/-! ### C23 with the actual transformations -/

/-- **C23**: with the transformations of `update_transformation` a magnet of a perfect machine has zero translations and
identity matrices. -/
theorem C23_no_transformations (E : Env ℝ) (hE : E.transform = transformLists) (nsigmas : ℝ) (s s' : SC ℝ)
    (hw : WellRegistered s.SIG) (ht : Tidy s.ORD) (h6 : s.SIG.staticInjectionZ.length = 6) (hn : NoUncertainties s.SIG)
    (he : ErrorFree s) (h : applyErrors E nsigmas s = .ok () s') (i : Nat) (hi : i ∈ s.ORD.Magnet) (hb : i ∉ s.ORD.BPM)
    (hc : ∀ j ∈ s.ORD.Magnet, j ≠ i → ¬ ChildOf s.RING j i) :
    s'.RING.attr i "T1" = some (.vec [0, 0, 0, 0, 0, 0]) ∧ s'.RING.attr i "T2" = some (.vec [0, 0, 0, 0, 0, 0]) ∧
    ∀ a ∈ ["R1", "R2"], s'.RING.attr i a = some (.mat
      [[1, 0, 0, 0, 0, 0], [0, 1, 0, 0, 0, 0], [0, 0, 1, 0, 0, 0], [0, 0, 0, 1, 0, 0], [0, 0, 0, 0, 1, 0], [0, 0, 0, 0, 0, 1]]) := by
  obtain ⟨t, h1, g1, g2, g3, g4⟩ := (C23_perfect_machine E nsigmas s s' hw ht h6 hn he h).placed i hi hb hc
  rw [hE] at h1
  have hv : (![0, 0, 0] : Fin 3 → ℝ) = 0 := by ext i; fin_cases i <;> simp
  have : transformLists (numAt s'.RING i "Length") (numAt s'.RING i "BendingAngle") [0, 0, 0] [0, 0, 0] =
      .ok (List.ofFn (0 : Fin 6 → ℝ), List.ofFn (0 : Fin 6 → ℝ), matRows 1, matRows 1) := by
    change (transformation _ _ ![0, 0, 0] ![0, 0, 0] >>= fun t => _) = _
    rw [hv, C30_no_misalignment]
    rfl
  rw [this] at h1
  cases h1
  have hm : matRows 1 = [[1, 0, 0, 0, 0, 0], [0, 1, 0, 0, 0, 0], [0, 0, 1, 0, 0, 0], [0, 0, 0, 1, 0, 0], [0, 0, 0, 0, 1, 0], [0, 0, 0, 0, 0, 1]] := by
    simp [matRows, List.ofFn_succ, Matrix.one_apply]
  have hz : List.ofFn (0 : Fin 6 → ℝ) = [0, 0, 0, 0, 0, 0] := by simp [List.ofFn_succ]
  refine ⟨by rw [g1, hz], by rw [g2, hz], fun a ha => ?_⟩
  have : a = "R1" ∨ a = "R2" := by simpa using ha
  rcases this with rfl | rfl
  · rw [g3, hm]
  · rw [g4, hm]

end PySC
