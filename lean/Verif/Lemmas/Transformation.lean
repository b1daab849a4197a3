import Verif.Model.Transformation
import Verif.Spec.Transformation
import Mathlib.Tactic.FieldSimp
import Mathlib.Tactic.LinearCombination
import Mathlib.Tactic.FinCases
/-
Geometry of the transformations computed by `update_transformation`.
-/
namespace PySC
open Matrix Spec

theorem rotation_eq_turned (rolls : Fin 3 → ℝ) : rotation rolls = turned (rolls 0) (rolls 1) (rolls 2) := by
  unfold rotation turned aboutX aboutY aboutZ
  ext i j
  fin_cases i <;> fin_cases j <;> simp [Matrix.mul_apply, Fin.sum_univ_three] <;> ring

/-- proper rotations -/
structure Proper (r : Matrix (Fin 3) (Fin 3) ℝ) : Prop where
  orth : rᵀ * r = 1
  det : r.det = 1

theorem Proper.orth' {r : Matrix (Fin 3) (Fin 3) ℝ} (h : Proper r) : r * rᵀ = 1 := mul_eq_one_comm.1 h.orth

theorem Proper.mul {r q : Matrix (Fin 3) (Fin 3) ℝ} (h : Proper r) (g : Proper q) : Proper (r * q) where
  orth := by
    rw [Matrix.transpose_mul, Matrix.mul_assoc, ← Matrix.mul_assoc rᵀ, h.orth, Matrix.one_mul, g.orth]
  det := by rw [Matrix.det_mul, h.det, g.det, one_mul]

theorem Proper.transpose {r : Matrix (Fin 3) (Fin 3) ℝ} (h : Proper r) : Proper rᵀ where
  orth := by rw [Matrix.transpose_transpose]; exact h.orth'
  det := by rw [Matrix.det_transpose, h.det]

theorem proper_aboutX (a : ℝ) : Proper (aboutX a) where
  orth := by
    unfold aboutX
    ext i j
    fin_cases i <;> fin_cases j <;> simp [Matrix.mul_apply, Fin.sum_univ_three] <;> nlinarith [Real.sin_sq_add_cos_sq a]
  det := by
    unfold aboutX
    rw [Matrix.det_fin_three]; simp; nlinarith [Real.sin_sq_add_cos_sq a]

theorem proper_aboutY (a : ℝ) : Proper (aboutY a) where
  orth := by
    unfold aboutY
    ext i j
    fin_cases i <;> fin_cases j <;> simp [Matrix.mul_apply, Fin.sum_univ_three] <;> nlinarith [Real.sin_sq_add_cos_sq a]
  det := by
    unfold aboutY
    rw [Matrix.det_fin_three]; simp; nlinarith [Real.sin_sq_add_cos_sq a]

theorem proper_aboutZ (a : ℝ) : Proper (aboutZ a) where
  orth := by
    unfold aboutZ
    ext i j
    fin_cases i <;> fin_cases j <;> simp [Matrix.mul_apply, Fin.sum_univ_three] <;> nlinarith [Real.sin_sq_add_cos_sq a]
  det := by
    unfold aboutZ
    rw [Matrix.det_fin_three]; simp; nlinarith [Real.sin_sq_add_cos_sq a]

theorem proper_turned (p y r : ℝ) : Proper (turned p y r) := ((proper_aboutX p).mul (proper_aboutY y)).mul (proper_aboutZ r)

theorem proper_rotation (rolls : Fin 3 → ℝ) : Proper (rotation rolls) := by
  rw [rotation_eq_turned]; exact proper_turned _ _ _

/-- cofactors of a rotation -/
theorem Proper.adj {r : Matrix (Fin 3) (Fin 3) ℝ} (h : Proper r) : r.adjugate = rᵀ := by
  have h1 : r * r.adjugate = 1 := by rw [Matrix.mul_adjugate, h.det, one_smul]
  calc r.adjugate = (rᵀ * r) * r.adjugate := by rw [h.orth, Matrix.one_mul]
    _ = rᵀ := by rw [Matrix.mul_assoc, h1, Matrix.mul_one]

theorem Proper.cof {r : Matrix (Fin 3) (Fin 3) ℝ} (h : Proper r) :
    r 0 0 * r 1 1 - r 0 1 * r 1 0 = r 2 2 ∧ r 0 0 * r 2 2 - r 0 2 * r 2 0 = r 1 1 ∧ r 1 1 * r 2 2 - r 1 2 * r 2 1 = r 0 0 ∧
    r 1 0 * r 2 2 - r 1 2 * r 2 0 = -r 0 1 ∧ r 0 1 * r 2 2 - r 0 2 * r 2 1 = -r 1 0 ∧
    r 1 0 * r 2 1 - r 1 1 * r 2 0 = r 0 2 ∧ r 0 0 * r 2 1 - r 0 1 * r 2 0 = -r 1 2 := by
  have e := h.adj
  rw [Matrix.adjugate_fin_three] at e
  have f : ∀ i j, _ = rᵀ i j := fun i j => congrFun (congrFun e i) j
  have a22 := f 2 2
  have a11 := f 1 1
  have a00 := f 0 0
  have a01 := f 1 0
  have a10 := f 0 1
  have a02 := f 2 0
  have a12 := f 2 1
  simp [Matrix.transpose_apply] at a22 a11 a00 a01 a10 a02 a12
  refine ⟨?_, ?_, ?_, ?_, ?_, ?_, ?_⟩ <;> linarith

theorem symplectic_rMatrix (ld : ℝ) {r : Matrix (Fin 3) (Fin 3) ℝ} (h : Proper r) (hz : r 2 2 ≠ 0) : Symplectic6 (rMatrix ld r) := by
  obtain ⟨c1, c2, c3, c4, c5, c6, c7⟩ := h.cof
  unfold Symplectic6 rMatrix J6
  ext i j
  fin_cases i <;> fin_cases j <;> simp [Matrix.mul_apply, Fin.sum_univ_six] <;> field_simp <;>
    first
    | ring1
    | linear_combination c1
    | linear_combination -c1
    | linear_combination -c6
    | linear_combination c6
    | linear_combination c7
    | linear_combination -c7
    | linear_combination (-ld) * c6
    | linear_combination ld * c6
    | linear_combination ld * c7
    | linear_combination (-ld) * c7

theorem det_rMatrix (ld : ℝ) {r : Matrix (Fin 3) (Fin 3) ℝ} (h : Proper r) (hz : r 2 2 ≠ 0) : (rMatrix ld r).det ≠ 0 := by
  intro h0
  have := congrArg Matrix.det (symplectic_rMatrix ld h hz)
  rw [Matrix.det_mul, h0, mul_zero] at this
  have hJ : J6 * J6 = -1 := by
    unfold J6
    ext i j
    fin_cases i <;> fin_cases j <;> simp [Matrix.mul_apply, Fin.sum_univ_six]
  have h2 := congrArg Matrix.det hJ
  rw [Matrix.det_mul, ← this, Matrix.det_neg, Matrix.det_one] at h2
  norm_num at h2

/-- what rotation matrix and translation do with a particle parallel to the axis -/
theorem transform_parallel {ld : ℝ} {r : Matrix (Fin 3) (Fin 3) ℝ} (h : Proper r) (hz : r 2 2 ≠ 0) (xa ya o : Fin 3 → ℝ)
    {v : Fin 6 → ℝ} (h1 : v 1 = 0) (h3 : v 3 = 0) (h4 : v 4 = 0) :
    let w := rMatrix ld r *ᵥ v + translationVector ld r xa ya o
    ∃ t, ![w 0, w 2, 0] = rᵀ *ᵥ ![v 0, v 2, t] - ![o ⬝ᵥ xa, o ⬝ᵥ ya, ld] ∧ w 1 = (rᵀ *ᵥ ![0, 0, 1]) 0 ∧ w 3 = (rᵀ *ᵥ ![0, 0, 1]) 1 ∧
      w 4 = v 4 ∧ w 5 = v 5 + t := by
  obtain ⟨c1, c2, c3, c4, c5, c6, c7⟩ := h.cof
  intro w
  refine ⟨(ld - r 0 2 * v 0 - r 1 2 * v 2) / r 2 2, ?_, ?_, ?_, ?_, ?_⟩
  · ext i
    fin_cases i
    · simp [w, rMatrix, translationVector, Matrix.mulVec, dotProduct, Fin.sum_univ_six, Fin.sum_univ_three, h1, h3, h4]
      field_simp
      linear_combination (-v 0) * c2 - v 2 * c4
    · simp [w, rMatrix, translationVector, Matrix.mulVec, dotProduct, Fin.sum_univ_six, Fin.sum_univ_three, h1, h3, h4]
      field_simp
      linear_combination (-v 0) * c5 - v 2 * c3
    · simp [Matrix.mulVec, dotProduct, Fin.sum_univ_three]
      field_simp
      ring
  · simp [w, rMatrix, translationVector, Matrix.mulVec, dotProduct, Fin.sum_univ_six, Fin.sum_univ_three, h1, h3, h4]
  · simp [w, rMatrix, translationVector, Matrix.mulVec, dotProduct, Fin.sum_univ_six, Fin.sum_univ_three, h1, h3, h4]
  · simp [w, rMatrix, translationVector, dotProduct, Fin.sum_univ_six, Fin.sum_univ_three, h1, h3, h4]
  · simp [w, rMatrix, translationVector, dotProduct, Fin.sum_univ_six, Fin.sum_univ_three, h1, h3, h4]
    field_simp
    ring

theorem transformation_eq_ok {L θ : ℝ} {o a : Fin 3 → ℝ} {t : Transformation} (h : transformation L θ o a = .ok t) :
    rotation a 2 2 ≠ 0 ∧ ((rotation ![0, -θ, 0])ᵀ * ((rotation a)ᵀ * rotation ![0, -θ, 0])) 2 2 ≠ 0 ∧
    t.R1 = rMatrix ((rotation a *ᵥ ![0, 0, 1]) ⬝ᵥ o) (rotation a) ∧
    t.R1 *ᵥ t.T1 = translationVector ((rotation a *ᵥ ![0, 0, 1]) ⬝ᵥ o) (rotation a) (rotation a *ᵥ ![1, 0, 0]) (rotation a *ᵥ ![0, 1, 0]) o ∧
    t.R2 = rMatrix ((rotation ![0, -θ, 0] *ᵥ ![0, 0, 1]) ⬝ᵥ (designExit L θ - rotation a *ᵥ designExit L θ - o))
      ((rotation ![0, -θ, 0])ᵀ * ((rotation a)ᵀ * rotation ![0, -θ, 0])) ∧
    t.T2 = translationVector ((rotation ![0, -θ, 0] *ᵥ ![0, 0, 1]) ⬝ᵥ (designExit L θ - rotation a *ᵥ designExit L θ - o))
      ((rotation ![0, -θ, 0])ᵀ * ((rotation a)ᵀ * rotation ![0, -θ, 0])) (rotation ![0, -θ, 0] *ᵥ ![1, 0, 0])
      (rotation ![0, -θ, 0] *ᵥ ![0, 1, 0]) (designExit L θ - rotation a *ᵥ designExit L θ - o) := by
  unfold transformation at h
  simp only at h
  split at h
  · cases h
  · rename_i h1
    split at h
    · cases h
    · rename_i h2
      split at h
      · cases h
      · rename_i h3
        cases h
        refine ⟨h1, h3, rfl, ?_, rfl, rfl⟩
        rw [Matrix.mulVec_mulVec, Matrix.mul_nonsing_inv _ (Ne.isUnit h2), Matrix.one_mulVec]

/-- the call succeeds whenever the two rotations keep the beam direction off the transverse plane -/
theorem transformation_ok (L : ℝ) {θ : ℝ} (o : Fin 3 → ℝ) {a : Fin 3 → ℝ} (h1 : rotation a 2 2 ≠ 0)
    (h2 : ((rotation ![0, -θ, 0])ᵀ * ((rotation a)ᵀ * rotation ![0, -θ, 0])) 2 2 ≠ 0) : ∃ t, transformation L θ o a = .ok t := by
  unfold transformation
  simp only [h1, h2, if_false, det_rMatrix _ (proper_rotation a) h1]
  exact ⟨_, rfl⟩

theorem designExit_eq (L θ : ℝ) : designExit L θ = (exitPlace L θ).origin := by
  unfold designExit exitPlace
  by_cases h : θ = 0
  · simp [h]
  · simp only [h, ne_eq, not_false_eq_true, if_true, if_false]
    ext i
    fin_cases i <;> simp <;> field_simp

theorem rotation_exit (θ : ℝ) : rotation ![0, -θ, 0] = (exitPlace 0 θ).axes := by
  rw [rotation_eq_turned]
  unfold turned exitPlace aboutX aboutY aboutZ
  ext i j
  fin_cases i <;> fin_cases j <;> simp [Matrix.mul_apply, Fin.sum_univ_three]

theorem vec3_eta (a : Fin 3 → ℝ) : ![a 0, a 1, a 2] = a := by
  ext i; fin_cases i <;> rfl

theorem arrives_entrance {L θ : ℝ} {o a : Fin 3 → ℝ} {t : Transformation} (h : transformation L θ o a = .ok t) {v : Fin 6 → ℝ}
    (h1 : v 1 = 0) (h3 : v 3 = 0) (h4 : v 4 = 0) :
    Arrives entrance (entrance.moved (turned (a 0) (a 1) (a 2)) o) v (t.R1 *ᵥ (v + t.T1)) := by
  obtain ⟨k1, k2, e1, e2, -, -⟩ := transformation_eq_ok h
  have hw : t.R1 *ᵥ (v + t.T1) = rMatrix ((rotation a *ᵥ ![0, 0, 1]) ⬝ᵥ o) (rotation a) *ᵥ v +
      translationVector ((rotation a *ᵥ ![0, 0, 1]) ⬝ᵥ o) (rotation a) (rotation a *ᵥ ![1, 0, 0]) (rotation a *ᵥ ![0, 1, 0]) o := by
    rw [Matrix.mulVec_add, e2, e1]
  rw [hw]
  obtain ⟨s, g1, g2, g3, g4, g5⟩ := transform_parallel (ld := (rotation a *ᵥ ![0, 0, 1]) ⬝ᵥ o) (proper_rotation a) k1
    (rotation a *ᵥ ![1, 0, 0]) (rotation a *ᵥ ![0, 1, 0]) o h1 h3 h4
  refine ⟨h1, h3, h4, s, ![v 0, v 2, 0], ![0, 0, 1], ?_, ?_, ?_, ?_, ?_, g4, g5⟩
  · unfold entrance Place.coords; simp
  · unfold entrance; simp
  · rw [g1]
    unfold entrance Place.moved Place.coords
    rw [← rotation_eq_turned]
    simp only [Matrix.mulVec_zero, zero_add, Matrix.mul_one, Matrix.mulVec_sub]
    congr 1
    · congr 1
      ext i; fin_cases i <;> simp
    · ext i; fin_cases i <;> simp [Matrix.mulVec, dotProduct, Fin.sum_univ_three] <;> ring
  · rw [g2]; unfold entrance Place.moved; rw [← rotation_eq_turned]; simp
  · rw [g3]; unfold entrance Place.moved; rw [← rotation_eq_turned]; simp

theorem arrives_exit {L θ : ℝ} {o a : Fin 3 → ℝ} {t : Transformation} (h : transformation L θ o a = .ok t) {v : Fin 6 → ℝ}
    (h1 : v 1 = 0) (h3 : v 3 = 0) (h4 : v 4 = 0) :
    Arrives ((exitPlace L θ).moved (turned (a 0) (a 1) (a 2)) o) (exitPlace L θ) v (t.R2 *ᵥ v + t.T2) := by
  obtain ⟨k1, k2, -, -, e1, e2⟩ := transformation_eq_ok h
  rw [e1, e2]
  have hB := proper_rotation ![0, -θ, 0]
  have hX := proper_rotation a
  obtain ⟨s, g1, g2, g3, g4, g5⟩ := transform_parallel (ld := (rotation ![0, -θ, 0] *ᵥ ![0, 0, 1]) ⬝ᵥ (designExit L θ - rotation a *ᵥ designExit L θ - o))
    (hB.transpose.mul (hX.transpose.mul hB)) k2
    (rotation ![0, -θ, 0] *ᵥ ![1, 0, 0]) (rotation ![0, -θ, 0] *ᵥ ![0, 1, 0]) (designExit L θ - rotation a *ᵥ designExit L θ - o) h1 h3 h4
  have hax : (exitPlace L θ).axes = rotation ![0, -θ, 0] := (rotation_exit θ).symm
  have hor : (exitPlace L θ).origin = designExit L θ := (designExit_eq L θ).symm
  have htr : ((rotation ![0, -θ, 0])ᵀ * ((rotation a)ᵀ * rotation ![0, -θ, 0]))ᵀ = (rotation ![0, -θ, 0])ᵀ * (rotation a * rotation ![0, -θ, 0]) := by
    simp [Matrix.transpose_mul, Matrix.mul_assoc]
  rw [htr] at g1 g2 g3
  generalize hb : rotation ![0, -θ, 0] = B at *
  generalize hr : rotation a = R at *
  refine ⟨h1, h3, h4, s, R *ᵥ designExit L θ + o + (R * B) *ᵥ ![v 0, v 2, 0], (R * B) *ᵥ ![0, 0, 1], ?_, ?_, ?_, ?_, ?_, g4, g5⟩
  · unfold Place.moved Place.coords
    rw [hax, hor, ← rotation_eq_turned, hr]
    simp only [add_sub_cancel_left]
    rw [Matrix.mulVec_mulVec, (hX.mul hB).orth, Matrix.one_mulVec]
  · unfold Place.moved; rw [hax, ← rotation_eq_turned, hr]
  · rw [g1]
    unfold Place.coords
    rw [hax, hor]
    have e3 : R *ᵥ designExit L θ + o + (R * B) *ᵥ ![v 0, v 2, 0] + s • ((R * B) *ᵥ ![0, 0, 1]) - designExit L θ =
        (R * B) *ᵥ ![v 0, v 2, s] - (designExit L θ - R *ᵥ designExit L θ - o) := by
      have : (![v 0, v 2, s] : Fin 3 → ℝ) = ![v 0, v 2, 0] + s • ![0, 0, 1] := by ext i; fin_cases i <;> simp
      rw [this, Matrix.mulVec_add, Matrix.mulVec_smul]
      abel
    rw [e3, Matrix.mulVec_sub, Matrix.mulVec_mulVec]
    congr 1
    ext i; fin_cases i <;> simp [Matrix.mulVec, dotProduct, Fin.sum_univ_three] <;> ring
  · rw [g2, hax, Matrix.mulVec_mulVec]
  · rw [g3, hax, Matrix.mulVec_mulVec]

end PySC
