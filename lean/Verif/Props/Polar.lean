import Verif.Spec.Polar
import Verif.Props.Apertures
import Mathlib.Analysis.SpecialFunctions.Trigonometric.Angle
/-
C110: the points and the area of a dynamic aperture, and the automatic choice of its angles.
-/
namespace PySC
open Spec

theorem pol2cart_place (p : ℝ × ℝ) : pol2cart p.1 p.2 = place p := rfl

theorem norm_mk (x y : ℝ) : ‖(⟨x, y⟩ : ℂ)‖ = Real.sqrt (x ^ 2 + y ^ 2) := by
  rw [Complex.norm_def, Complex.normSq_mk]; congr 1; ring

/-- **C110**: polar coordinates of a point give back the point. -/
theorem C110_there_and_back (x y : ℝ) : place (cart2pol x y) = (x, y) := by
  unfold place cart2pol
  simp only [← norm_mk]
  have h1 := Complex.norm_mul_cos_arg (⟨x, y⟩ : ℂ)
  have h2 := Complex.norm_mul_sin_arg (⟨x, y⟩ : ℂ)
  simp only at h1 h2
  rw [h1, h2]

/-- **C110**: the point with a positive radius and an angle has this radius, and this angle up to full turns. -/
theorem C110_back_and_there (rho phi : ℝ) (hr : 0 < rho) : (cart2pol (pol2cart rho phi).1 (pol2cart rho phi).2).1 = rho ∧
    ((cart2pol (pol2cart rho phi).1 (pol2cart rho phi).2).2 : Real.Angle) = (phi : Real.Angle) ∧
    (-Real.pi < phi → phi ≤ Real.pi → (cart2pol (pol2cart rho phi).1 (pol2cart rho phi).2).2 = phi) := by
  have hz : (⟨rho * Real.cos phi, rho * Real.sin phi⟩ : ℂ) = (rho : ℂ) * (Complex.cos phi + Complex.sin phi * Complex.I) := by
    apply Complex.ext
    · simp [← Complex.ofReal_cos, ← Complex.ofReal_sin]
    · simp [← Complex.ofReal_cos, ← Complex.ofReal_sin]
  refine ⟨?_, ?_, fun h1 h2 => ?_⟩
  · simp only [cart2pol, pol2cart]
    rw [show (rho * Real.cos phi) ^ 2 + (rho * Real.sin phi) ^ 2 = rho ^ 2 * (Real.cos phi ^ 2 + Real.sin phi ^ 2) by ring, Real.cos_sq_add_sin_sq, mul_one,
      Real.sqrt_sq hr.le]
  · simp only [cart2pol, pol2cart]
    rw [hz]
    have := Complex.arg_mul_cos_add_sin_mul_I_coe_angle hr (phi : Real.Angle)
    simpa using this
  · simp only [cart2pol, pol2cart]
    rw [hz]
    exact Complex.arg_mul_cos_add_sin_mul_I hr ⟨h1, h2⟩

/-- **C110**: without centring the points are returned as they are, with centring each of them is moved by the closed orbit. -/
theorem C110_points (orbit : Option (ℝ × ℝ)) (points : List (ℝ × ℝ)) :
    (apertureResult orbit points).2.map place = points.map (fun p => place p - orbit.getD 0) := by
  cases orbit with
  | none => simp [apertureResult]
  | some o =>
    simp only [apertureResult, centreOnOrbit, List.map_map, Option.getD_some]
    refine List.map_congr_left (fun p _ => ?_)
    simp only [Function.comp, C110_there_and_back]
    rfl

theorem polygonArea_places (l : List (ℝ × ℝ)) : polygonArea l = shoelace (l.map place) := by
  unfold polygonArea shoelace
  rw [← List.map_tail, List.zip_map, List.map_map]
  rfl

/-- moving a polygon changes the shoelace formula by a term which only depends on its ends -/
theorem shoelace_shift (o p : ℝ × ℝ) (l : List (ℝ × ℝ)) :
    shoelace ((p :: l).map (fun q => q - o)) = shoelace (p :: l) +
      (o.2 * ((p :: l).getLast (by simp)).1 - o.1 * ((p :: l).getLast (by simp)).2 - (o.2 * p.1 - o.1 * p.2)) / 2 := by
  induction l generalizing p with
  | nil => simp [shoelace]
  | cons q l ih =>
    have := ih q
    unfold shoelace at this ⊢
    simp only [List.map_cons, List.tail_cons, List.zip_cons_cons, List.sum_cons, Prod.fst_sub, Prod.snd_sub] at this ⊢
    rw [List.getLast_cons (by simp)]
    rw [add_div, add_div, this]
    ring

/-- **C110**: the area returned is the area of the polygon returned, if the scan ends where it began. -/
theorem C110_area (orbit : Option (ℝ × ℝ)) (points : List (ℝ × ℝ)) (hc : orbit = none ∨ Closed points) :
    (apertureResult orbit points).1 = polygonArea (apertureResult orbit points).2 := by
  have h1 : (apertureResult orbit points).1 = shoelace (points.map place) := by
    rw [← polygonArea_places, ← C55_area]; rfl
  rw [h1, polygonArea_places, C110_points]
  cases orbit with
  | none => simp
  | some o =>
    have hc := hc.resolve_left (by simp)
    cases points with
    | nil => rfl
    | cons p l =>
      rw [show (p :: l).map (fun p => place p - (some o).getD 0) = ((p :: l).map place).map (fun q => q - o) by simp, List.map_cons, shoelace_shift]
      unfold Closed at hc
      have hlast : (place p :: l.map place).getLast (by simp) = place p := by
        have e : (place p :: l.map place).getLast? = some (place p) := by
          rw [← List.map_cons, List.getLast?_map, ← hc]; rfl
        rw [List.getLast?_eq_some_getLast (by simp)] at e
        exact Option.some.inj e
      rw [hlast]
      ring

/-- a square -/
noncomputable def Example.square : List (ℝ × ℝ) := [(1, 0), (1, Real.pi / 2), (1, Real.pi), (1, Real.pi + Real.pi / 2), (1, 2 * Real.pi)]

theorem Example.square_closed : Closed Example.square := by
  simp [Closed, Example.square, place]

/-- seen from half way to its corner it still has the area 2 -/
example : polygonArea (apertureResult (some (1/2, 0)) Example.square).2 = 2 := by
  rw [← C110_area _ _ (Or.inr Example.square_closed)]
  simp only [apertureResult, Example.square, apertureArea]
  have h1 : Real.pi - Real.pi / 2 = Real.pi / 2 := by ring
  have h2 : 2 * Real.pi - (Real.pi + Real.pi / 2) = Real.pi / 2 := by ring
  rw [h1, h2, add_sub_cancel_left]
  simp
  norm_num

/-- **C110** violated: if the scan does not end where it began, the area returned is not that of the points returned. -/
theorem C110_violated_open_scan : ∃ (orbit : ℝ × ℝ) (points : List (ℝ × ℝ)), (apertureResult (some orbit) points).1 = 1 / 2 ∧
    polygonArea (apertureResult (some orbit) points).2 = 0 := by
  refine ⟨(1, 0), [(1, 0), (1, Real.pi / 2)], ?_, ?_⟩
  · simp [apertureResult, apertureArea]
  · rw [polygonArea_places, C110_points]
    simp [shoelace, place]

/-- **C110** violated: the angles returned are not those asked for, even with the orbit in the origin: they lie between minus pi and pi. -/
theorem C110_violated_angles : ∃ (points : List (ℝ × ℝ)), points = [(1, Real.pi + Real.pi / 2)] ∧
    (apertureResult (some (0, 0)) points).2 = [(1, -(Real.pi / 2))] := by
  refine ⟨_, rfl, ?_⟩
  have h := C110_back_and_there 1 (-(Real.pi / 2)) one_pos
  have hpi := Real.pi_pos
  have e1 := h.1
  have e2 := h.2.2 (by linarith) (by linarith)
  have hp : pol2cart 1 (Real.pi + Real.pi / 2) = pol2cart 1 (-(Real.pi / 2)) := by
    have c1 : Real.cos (Real.pi + Real.pi / 2) = 0 := by rw [add_comm, Real.cos_add_pi, Real.cos_pi_div_two, neg_zero]
    have c2 : Real.sin (Real.pi + Real.pi / 2) = -1 := by rw [add_comm, Real.sin_add_pi, Real.sin_pi_div_two]
    simp [pol2cart, c1, c2]
  simp only [apertureResult, centreOnOrbit, List.map_cons, List.map_nil, hp, sub_zero]
  congr 1
  exact Prod.ext e1 e2

/-! ### automatic angles -/

/-- **C110**: if the aperture is wider than high, the automatic angles are the directions of points spread evenly (in the parameter) on an
ellipse with the width and the height found. -/
theorem C110_auto (r0 r1 r2 r3 : ℝ) (nt : Nat) (hb : 0 ≤ (r1 + r3) / 2) (hab : (r1 + r3) / 2 < (r0 + r2) / 2) :
    ∃ l, autoAngles r0 r1 r2 r3 nt = .ok l ∧ l.length = nt ∧ ∃ c : ℝ, 0 < c ∧ ∀ (k : ℕ) p, l[k]? = some p →
      place (c * p.1, p.2) = ((r0 + r2) / 2 * Real.cos (2 * Real.pi * k / (nt - 1)), (r1 + r3) / 2 * Real.sin (2 * Real.pi * k / (nt - 1))) := by
  set a := (r0 + r2) / 2 with ha
  set b := (r1 + r3) / 2 with hbdef
  have hpos : 0 < a := lt_of_le_of_lt hb hab
  have hlt : b ^ 2 / a ^ 2 < 1 := by
    rw [div_lt_one (by positivity)]
    exact pow_lt_pow_left₀ hab hb (by norm_num)
  have hd : 0 < 1 - b ^ 2 / a ^ 2 := by linarith
  set e := Real.sqrt (1 - b ^ 2 / a ^ 2) with he
  have he0 : 0 < e := Real.sqrt_pos.2 hd
  have he1 : e ≤ 1 := by
    rw [he]
    have : 0 ≤ b ^ 2 / a ^ 2 := by positivity
    exact Real.sqrt_le_one.2 (by linarith)
  have h1e : 1 ≤ 1 / e := by rw [le_div_iff₀ he0]; linarith
  have hsq : e ^ 2 = 1 - b ^ 2 / a ^ 2 := Real.sq_sqrt hd.le
  have hch : Real.cosh (Real.arcosh (1 / e)) = 1 / e := Real.cosh_arcosh h1e
  have hsh : Real.sinh (Real.arcosh (1 / e)) = b / a * (1 / e) := by
    rw [Real.sinh_arcosh h1e, show (1 / e) ^ 2 - 1 = (b / a * (1 / e)) ^ 2 by
      field_simp
      have : a ^ 2 * e ^ 2 = a ^ 2 - b ^ 2 := by rw [hsq]; field_simp
      linarith]
    exact Real.sqrt_sq (by positivity)
  refine ⟨(linspace0 (2 * Real.pi) nt).map (fun (nu : ℝ) => (‖Complex.cosh ((Real.arcosh (1 / e) : ℂ) + Complex.I * (nu : ℂ))‖,
    Complex.arg (Complex.cosh ((Real.arcosh (1 / e) : ℂ) + Complex.I * (nu : ℂ))))), ?_, ?_, a * e, by positivity, ?_⟩
  · unfold autoAngles
    simp only [← ha, ← hbdef, ← he]
    rw [if_neg hpos.ne', if_neg (not_lt.2 hd.le), if_neg he0.ne']
  · simp [linspace0]
  · intro k p hp
    rw [List.getElem?_map] at hp
    obtain ⟨nu, hnu, rfl⟩ := Option.map_eq_some_iff.1 hp
    have hnu' : nu = 2 * Real.pi * k / (nt - 1) := by
      unfold linspace0 at hnu
      rw [List.getElem?_map] at hnu
      obtain ⟨j, hj, rfl⟩ := Option.map_eq_some_iff.1 hnu
      obtain ⟨hlt, rfl⟩ := List.getElem?_eq_some_iff.1 hj
      rw [List.getElem_range]
      split
      · rename_i h; subst h; simp
      · ring
    rw [← hnu']
    have hz : Complex.cosh ((Real.arcosh (1 / e) : ℂ) + Complex.I * (nu : ℂ)) =
        (⟨Real.cosh (Real.arcosh (1 / e)) * Real.cos nu, Real.sinh (Real.arcosh (1 / e)) * Real.sin nu⟩ : ℂ) := by
      rw [mul_comm, Complex.cosh_add, Complex.cosh_mul_I, Complex.sinh_mul_I]
      apply Complex.ext
      · simp [← Complex.ofReal_cosh, ← Complex.ofReal_cos, ← Complex.ofReal_sinh, ← Complex.ofReal_sin]
      · simp [← Complex.ofReal_cosh, ← Complex.ofReal_cos, ← Complex.ofReal_sinh, ← Complex.ofReal_sin]
    simp only [hz]
    have h1 := Complex.norm_mul_cos_arg (⟨Real.cosh (Real.arcosh (1 / e)) * Real.cos nu, Real.sinh (Real.arcosh (1 / e)) * Real.sin nu⟩ : ℂ)
    have h2 := Complex.norm_mul_sin_arg (⟨Real.cosh (Real.arcosh (1 / e)) * Real.cos nu, Real.sinh (Real.arcosh (1 / e)) * Real.sin nu⟩ : ℂ)
    simp only [hch, hsh] at h1 h2 ⊢
    unfold place
    simp only
    rw [mul_assoc (a * e), h1, mul_assoc (a * e), h2]
    refine Prod.ext ?_ ?_
    · simp only; field_simp
    · simp only; field_simp

/-- **C110** violated: if the aperture is as high as wide, or higher, there are no automatic angles. -/
theorem C110_violated_auto (r0 r1 r2 r3 : ℝ) (nt : Nat) (ha : 0 ≤ (r0 + r2) / 2) (hab : (r0 + r2) / 2 ≤ (r1 + r3) / 2) :
    autoAngles r0 r1 r2 r3 nt = .error .nonFinite := by
  unfold autoAngles
  simp only
  by_cases h0 : (r0 + r2) / 2 = 0
  · rw [if_pos h0]
  · rw [if_neg h0]
    have hpos : 0 < (r0 + r2) / 2 := lt_of_le_of_ne ha (Ne.symm h0)
    have : 1 - ((r1 + r3) / 2) ^ 2 / ((r0 + r2) / 2) ^ 2 ≤ 0 := by
      rw [sub_nonpos, one_le_div (by positivity)]
      exact pow_le_pow_left₀ ha hab 2
    by_cases h : 1 - ((r1 + r3) / 2) ^ 2 / ((r0 + r2) / 2) ^ 2 < 0
    · rw [if_pos h]
    · rw [if_neg h, if_pos (Real.sqrt_eq_zero_of_nonpos this)]

/-- twice as wide as high, nine angles: the third one points straight upwards -/
example : ∃ l p, autoAngles 2 1 2 1 9 = .ok l ∧ l.length = 9 ∧ l[2]? = some p ∧ ∃ c : ℝ, 0 < c ∧ place (c * p.1, p.2) = (0, 1) := by
  obtain ⟨l, h1, h2, c, hc, h3⟩ := C110_auto 2 1 2 1 9 (by norm_num) (by norm_num)
  have hl : l[2]? = some l[2] := List.getElem?_eq_getElem (by omega)
  refine ⟨l, l[2], h1, h2, hl, c, hc, ?_⟩
  rw [h3 2 _ hl, show 2 * Real.pi * ((2 : ℕ) : ℝ) / (((9 : ℕ) : ℝ) - 1) = Real.pi / 2 by norm_num; ring]
  simp

end PySC
