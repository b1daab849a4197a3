import Verif.Lemmas.Synoptic
import Verif.Lemmas.ApplicableSupports
import Verif.Spec.Example
import Verif.Props.BeamLoss
/-
C125: the synoptic.
-/
namespace PySC
set_option linter.unusedSectionVars false
variable {K : Type} [Field K] [LinearOrder K] [IsStrictOrderedRing K]
open Py Spec

/-- **C125**, partial: in the synoptic of the magnets each dipole, quadrupole and sextupole has one shape, which covers its extent; the roof
of the shape tells the sign of the gradient.  Each monitor has a shape and a marker at its position.  Multipoles are missing, see below. -/
theorem C125_magnets_partial (r : Ring K) (cls : Nat → ElemClass) (F : MagnetFigure K) (hL : ∀ i < r.length, LengthNonneg r i)
    (h : synopticMagnets r cls = .ok F) :
    List.Forall₂ (MagnetShape r) (ofClass r cls .dipole) F.dipoles ∧
    List.Forall₂ (fun i p => MagnetShape r i p ∧ Roof r i p (0 ≤ coef (vecAt r i "PolynomB") 1)) (ofClass r cls .quadrupole) F.quadrupoles ∧
    List.Forall₂ (fun i p => MagnetShape r i p ∧ Roof r i p (0 ≤ coef (vecAt r i "PolynomB") 2)) (ofClass r cls .sextupole) F.sextupoles ∧
    List.Forall₂ (fun i p => InExtent r i p ∧ Standing p) (ofClass r cls .monitor) F.monitors ∧
    F.markers = (ofClass r cls .monitor).map (sPos r) := by
  unfold synopticMagnets at h
  simp only [Except.bind_eq_ok'] at h
  obtain ⟨d, h1, q, h2, s, h3, m, h4, b, h5, k, h6, h7⟩ := h
  cases h7
  have len : ∀ c, ∀ i ∈ ofClass r cls c, LengthNonneg r i := by
    intro c i hi
    unfold ofClass at hi
    simp only [List.mem_filter, List.mem_range] at hi
    exact hL i hi.1
  have drawn : ∀ {l : List Nat} {ps : List (List (K × K))} {P Q : Nat → List (K × K) → Prop}, List.Forall₂ P l ps → (∀ i ∈ l, LengthNonneg r i) →
      (∀ i p, LengthNonneg r i → P i p → Q i p) → List.Forall₂ Q l ps := by
    intro l ps P Q hf hl hpq
    induction hf with
    | nil => exact .nil
    | cons hp _ ih => exact .cons (hpq _ _ (hl _ (by simp)) hp) (ih (fun i hi => hl i (by simp [hi])))
  refine ⟨drawn (mapM_except_forall₂ h1) (len _) ?_, drawn (mapM_except_forall₂ h2) (len _) ?_, drawn (mapM_except_forall₂ h3) (len _) ?_,
    drawn (mapM_except_forall₂ h5) (len _) ?_, mapM_except_map (fun i _ s hs => spos_dropLast hs) h6⟩
  · intro i p hl hp
    obtain ⟨l, mt, u, e1, e2, e3, rfl⟩ := shapeOf_ok hp
    cases getNum_length e1
    cases e2
    exact dipole_shape hl e3
  · intro i p hl hp
    obtain ⟨l, mt, u, e1, e2, e3, rfl⟩ := shapeOf_ok hp
    cases getNum_length e1
    rcases signed_ok e2 with ⟨hs, rfl⟩ | ⟨hs, rfl⟩
    · exact ⟨fQuad_shape hl e3, fQuad_roof hs e3⟩
    · exact ⟨dQuad_shape hl e3, dQuad_roof hs e3⟩
  · intro i p hl hp
    obtain ⟨l, mt, u, e1, e2, e3, rfl⟩ := shapeOf_ok hp
    cases getNum_length e1
    rcases signed_ok e2 with ⟨hs, rfl⟩ | ⟨hs, rfl⟩
    · exact ⟨fSext_shape hl e3, fSext_roof hs e3⟩
    · exact ⟨dSext_shape hl e3, dSext_roof hs e3⟩
  · intro i p hl hp
    obtain ⟨l, mt, u, e1, e2, e3, rfl⟩ := shapeOf_ok hp
    cases lengthOr0_ok e1
    cases e2
    exact monitor_shape hl e3

/-- **C125**: in the synoptic of the correctors each registered horizontal corrector has one shape above the axis, each vertical one a
shape below, each skew quadrupole a shape whose roof tells the sign of its gradient, all inside the extent of the element; each
registered BPM has a shape and a marker at its position. -/
theorem C125_correctors (r : Ring K) (o : Ords) (F : CorrectorFigure K) (hL : ∀ i, LengthNonneg r i) (h : synopticCorrectors r o = .ok F) :
    List.Forall₂ (fun i p => InExtent r i p ∧ Standing p) o.HCM F.hcors ∧
    List.Forall₂ (fun i p => InExtent r i p ∧ Hanging p) o.VCM F.vcors ∧
    List.Forall₂ (fun i p => (InExtent r i p ∧ Standing p) ∧ Roof r i p (0 ≤ coef (vecAt r i "PolynomA") 1)) o.SkewQuad F.skews ∧
    List.Forall₂ (fun i p => InExtent r i p ∧ Standing p) o.BPM F.monitors ∧
    F.markers = o.BPM.map (sPos r) := by
  unfold synopticCorrectors at h
  simp only [Except.bind_eq_ok'] at h
  obtain ⟨d, h1, q, h2, s, h3, b, h5, k, h6, h7⟩ := h
  cases h7
  refine ⟨(mapM_except_forall₂ h1).imp ?_, (mapM_except_forall₂ h2).imp ?_, (mapM_except_forall₂ h3).imp ?_,
    (mapM_except_forall₂ h5).imp ?_, mapM_except_map (fun i _ s hs => spos_dropLast hs) h6⟩
  · intro i p hp
    obtain ⟨l, mt, u, e1, e2, e3, rfl⟩ := shapeOf_ok hp
    cases getNum_length e1
    cases e2
    exact hcor_shape (hL i) e3
  · intro i p hp
    obtain ⟨l, mt, u, e1, e2, e3, rfl⟩ := shapeOf_ok hp
    cases getNum_length e1
    cases e2
    exact vcor_shape (hL i) e3
  · intro i p hp
    obtain ⟨l, mt, u, e1, e2, e3, rfl⟩ := shapeOf_ok hp
    cases getNum_length e1
    rcases signed_ok e2 with ⟨hs, rfl⟩ | ⟨hs, rfl⟩
    · exact ⟨fSkew_shape (hL i) e3, fSkew_roof hs e3⟩
    · exact ⟨dSkew_shape (hL i) e3, dSkew_roof hs e3⟩
  · intro i p hp
    obtain ⟨l, mt, u, e1, e2, e3, rfl⟩ := shapeOf_ok hp
    cases lengthOr0_ok e1
    cases e2
    exact monitor_shape (hL i) e3

/-- **C125**: the correctors can be drawn if they have a length, BPMs always, and skew quadrupoles if they have a gradient, too. -/
theorem C125_drawn (r : Ring K) (o : Ords)
    (hin : ∀ i ∈ o.HCM ++ o.VCM ++ o.SkewQuad, i < r.length ∧ ∃ l, r.attr i "Length" = some (.num l))
    (hb : ∀ i ∈ o.BPM, i < r.length ∧ (r.attr i "Length" = none ∨ ∃ l, r.attr i "Length" = some (.num l)))
    (hq : ∀ i ∈ o.SkewQuad, ∃ v, r.attr i "PolynomA" = some (.vec v) ∧ 2 ≤ v.length) : ∃ F, synopticCorrectors r o = .ok F := by
  obtain ⟨h, e1⟩ := mapM_except_total (f := fun i => shapeOf r (r.getNum i "Length") (.ok "hcor") i) (l := o.HCM)
    (fun i hi => shapeOf_total (hin i (by simp [hi])).1 (getNum_total (hin i (by simp [hi])).2) ⟨_, rfl, _, rfl⟩)
  obtain ⟨v, e2⟩ := mapM_except_total (f := fun i => shapeOf r (r.getNum i "Length") (.ok "vcor") i) (l := o.VCM)
    (fun i hi => shapeOf_total (hin i (by simp [hi])).1 (getNum_total (hin i (by simp [hi])).2) ⟨_, rfl, _, rfl⟩)
  obtain ⟨q, e3⟩ := mapM_except_total (f := fun i => shapeOf r (r.getNum i "Length") (signed r i "PolynomA" 1 "skewquadrupole") i) (l := o.SkewQuad)
    (fun i hi => shapeOf_total (hin i (by simp [hi])).1 (getNum_total (hin i (by simp [hi])).2)
      (signed_total (by simp) (by obtain ⟨v, h1, h2⟩ := hq i hi; exact ⟨v, h1, h2⟩)))
  obtain ⟨b, e4⟩ := mapM_except_total (f := fun i => shapeOf r (lengthOr0 r i) (.ok "monitor") i) (l := o.BPM)
    (fun i hi => shapeOf_total (hb i hi).1 (lengthOr0_total (hb i hi).1 (hb i hi).2) ⟨_, rfl, _, rfl⟩)
  obtain ⟨k, e5⟩ := mapM_except_total (f := fun i => idx (findspos r).dropLast i) (l := o.BPM) (fun i hi => spos_total (hb i hi).1)
  refine ⟨⟨h, v, q, b, k⟩, ?_⟩
  unfold synopticCorrectors
  rw [e1, Except.ok_bind', e2, Except.ok_bind', e3, Except.ok_bind', e4, Except.ok_bind', e5]
  rfl

/-- **C125**: the magnets can be drawn if they have a length, quadrupoles and sextupoles their main coefficient; monitors always. -/
theorem C125_magnets_drawn (r : Ring K) (cls : Nat → ElemClass)
    (hin : ∀ c ∈ [ElemClass.dipole, .quadrupole, .sextupole, .multipole], ∀ i ∈ ofClass r cls c, ∃ l, r.attr i "Length" = some (.num l))
    (hb : ∀ i ∈ ofClass r cls .monitor, r.attr i "Length" = none ∨ ∃ l, r.attr i "Length" = some (.num l))
    (hq : ∀ i ∈ ofClass r cls .quadrupole, ∃ v, r.attr i "PolynomB" = some (.vec v) ∧ 2 ≤ v.length)
    (hs : ∀ i ∈ ofClass r cls .sextupole, ∃ v, r.attr i "PolynomB" = some (.vec v) ∧ 3 ≤ v.length) : ∃ F, synopticMagnets r cls = .ok F := by
  have lt : ∀ {c i}, i ∈ ofClass r cls c → i < r.length := fun {c i} hi => by
    unfold ofClass at hi
    simp only [List.mem_filter, List.mem_range] at hi
    exact hi.1
  obtain ⟨d, e1⟩ := mapM_except_total (f := fun i => shapeOf r (r.getNum i "Length") (.ok "dipole") i) (l := ofClass r cls .dipole)
    (fun i hi => shapeOf_total (lt hi) (getNum_total (hin _ (by simp) i hi)) ⟨_, rfl, _, rfl⟩)
  obtain ⟨q, e2⟩ := mapM_except_total (f := fun i => shapeOf r (r.getNum i "Length") (signed r i "PolynomB" 1 "quadrupole") i)
    (l := ofClass r cls .quadrupole)
    (fun i hi => shapeOf_total (lt hi) (getNum_total (hin _ (by simp) i hi)) (signed_total (by simp) (hq i hi)))
  obtain ⟨s, e3⟩ := mapM_except_total (f := fun i => shapeOf r (r.getNum i "Length") (signed r i "PolynomB" 2 "sextupole") i)
    (l := ofClass r cls .sextupole)
    (fun i hi => shapeOf_total (lt hi) (getNum_total (hin _ (by simp) i hi)) (signed_total (by simp) (hs i hi)))
  obtain ⟨m, e4⟩ := mapM_except_total (f := fun i => shapeOf r (r.getNum i "Length") (.ok "monitor") i) (l := ofClass r cls .multipole)
    (fun i hi => shapeOf_total (lt hi) (getNum_total (hin _ (by simp) i hi)) ⟨_, rfl, _, rfl⟩)
  obtain ⟨b, e5⟩ := mapM_except_total (f := fun i => shapeOf r (lengthOr0 r i) (.ok "monitor") i) (l := ofClass r cls .monitor)
    (fun i hi => shapeOf_total (lt hi) (lengthOr0_total (lt hi) (hb i hi)) ⟨_, rfl, _, rfl⟩)
  obtain ⟨k, e6⟩ := mapM_except_total (f := fun i => idx (findspos r).dropLast i) (l := ofClass r cls .monitor) (fun i hi => spos_total (lt hi))
  refine ⟨⟨d, q, s, m, b, k⟩, ?_⟩
  unfold ofClass at e1 e2 e3 e4 e5 e6
  unfold synopticMagnets
  simp only
  rw [e1, Except.ok_bind', e2, Except.ok_bind', e3, Except.ok_bind', e4, Except.ok_bind', e5, Except.ok_bind', e6]
  rfl

/-- **C125 violated**: multipoles are drawn with the shape of a monitor, so that no multipole of finite length is covered by its shape. -/
theorem C125_violated_multipoles (r : Ring K) (cls : Nat → ElemClass) (F : MagnetFigure K) (h : synopticMagnets r cls = .ok F) :
    List.Forall₂ (fun i p => numAt r i "Length" ≠ 0 → ¬ MagnetShape r i p) (ofClass r cls .multipole) F.multipoles := by
  unfold synopticMagnets at h
  simp only [Except.bind_eq_ok'] at h
  obtain ⟨d, h1, q, h2, s, h3, m, h4, b, h5, k, h6, h7⟩ := h
  cases h7
  refine (mapM_except_forall₂ h4).imp ?_
  rintro i p hp hl ⟨⟨-, hc⟩, -⟩
  obtain ⟨l, mt, u, e1, e2, e3, rfl⟩ := shapeOf_ok hp
  cases e2
  simp only [unitShape, reduceIte, String.reduceEq, Except.ok.injEq] at e3
  subst e3
  simp [hl] at hc

/-- classes of the elements of the example; the magnet behind the corrector is a multipole -/
def Example.classes : Nat → ElemClass
  | 0 => .monitor
  | 2 => .multipole
  | 3 => .dipole
  | 4 => .quadrupole
  | _ => .other

/-- the example lattice with a quadrupole of negative gradient behind the bend -/
def Example.gallery : Ring ℚ := (Example.rawRing.take 4) ++
  [Elem.ofList [("FamName", .str "QD"), ("PassMethod", .str "StrMPoleSymplectic4Pass"), ("Length", .num (1/4)),
     ("PolynomA", .vec [0, -1]), ("PolynomB", .vec [0, -2])]]

example : (∀ i < Example.gallery.length, LengthNonneg Example.gallery i) ∧
    (synopticMagnets Example.gallery Example.classes).toOption =
      some ⟨[[(1/2, 0), (1/2, 1), (5/2, 1), (5/2, 0)]], [[(5/2, 0), (5/2, 1), (21/8, 3/5), (11/4, 1), (11/4, 0)]], [],
        [[(0, 0), (0, 6/5)]], [[(0, 0), (0, 6/5)]], [0]⟩ ∧
    numAt Example.gallery 2 "Length" = 1/2 ∧
    ofClass Example.gallery Example.classes .quadrupole = [4] ∧ vecAt Example.gallery 4 "PolynomB" = [0, -2] := by
  unfold LengthNonneg; decide +kernel

example : (∀ i, LengthNonneg Example.gallery i) ∧
    (synopticCorrectors Example.gallery ⟨[0], [], [1, 2, 4], [4], [1, 2], [1], [], [], []⟩).toOption =
      some ⟨[[(0, 0), (0, 11/10), (0, 11/10), (0, 0)], [(0, 0), (0, 11/10), (9/20, 11/10), (9/20, 0)]],
        [[(0, 0), (0, -21/20), (0, -21/20), (0, 0)]], [[(5/2, 0), (5/2, 11/10), (21/8, 7/10), (109/40, 11/10), (109/40, 0)]],
        [[(0, 0), (0, 6/5)]], [0]⟩ ∧
    (∀ i ∈ [1, 2] ++ [1] ++ [4], i < Example.gallery.length ∧ ∃ l, Example.gallery.attr i "Length" = some (.num l)) ∧
    (∀ i ∈ [4], ∃ v, Example.gallery.attr i "PolynomA" = some (.vec v) ∧ 2 ≤ v.length) := by
  refine ⟨fun i => ?_, by decide +kernel, ?_, ?_⟩
  rotate_left
  · intro i hi
    have hi : i = 1 ∨ i = 2 ∨ i = 4 := by simp at hi; omega
    rcases hi with rfl | rfl | rfl <;> exact ⟨by decide, _, rfl⟩
  · intro i hi
    obtain rfl : i = 4 := by simpa using hi
    exact ⟨_, rfl, by decide⟩
  by_cases hi : i < 5
  · have : ∀ i < 5, LengthNonneg Example.gallery i := by unfold LengthNonneg; decide +kernel
    exact this i hi
  · have : Example.gallery.attr i "Length" = none := by
      have hl : Example.gallery[i]? = none := List.getElem?_eq_none (by have : Example.gallery.length = 5 := rfl; omega)
      simp [Ring.attr, hl]
    simp [LengthNonneg, numAt, this]

end PySC
