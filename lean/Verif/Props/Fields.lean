import Verif.Lemmas.Fields
import Verif.Spec.Example
/-
C13 (realised magnet field), C14 (updates are idempotent).
-/
namespace PySC
open Py Spec
variable {K : Type _} [Field K] [LinearOrder K]

/-- **C13** After a successful `update_magnets(ords)` every element whose field comes from exactly one of the given
magnets (a stand-alone magnet, `src = tgt`, or a child of a master magnet) has the multipoles
`SetPoint*(1+CalError) + Offset + systematic errors`, with the bending-angle-error and combined-function terms on the
dipole component, the matching `KickAngle` for `CorrectorPass` and `MaxOrder` one less than the number of
coefficients. -/
theorem C13_realised_field (ords : List Nat) (s s' : SC K) (h : updateMagnets (some ords) s = .ok () s')
    (src tgt : Nat) (hsrc : src ∈ ords) (haff : Affects s.RING src tgt)
    (honly : ∀ j ∈ ords, Affects s.RING j tgt → j = src) (hfit : CalFits s.RING src) :
    HasField s.RING src tgt s'.RING :=
  updateMagnets_hasField h hsrc haff honly hfit

/-- **C13**, all registered magnets: `update_magnets()` is `update_magnets(SC.ORD.Magnet)`. -/
theorem C13_all_magnets (s s' : SC K) (h : updateMagnets none s = .ok () s')
    (i : Nat) (hi : i ∈ s.ORD.Magnet)
    (halone : ∀ j ∈ s.ORD.Magnet, Affects s.RING j i → j = i) (hfit : CalFits s.RING i) :
    HasField s.RING i i s'.RING :=
  updateMagnets_hasField (l := s.ORD.Magnet) h hi (Or.inl rfl) halone hfit

/-- **C13**, nothing else: whether or not the call raises, at most `PolynomA`, `PolynomB`, `KickAngle` and `MaxOrder` of
the given magnets and their children change. -/
theorem C13_nothing_else (ords : List Nat) (s : SC K) :
    Frame (fun t a => (∃ i ∈ ords, Affects s.RING i t) ∧ a ∈ ["PolynomA", "PolynomB", "KickAngle", "MaxOrder"]) s
      (updateMagnets (some ords) s).state :=
  updateMagnets_frame (some ords) s

example : (updateMagnets (some [1, 2, 4]) Example.sc).isOk = true := by decide +kernel
example : ∀ i ∈ [1, 2, 4], CalFits Example.ring i := by
  simp only [CalFits]; decide +kernel
example : Affects Example.ring 2 3 := Or.inr ⟨[3], by decide +kernel, by simp⟩
example : (updateMagnets none Example.sc).state.RING.attr 2 "PolynomB" =
    some (.vec [0, 21/10, 3, 21/1000]) := by decide +kernel
example : (updateMagnets none Example.sc).state.RING.attr 3 "PolynomA" = some (.vec [1/7, 0]) := by decide +kernel
example : (updateMagnets none Example.sc).state.RING.attr 4 "PolynomB" =
    some (.vec [1/2000 + 1/400, -21/20]) := by decide +kernel
example : (updateMagnets none Example.sc).state.RING.attr 1 "KickAngle" = some (.vec [11/10000, 0]) := by
  decide +kernel

/-- **C13**, why `CalFits` is needed: with a single set-point and two calibration errors the product with numpy
broadcasting creates a quadrupole field out of nothing. -/
theorem C13_excess_calibration_errors_create_field :
    ∃ s s' : SC ℚ, updateMagnets (some [0]) s = .ok () s' ∧
      coef (vecAt s.RING 0 "SetPointB") 1 = 0 ∧ coef (vecAt s'.RING 0 "PolynomB") 1 ≠ 0 := by
  let e : Elem ℚ := Elem.ofList [("PassMethod", .str "CorrectorPass"), ("SetPointA", .vec [0]),
    ("SetPointB", .vec [1]), ("CalErrorA", .vec [0]), ("CalErrorB", .vec [0, 1/10])]
  let s : SC ℚ := { Example.sc with RING := [e] }
  have hok : (updateMagnets (some [0]) s).isOk = true := by decide +kernel
  refine ⟨s, (updateMagnets (some [0]) s).state, ?_, by decide +kernel, by decide +kernel⟩
  cases h : updateMagnets (some [0]) s with
  | ok u s' => rfl
  | error e s' => rw [h] at hok; simp [Res.isOk] at hok

/-- **C14** A second `update_magnets` with the same arguments succeeds and changes nothing. -/
theorem C14_update_magnets_idempotent (ords : Option (List Nat)) (s s' : SC K)
    (h : updateMagnets ords s = .ok () s') : updateMagnets ords s' = .ok () s' := by
  cases ords with
  | some l => exact (updateMagnets_writer l).idem h
  | none =>
    rw [updateMagnets_none] at h ⊢
    have hf := updateMagnets_frame (some s.ORD.Magnet) s
    rw [h] at hf
    rw [show s'.ORD = s.ORD from hf.ord]
    exact (updateMagnets_writer _).idem h

/-- **C14** A second `update_cavities` with the same arguments succeeds and changes nothing. -/
theorem C14_update_cavities_idempotent (ords : Option (List Nat)) (s s' : SC K)
    (h : updateCavities ords s = .ok () s') : updateCavities ords s' = .ok () s' := by
  cases ords with
  | some l => exact (updateCavities_writer l).idem h
  | none =>
    have h' : updateCavities (some s.ORD.RF) s = .ok () s' := h
    have ho : s'.ORD = s.ORD := by
      obtain ⟨W, -, rfl⟩ := ((updateCavities_writer _).ok _ _ _).1 h'
      rfl
    show updateCavities (some s'.ORD.RF) s' = _
    rw [ho]
    exact (updateCavities_writer _).idem h'

example : (updateCavities none Example.sc).state.RING.attr 5 "Voltage" = some (.num 1010) := by decide +kernel
example : (updateCavities none Example.sc).isOk = true := by decide +kernel

end PySC
