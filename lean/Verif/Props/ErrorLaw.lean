import Verif.Lemmas.ErrorMoments
import Verif.Props.Truncated
import Verif.Props.Applicable
/-
C96, C97: the law of the errors.
-/
namespace PySC
open Py Spec MeasureTheory ProbabilityTheory Filter Topology
set_option linter.unusedSectionVars false
variable {Ω : Type} [MeasurableSpace Ω] {P : Measure Ω} [IsProbabilityMeasure P]

/-- **C96**: with a generator of independent standard normal numbers, the errors which `apply_errors` gives to cavities, BPMs, magnets, the
injected trajectory and the circumference are their uncertainties times independent random numbers, one for each component of each
uncertainty; each number has the standard normal law given that its magnitude is within the cut-off of its uncertainty. -/
theorem C96_law (E : Env ℝ) {X : ℕ → Ω → ℝ} (hX : StandardNormal P X) (nsigmas : ℝ) (s : SC ℝ) (ht : Tidy s.ORD)
    (hw : WellRegistered s.SIG) (h6 : s.SIG.staticInjectionZ.length = 6) (hn : nsigmas ≠ 0)
    (hc : ∀ x sig, uncertaintyOf s x = some sig → cutoffFor nsigmas sig ≠ 0) :
    ∃ Z : Cause → ℕ → Ω → ℝ,
      IndependentWithLaws P (fun c : Component s => Z c.1.1 c.1.2) (fun c => truncatedNormal (cutoffOf nsigmas s c.1.1)) ∧
      ∀ ω fuel s', applyErrors { E with randn := fun k => X k ω, fuel := fuel } nsigmas s = .ok () s' →
        ErrorsMadeFrom s s' (fun x k => Z x k ω) :=
  applyErrors_law E hX nsigmas s ht hw h6 hn hc

theorem cutoffFor_ne_zero {n : ℝ} {s : SC ℝ} (h : Applicable n s) (x : Cause) (sig : Attr ℝ) (hs : uncertaintyOf s x = some sig) :
    cutoffFor n sig ≠ 0 := by
  have key : Drawable sig → cutoffFor n sig ≠ 0 := by
    intro hd
    cases sig with
    | pair v c =>
      cases v with
      | num _ => exact hd
      | vec _ => exact hd
      | _ => exact hd.elim
    | _ => exact h.cutOff
  cases x with
  | cavity i name =>
    rw [uncertainty_cavity] at hs
    split at hs
    · rename_i hi; exact key (h.cavityErrors i hi name sig hs)
    · cases hs
  | bpm i name =>
    rw [uncertainty_bpm] at hs
    split at hs
    · rename_i hi; exact key (h.bpmErrors i hi.1 name sig hs hi.2)
    · cases hs
  | magnet i name =>
    rw [uncertainty_magnet] at hs
    split at hs
    · rename_i hi; exact key (h.magnetErrors i hi name sig hs).1
    · cases hs
  | injection => cases hs; exact h.cutOff
  | circumference => cases hs; exact h.cutOff

/-- **C96**: on a machine in order, whose transformations can be computed, `apply_errors` almost surely succeeds, and its errors have this
law. -/
theorem C96_machines_in_order (E : Env ℝ) {X : ℕ → Ω → ℝ} (hX : StandardNormal P X)
    (hT : ∀ len theta dx dy dz pitch yaw roll, ∃ T, E.transform len theta [dx, dy, dz] [pitch, yaw, roll] = .ok T)
    (nsigmas : ℝ) (s : SC ℝ) (ht : Tidy s.ORD) (h : Applicable nsigmas s) :
    ∃ Z : Cause → ℕ → Ω → ℝ,
      IndependentWithLaws P (fun c : Component s => Z c.1.1 c.1.2) (fun c => truncatedNormal (cutoffOf nsigmas s c.1.1)) ∧
      ∀ᵐ ω ∂P, ∃ passes t, (∀ f, passes ≤ f → applyErrors { E with randn := fun k => X k ω, fuel := f } nsigmas s = .ok () t) ∧
        ErrorsMadeFrom s t (fun x k => Z x k ω) := by
  obtain ⟨Z, h1, h2⟩ := C96_law E hX nsigmas s ht h.registered h.injection.1 h.cutOff (cutoffFor_ne_zero h)
  refine ⟨Z, h1, ?_⟩
  filter_upwards [standardNormal_keepsDrawing E hX] with ω hω
  obtain ⟨passes, t, hp⟩ := C86_succeeds { E with randn := fun k => X k ω } hω hT nsigmas s h
  exact ⟨passes, t, hp, h2 ω passes t (hp passes (le_refl _))⟩

/-- **C97**: the errors are centred and uncorrelated: the random numbers by which the uncertainties are multiplied have mean zero, and so
has the product of two of them.  (The statement about the size of the errors, namely that their rms value is the uncertainty, is not true,
see `C97_violated_rms`; it is approached for large cut-offs, see `C97_rms_of_large_cutoffs_partial`.) -/
theorem C97_centred_partial (E : Env ℝ) {X : ℕ → Ω → ℝ} (hX : StandardNormal P X) (nsigmas : ℝ) (s : SC ℝ) (ht : Tidy s.ORD)
    (hw : WellRegistered s.SIG) (h6 : s.SIG.staticInjectionZ.length = 6) (hn : nsigmas ≠ 0)
    (hc : ∀ x sig, uncertaintyOf s x = some sig → cutoffFor nsigmas sig ≠ 0) :
    ∃ Z : Cause → ℕ → Ω → ℝ,
      (∀ ω fuel s', applyErrors { E with randn := fun k => X k ω, fuel := fuel } nsigmas s = .ok () s' →
        ErrorsMadeFrom s s' (fun x k => Z x k ω)) ∧
      (∀ c : Component s, Integrable (Z c.1.1 c.1.2) P ∧ Integrable (fun ω => Z c.1.1 c.1.2 ω ^ 2) P ∧ ∫ ω, Z c.1.1 c.1.2 ω ∂P = 0) ∧
      ∀ c d : Component s, c ≠ d → ∫ ω, Z c.1.1 c.1.2 ω * Z d.1.1 d.1.2 ω ∂P = 0 := by
  obtain ⟨Z, h1, h2⟩ := C96_law E hX nsigmas s ht hw h6 hn hc
  refine ⟨Z, h2, fun c => ?_, fun c d hcd => number_product h1 hcd⟩
  have hcut : cutoffOf nsigmas s c.1.1 ≠ 0 := by
    obtain ⟨sig, hs, -⟩ := c.2
    unfold cutoffOf
    rw [hs]
    exact hc _ _ hs
  obtain ⟨g1, g2⟩ := number_integrable h1 (k := c) hcut
  exact ⟨g1, g2, number_mean h1 c⟩

/-- **C97** is violated in this respect: whatever the cut-offs are, the rms value of an error is smaller than the uncertainty `sigma` it is
drawn for. -/
theorem C97_violated_rms (E : Env ℝ) {X : ℕ → Ω → ℝ} (hX : StandardNormal P X)
    (hT : ∀ len theta dx dy dz pitch yaw roll, ∃ T, E.transform len theta [dx, dy, dz] [pitch, yaw, roll] = .ok T)
    (nsigmas : ℝ) (s : SC ℝ) (ht : Tidy s.ORD) (h : Applicable nsigmas s) :
    ∃ Z : Cause → ℕ → Ω → ℝ,
      (∀ᵐ ω ∂P, ∃ passes t, (∀ f, passes ≤ f → applyErrors { E with randn := fun k => X k ω, fuel := f } nsigmas s = .ok () t) ∧
        ErrorsMadeFrom s t (fun x k => Z x k ω)) ∧
      ∀ (c : Component s) (sigma : ℝ), sigma ≠ 0 → ∫ ω, (sigma * Z c.1.1 c.1.2 ω) ^ 2 ∂P < sigma ^ 2 := by
  obtain ⟨Z, h1, h2⟩ := C96_machines_in_order E hX hT nsigmas s ht h
  refine ⟨Z, h2, fun c sigma hs => ?_⟩
  have hcut : cutoffOf nsigmas s c.1.1 ≠ 0 := by
    obtain ⟨sig, hs, -⟩ := c.2
    unfold cutoffOf
    rw [hs]
    exact cutoffFor_ne_zero h _ _ hs
  have hsq := truncated_sq hcut
  rw [← number_square h1 c] at hsq
  simp only [mul_pow]
  rw [integral_const_mul]
  have : 0 < sigma ^ 2 := by positivity
  nlinarith

/-- **C97** for large cut-offs: the mean square of the errors approaches the square of the uncertainty. -/
theorem C97_rms_of_large_cutoffs_partial (sigma : ℝ) :
    Tendsto (fun cut => ∫ x, (sigma * x) ^ 2 ∂(truncatedNormal cut)) atTop (𝓝 (sigma ^ 2)) := by
  simp only [mul_pow, integral_const_mul]
  simpa using truncated_sq_tendsto.const_mul (sigma ^ 2)

/-! ### a machine -/

/-- a BPM, a drift of length 3 and a second BPM; the offset of the first BPM has a cut-off of its own -/
noncomputable def Example.twoMonitors : SC ℝ where
  RING := [Elem.ofList [("PassMethod", .str "IdentityPass")], Elem.ofList [("PassMethod", .str "DriftPass"), ("Length", .num 3)],
    Elem.ofList [("PassMethod", .str "IdentityPass")]]
  IDEALRING := []
  INJ := ⟨1, [0, 0, 0, 0, 0, 0], [0, 0, 0, 0, 0, 0], [], [], [], 1, 1, 1, "TBT"⟩
  SIG := ⟨[(0, [("Offset", .pair (.vec [3, 4]) 1), ("Noise", .vec [1, 1])]), (2, [("Roll", .num 2)])], [], [], [], [],
    [1, 1, 2, 2, 0, 5], 1 / 10⟩
  ORD := ⟨[0, 2], [], [], [], [], [], [], [], []⟩
  rng := 0

theorem Example.twoMonitors_tidy : Tidy Example.twoMonitors.ORD := by
  refine ⟨?_, ?_, ?_, ?_, ?_, ?_⟩ <;> simp [Example.twoMonitors, Increasing]

theorem Example.twoMonitors_sigma : ∀ i name sig, Spec.sigma Example.twoMonitors.SIG.BPM i name = some sig →
    (i, name, sig) ∈ [(0, "Offset", .pair (.vec [3, 4]) 1), (0, "Noise", .vec [1, 1]), (2, "Roll", Attr.num (2 : ℝ))] :=
  sigma_forall (d := Example.twoMonitors.SIG.BPM) (P := fun i name sig => (i, name, sig) ∈
    [(0, "Offset", .pair (.vec [3, 4]) 1), (0, "Noise", .vec [1, 1]), (2, "Roll", Attr.num (2 : ℝ))]) (by simp [Example.twoMonitors])

theorem Example.twoMonitors_registered : WellRegistered Example.twoMonitors.SIG := by
  have none : ∀ i name (sig : Attr ℝ), Spec.sigma ([] : Dict Nat (Dict String (Attr ℝ))) i name = some sig → False := by
    intro i name sig h; simp [Spec.sigma, Dict.get?] at h
  have single : SingleEntries ([] : Dict Nat (Dict String (Attr ℝ))) := ⟨List.nodup_nil, fun i e h => by simp [Dict.get?] at h⟩
  refine ⟨fun i name sig h => ?_, fun i name sig h => (none _ _ _ h).elim, fun i name sig h => (none _ _ _ h).elim,
    fun i name sig h => (none _ _ _ h).elim, ⟨?_, fun i e h => ?_⟩, single, single, single⟩
  · have := Example.twoMonitors_sigma i name sig h
    simp only [List.mem_cons, Prod.mk.injEq, List.not_mem_nil, or_false] at this
    rcases this with ⟨-, rfl, -⟩ | ⟨-, rfl, -⟩ | ⟨-, rfl, -⟩ <;> simp
  · simp [Example.twoMonitors, Dict.keys]
  · simp only [Example.twoMonitors, Dict.get?] at h
    split at h
    · cases h; simp [Dict.keys]
    · split at h
      · cases h; simp [Dict.keys]
      · cases h

theorem Example.twoMonitors_applicable : Applicable 2 Example.twoMonitors := by
  refine ⟨by norm_num, Example.twoMonitors_registered, ⟨?_, ?_, ?_⟩, ?_, fun i _ name sig h _ => ?_, ?_, ?_, ?_, ?_, ?_, ?_, ?_, ?_, ?_⟩
  · intro i hi; simp [Example.twoMonitors] at hi
  · intro i hi; simp [Example.twoMonitors] at hi
  · intro i hi; simp [Example.twoMonitors] at hi
  · intro i hi; simp [Example.twoMonitors] at hi ⊢; omega
  · have := Example.twoMonitors_sigma i name sig h
    simp only [List.mem_cons, Prod.mk.injEq, List.not_mem_nil, or_false] at this
    rcases this with ⟨-, -, rfl⟩ | ⟨-, -, rfl⟩ | ⟨-, -, rfl⟩ <;> simp [Drawable]
  · intro i hi; simp [Example.twoMonitors] at hi
  · intro i hi; simp [Example.twoMonitors] at hi
  · intro i hi; simp [Example.twoMonitors] at hi
  · intro i hi; simp [Example.twoMonitors] at hi
  · simp [Example.twoMonitors]
  · refine forward_of_all (fun i hi => ?_)
    have : i = 0 ∨ i = 1 ∨ i = 2 := by simp [Example.twoMonitors] at hi; omega
    rcases this with rfl | rfl | rfl <;> simp [Example.twoMonitors, numAt, Ring.attr, Elem.ofList, Elem.set, Elem.empty]
  · right
    simp [Example.twoMonitors, circumference, sPos, driftLength, DriftAt, numAt, Ring.attr, Elem.ofList, Elem.set, Elem.empty, List.range_succ]
    norm_num
  · intro t ht p hp
    simp only [List.mem_cons, List.not_mem_nil, or_false] at ht
    rcases ht with rfl | rfl | rfl <;> simp [Example.twoMonitors, Ords.pairs] at hp
  · intro t ht
    simp only [List.mem_cons, List.not_mem_nil, or_false] at ht
    rcases ht with rfl | rfl | rfl <;> simp [Example.twoMonitors, Ords.pairs]

-- the hypotheses are met, and there are uncertainties of the BPMs, of the injection and of the circumference
example : StandardNormal (streamLaw (gaussianReal 0 1)) (fun k (ω : ℕ → ℝ) => ω k) ∧ Tidy Example.twoMonitors.ORD ∧
    Applicable 2 Example.twoMonitors ∧ uncertaintyOf Example.twoMonitors (.bpm 0 "Offset") = some (.pair (.vec [3, 4]) 1) ∧
    uncertaintyOf Example.twoMonitors (.bpm 0 "Noise") = none ∧ uncertaintyOf Example.twoMonitors (.bpm 2 "Roll") = some (.num 2) ∧
    cutoffOf 2 Example.twoMonitors (.bpm 0 "Offset") = 1 ∧ cutoffOf 2 Example.twoMonitors (.bpm 2 "Roll") = 2 := by
  refine ⟨Example.generator, Example.twoMonitors_tidy, Example.twoMonitors_applicable, ?_, ?_, ?_, ?_, ?_⟩ <;>
    simp [cutoffOf, cutoffFor, uncertaintyOf, Example.twoMonitors, Spec.sigma, Dict.get?]

-- the cut-offs of a machine in order are not zero
example : ∀ x sig, uncertaintyOf Example.twoMonitors x = some sig → cutoffFor 2 sig ≠ 0 := cutoffFor_ne_zero Example.twoMonitors_applicable

-- there are errors which scatter: the roll of the second BPM and the second offset of the first one
example : Nonempty (Component Example.twoMonitors) ∧ ∃ c d : Component Example.twoMonitors, c ≠ d := by
  have h1 : ∃ sig, uncertaintyOf Example.twoMonitors (.bpm 2 "Roll") = some sig ∧ 0 < numbersFor sig :=
    ⟨.num 2, by simp [uncertaintyOf, Example.twoMonitors, Spec.sigma, Dict.get?], by simp [numbersFor]⟩
  have h2 : ∃ sig, uncertaintyOf Example.twoMonitors (.bpm 0 "Offset") = some sig ∧ 1 < numbersFor sig :=
    ⟨.pair (.vec [3, 4]) 1, by simp [uncertaintyOf, Example.twoMonitors, Spec.sigma, Dict.get?], by simp [numbersFor]⟩
  refine ⟨⟨⟨(.bpm 2 "Roll", 0), h1⟩⟩, ⟨(.bpm 2 "Roll", 0), h1⟩, ⟨(.bpm 0 "Offset", 1), h2⟩, fun e => ?_⟩
  have := congrArg (fun c => c.1.2) e
  simp at this

end PySC
