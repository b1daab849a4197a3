import Verif.Spec.SameLaw
import Verif.Props.ErrorLaw
import Verif.Props.Commute
import Mathlib.Probability.Independence.InfinitePi
/-
Lemmas for C111: machines with the same uncertainties have errors with the same law.
-/
namespace PySC
open Py Spec MeasureTheory ProbabilityTheory
set_option linter.unusedSectionVars false
variable {Ω : Type} [MeasurableSpace Ω] {P : Measure Ω} [IsProbabilityMeasure P]
variable {Ω' : Type} [MeasurableSpace Ω'] {P' : Measure Ω'} [IsProbabilityMeasure P']

def sizeOf (s : SC ℝ) (x : Cause) (k : Nat) : ℝ :=
  match uncertaintyOf s x with
  | some sig => sizeOfPart sig k
  | none => 0

theorem madeFrom_part {sig err : Attr ℝ} {z : Nat → ℝ} (h : MadeFrom sig err z) {k : Nat} (hk : k < numbersFor sig) :
    part (some err) k = sizeOfPart sig k * z k := by
  unfold MadeFrom at h
  split at h
  · simp only [numbersFor, Nat.lt_one_iff] at hk; subst hk; exact h
  · exact h.2 k hk
  · simp only [numbersFor, Nat.lt_one_iff] at hk; subst hk; exact h
  · exact h.2 k hk
  · exact h.elim

theorem errorOf_eq {s t : SC ℝ} {z : Cause → ℕ → ℝ} (h6 : s.SIG.staticInjectionZ.length = 6) (hs : Scalable s) (h : ErrorsMadeFrom s t z)
    (c : Component s) : errorOf s t c.1.1 c.1.2 = sizeOf s c.1.1 c.1.2 * z c.1.1 c.1.2 := by
  obtain ⟨⟨x, k⟩, sig, hu, hk⟩ := c
  simp only at hu hk ⊢
  have hz : sizeOf s x k = sizeOfPart sig k := by unfold sizeOf; rw [hu]
  rw [hz]
  cases x with
  | cavity i name =>
    simp only [uncertaintyOf] at hu
    split at hu
    · next hi =>
      obtain ⟨err, h1, h2⟩ := h.cavities i hi name sig hu
      simp only [errorOf, h1]; exact madeFrom_part h2 hk
    · cases hu
  | bpm i name =>
    simp only [uncertaintyOf] at hu
    split at hu
    · next hi =>
      obtain ⟨err, h1, h2⟩ := h.bpms i hi.1 name sig hu hi.2
      simp only [errorOf, h1]; exact madeFrom_part h2 hk
    · cases hu
  | magnet i name =>
    simp only [uncertaintyOf] at hu
    split at hu
    · next hi =>
      obtain ⟨err, h1, h2⟩ := h.magnets i hi name sig hu
      simp only [errorOf, h1]; exact madeFrom_part h2 hk
    · cases hu
  | injection =>
    simp only [uncertaintyOf, Option.some.injEq] at hu
    subst hu
    simp only [numbersFor] at hk
    simp only [errorOf, sizeOfPart, h.injection k (h6 ▸ hk)]
    ring
  | circumference =>
    simp only [uncertaintyOf, Option.some.injEq] at hu
    subst hu
    simp only [numbersFor, Nat.lt_one_iff] at hk
    subst hk
    simp only [errorOf, sizeOfPart, h.circumference hs.1]
    rw [mul_div_cancel_right₀ _ hs.2]
    ring

/-- independent variables with the same laws have the same joint law -/
theorem Spec.IndependentWithLaws.joint {ι : Type} {X : ι → Ω → ℝ} {Y : ι → Ω' → ℝ} {μ : ι → Measure ℝ} (h : IndependentWithLaws P X μ)
    (h' : IndependentWithLaws P' Y μ) : P.map (fun ω i => X i ω) = P'.map (fun ω i => Y i ω) := by
  rw [h.independent.map_fun_eq_infinitePi_map h.measurable, h'.independent.map_fun_eq_infinitePi_map h'.measurable]
  simp only [h.law, h'.law]

/-- the errors are almost surely the uncertainties times the numbers of `C96` -/
theorem errors_are (E : Env ℝ) {X : ℕ → Ω → ℝ} (hX : StandardNormal P X) {n : ℝ} {s : SC ℝ} (ht : Tidy s.ORD) (h : Applicable n s)
    (hs : Scalable s) {e : Cause → ℕ → Ω → ℝ} (he : ErrorsOf P E X n s e) :
    ∃ Z : Cause → ℕ → Ω → ℝ, IndependentWithLaws P (fun c : Component s => Z c.1.1 c.1.2) (fun c => truncatedNormal (cutoffOf n s c.1.1)) ∧
      (fun ω (c : Component s) => e c.1.1 c.1.2 ω) =ᵐ[P] fun ω c => sizeOf s c.1.1 c.1.2 * Z c.1.1 c.1.2 ω := by
  obtain ⟨Z, h1, h2⟩ := C96_law E hX n s ht h.registered h.injection.1 h.cutOff (cutoffFor_ne_zero h)
  refine ⟨Z, h1, ?_⟩
  filter_upwards [he] with ω hω
  obtain ⟨p, t, hp, hc⟩ := hω
  funext c
  rw [hc c, errorOf_eq h.injection.1 hs (h2 ω p t (hp p (le_refl _)))]

theorem errors_joint (E E' : Env ℝ) {X : ℕ → Ω → ℝ} {Y : ℕ → Ω' → ℝ} (hX : StandardNormal P X) (hY : StandardNormal P' Y) {n : ℝ} {s t : SC ℝ}
    (hs : Tidy s.ORD) (ht : Tidy t.ORD) (has : Applicable n s) (hat : Applicable n t) (hss : Scalable s) (hst : Scalable t)
    (hU : uncertaintyOf s = uncertaintyOf t) {e : Cause → ℕ → Ω → ℝ} {e' : Cause → ℕ → Ω' → ℝ} (he : ErrorsOf P E X n s e)
    (he' : ErrorsOf P' E' Y n t e') :
    P.map (fun ω (c : Component s) => e c.1.1 c.1.2 ω) = P'.map (fun ω (c : Component s) => e' c.1.1 c.1.2 ω) := by
  obtain ⟨Z, h1, h2⟩ := errors_are E hX hs has hss he
  obtain ⟨Z', h1', h2'⟩ := errors_are E' hY ht hat hst he'
  unfold Component at *
  have e1 : sizeOf s = sizeOf t := by funext x k; simp only [sizeOf, hU]
  have e2 : cutoffOf n s = cutoffOf n t := by funext x; simp only [cutoffOf, hU]
  rw [← hU, ← e1] at h2'
  rw [← hU, ← e2] at h1'
  rw [Measure.map_congr h2, Measure.map_congr h2']
  have hm : Measurable (fun (z : {p : Cause × ℕ // ∃ sig, uncertaintyOf s p.1 = some sig ∧ p.2 < numbersFor sig} → ℝ) c =>
    sizeOf s c.1.1 c.1.2 * z c) := measurable_pi_iff.2 (fun c => (measurable_pi_apply c).const_mul _)
  have a := Measure.map_map (μ := P) hm (measurable_pi_iff.2 h1.measurable)
  have b := Measure.map_map (μ := P') hm (measurable_pi_iff.2 h1'.measurable)
  have j := h1.joint h1'
  calc _ = _ := a.symm
    _ = _ := by rw [j]
    _ = _ := b

/-! ### keywords in another order -/

theorem Dict.get?_perm {κ v : Type _} [DecidableEq κ] {d e : Dict κ v} (hd : d.keys.Nodup) (hp : d.Perm e) (k : κ) : d.get? k = e.get? k := by
  have he : e.keys.Nodup := (hp.map Prod.fst).nodup_iff.1 hd
  cases h : d.get? k with
  | none =>
    symm
    rw [Dict.get?_eq_none_iff] at h ⊢
    exact fun hm => h ((hp.map Prod.fst).mem_iff.2 hm)
  | some x =>
    have hk : k ∈ d.keys := Dict.get?_isSome_iff.1 (by rw [h]; rfl)
    obtain ⟨⟨k', y⟩, hm, rfl⟩ := List.mem_map.1 hk
    have := Dict.get?_of_mem hd hm
    rw [this] at h
    cases h
    exact (Dict.get?_of_mem he (hp.mem_iff.1 hm)).symm

theorem Dict.has_perm {κ v : Type _} [DecidableEq κ] {d e : Dict κ v} (hp : d.Perm e) (k : κ) : d.has k = e.has k := by
  unfold Dict.has
  exact decide_eq_decide.2 (hp.map Prod.fst).mem_iff

structure SigLike (s t : SC ℝ) : Prop where
  bpms : s.ORD.BPM = t.ORD.BPM
  cavities : s.ORD.RF = t.ORD.RF
  magnets : s.ORD.Magnet = t.ORD.Magnet
  bpm : ∀ i n, sigma s.SIG.BPM i n = sigma t.SIG.BPM i n
  rf : ∀ i n, sigma s.SIG.RF i n = sigma t.SIG.RF i n
  magnet : ∀ i n, sigma s.SIG.Magnet i n = sigma t.SIG.Magnet i n
  static : s.SIG.staticInjectionZ = t.SIG.staticInjectionZ
  circ : s.SIG.Circumference = t.SIG.Circumference

theorem SigLike.uncertainties {s t : SC ℝ} (h : SigLike s t) (x : Cause) : uncertaintyOf s x = uncertaintyOf t x := by
  cases x <;> simp only [uncertaintyOf, h.bpms, h.cavities, h.magnets, h.bpm, h.rf, h.magnet, h.static, h.circ]

theorem sameCall_step {c c' : RegCall ℝ} (hc : SameCall c c') {s t s' t' : SC ℝ} (h : SigLike s t) (h1 : c.run s = .ok () s')
    (h2 : c'.run t = .ok () t') : SigLike s' t' := by
  obtain ⟨a1, a2, a3, a4, a5, a6, a7, a8⟩ := h
  cases hc with
  | @bpms o kw kw' hk hp =>
    have hk' : kw'.keys.Nodup := (hp.map Prod.fst).nodup_iff.1 hk
    obtain ⟨m, g, -⟩ := C03_bpms o kw hk s s' h1
    obtain ⟨m', g', -⟩ := C03_bpms o kw' hk' t t' h2
    have o1 := registerBpms_ord o kw s
    have o2 := registerBpms_ord o kw' t
    simp only [RegCall.run] at h1 h2
    rw [h1] at o1; rw [h2] at o2
    simp only [reduceCtorEq, exists_false, false_or, Res.state] at o1 o2
    refine ⟨by rw [o1, o2]; simp only [a1], by rw [o1, o2]; exact a2, by rw [o1, o2]; exact a3, fun i n => ?_, ?_, ?_, ?_, ?_⟩
    · rw [m.2, m'.2, a4]; simp only [Dict.get?_perm hk hp]
    all_goals rw [g, g']; assumption
  | @cavities o kw kw' hk hp =>
    have hk' : kw'.keys.Nodup := (hp.map Prod.fst).nodup_iff.1 hk
    obtain ⟨m, g, -⟩ := C03_cavities o kw hk s s' h1
    obtain ⟨m', g', -⟩ := C03_cavities o kw' hk' t t' h2
    have o1 := registerCavities_ord o kw s
    have o2 := registerCavities_ord o kw' t
    simp only [RegCall.run] at h1 h2
    rw [h1] at o1; rw [h2] at o2
    simp only [reduceCtorEq, exists_false, false_or, Res.state] at o1 o2
    refine ⟨by rw [o1, o2]; exact a1, by rw [o1, o2]; simp only [a2], by rw [o1, o2]; exact a3, ?_, fun i n => ?_, ?_, ?_, ?_⟩
    rotate_left
    · rw [m.2, m'.2, a5]; simp only [Dict.get?_perm hk hp]
    all_goals rw [g, g']; assumption
  | @magnets o kw kw' hk hp =>
    have hk' : kw'.keys.Nodup := (hp.map Prod.fst).nodup_iff.1 hk
    obtain ⟨m, g, -⟩ := C03_magnets o kw hk s s' h1
    obtain ⟨m', g', -⟩ := C03_magnets o kw' hk' t t' h2
    have o1 := registerMagnets_ord o kw s
    have o2 := registerMagnets_ord o kw' t
    simp only [RegCall.run] at h1 h2
    rw [h1] at o1; rw [h2] at o2
    simp only [reduceCtorEq, exists_false, false_or, Res.state] at o1 o2
    refine ⟨by rw [o1, o2]; exact a1, by rw [o1, o2]; exact a2, by rw [o1, o2]; simp only [magnetOrds, a3], ?_, ?_, fun i n => ?_, ?_, ?_⟩
    rotate_left 2
    · rw [m.2, m'.2, a6]; simp only [Dict.get?_perm hk hp]
    all_goals rw [g, g']; assumption
  | supports rows u kw kw' =>
    have f1 := (registerSupports_sigFrame rows u kw).ok h1
    have f2 := (registerSupports_sigFrame rows u kw').ok h2
    have ord : ∀ {s s' : SC ℝ} {kw}, registerSupports rows u kw s = .ok () s' → s'.ORD.BPM = s.ORD.BPM ∧ s'.ORD.RF = s.ORD.RF ∧ s'.ORD.Magnet = s.ORD.Magnet := by
      intro s s' kw h
      rcases registerSupports_shape rows u kw s with ⟨e, he⟩ | ⟨-, -, -, new, -, he⟩
      · rw [he] at h; cases h
      have ho := supportLoops_ord rows u kw { s with ORD := s.ORD.setPairs u new }
      rw [← he, h] at ho
      simp only [Res.state] at ho
      rw [ho]
      have := Ords.setPairs_other (o := s.ORD) (t := u) (v := new)
      exact ⟨this.1, this.2.1, this.2.2.1⟩
    obtain ⟨b1, b2, b3⟩ := ord h1
    obtain ⟨c1, c2, c3⟩ := ord h2
    exact ⟨by rw [b1, c1, a1], by rw [b2, c2, a2], by rw [b3, c3, a3], by rw [f1.bpm, f2.bpm]; exact a4, by rw [f1.rf, f2.rf]; exact a5,
      by rw [f1.magnet, f2.magnet]; exact a6, by rw [f1.static, f2.static]; exact a7, by rw [f1.circ, f2.circ]; exact a8⟩

theorem sameCalls_sigLike {l l' : List (RegCall ℝ)} (hl : List.Forall₂ SameCall l l') : ∀ {s t s' t' : SC ℝ}, SigLike s t →
    registerAll l s = .ok () s' → registerAll l' t = .ok () t' → SigLike s' t' := by
  induction hl with
  | nil =>
    intro s t s' t' h h1 h2
    cases h1; cases h2
    exact h
  | cons hc _ ih =>
    intro s t s' t' h h1 h2
    unfold registerAll at h1 h2
    rw [forEach_cons, bind_eq_ok] at h1 h2
    obtain ⟨⟨⟩, s1, g1, h1⟩ := h1
    obtain ⟨⟨⟩, t1, g2, h2⟩ := h2
    exact ih (sameCall_step hc h g1 g2) h1 h2

end PySC
