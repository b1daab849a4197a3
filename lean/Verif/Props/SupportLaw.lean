import Verif.Lemmas.SupportLaw
import Verif.Props.ErrorLaw
/-
C107: the law of the misalignments of supports.
-/
namespace PySC
open Py Spec MeasureTheory ProbabilityTheory Filter Topology
set_option linter.unusedSectionVars false
variable {Ω : Type} [MeasurableSpace Ω] {P : Measure Ω} [IsProbabilityMeasure P]

/-- **C107**: with a generator of independent standard normal numbers, the offsets and angles which `apply_errors` gives to sections, plinths and
girders are made from their uncertainties and random numbers, one for each component of each uncertainty.  These numbers and those behind the errors of
cavities, BPMs, magnets, injection and circumference (C96) are independent of each other.  Each of them has the standard normal law given that its
magnitude is within the cut-off of its uncertainty. -/
theorem C107_law (E : Env ℝ) {X : ℕ → Ω → ℝ} (hX : StandardNormal P X) (nsigmas : ℝ) (s : SC ℝ) (ht : Tidy s.ORD) (hw : WellRegistered s.SIG)
    (hA : ∀ t ∈ ["Section", "Plinth", "Girder"], (s.ORD.pairs t).Pairwise EndsApart) (h6 : s.SIG.staticInjectionZ.length = 6) (hn : nsigmas ≠ 0)
    (hc : ∀ x sig, uncertaintyBehind s x = some sig → cutoffFor nsigmas sig ≠ 0) :
    ∃ Z : Origin → ℕ → Ω → ℝ,
      IndependentWithLaws P (fun c : OriginComponent s => Z c.1.1 c.1.2) (fun c => truncatedNormal (cutoffBehind nsigmas s c.1.1)) ∧
      ∀ ω fuel s', applyErrors { E with randn := fun k => X k ω, fuel := fuel } nsigmas s = .ok () s' →
        ErrorsMadeFrom s s' (fun x k => Z (.inl x) k ω) ∧ SupportsMadeFrom s s' (fun x k => Z (.inr x) k ω) :=
  applyErrors_wholeLaw E hX nsigmas s ht hw hA h6 hn hc

theorem cutoffBehind_ne_zero {n : ℝ} {s : SC ℝ} (h : Applicable n s) (x : Origin) (sig : Attr ℝ) (hs : uncertaintyBehind s x = some sig) :
    cutoffFor n sig ≠ 0 := by
  cases x with
  | inl x => exact cutoffFor_ne_zero h x sig hs
  | inr x =>
    change supportUncertainty s x = some sig at hs
    unfold supportUncertainty at hs
    split at hs
    · rename_i hx
      obtain ⟨a, ha, e⟩ : ∃ a ∈ ["Offset", "Roll"], x.name = x.type ++ a := by
        rcases List.mem_cons.1 hx.2.2.1 with e | e
        · exact ⟨"Offset", by simp, e⟩
        · exact ⟨"Roll", by simp, List.mem_singleton.1 e⟩
      rw [e] at hs
      have hd := ((h.supports x.type hx.1 x.support hx.2.1).uncertainty a ha sig hs).1
      cases sig with
      | pair v c =>
        cases v with
        | num _ => exact hd
        | vec _ => exact hd
        | _ => exact hd.elim
      | _ => exact h.cutOff
    · cases hs

/-- **C107**: on a machine in order, whose transformations can be computed, `apply_errors` almost surely succeeds, and all its errors, those of supports
included, have this law. -/
theorem C107_machines_in_order (E : Env ℝ) {X : ℕ → Ω → ℝ} (hX : StandardNormal P X)
    (hT : ∀ len theta dx dy dz pitch yaw roll, ∃ T, E.transform len theta [dx, dy, dz] [pitch, yaw, roll] = .ok T)
    (nsigmas : ℝ) (s : SC ℝ) (ht : Tidy s.ORD) (h : Applicable nsigmas s) :
    ∃ Z : Origin → ℕ → Ω → ℝ,
      IndependentWithLaws P (fun c : OriginComponent s => Z c.1.1 c.1.2) (fun c => truncatedNormal (cutoffBehind nsigmas s c.1.1)) ∧
      ∀ᵐ ω ∂P, ∃ passes t, (∀ f, passes ≤ f → applyErrors { E with randn := fun k => X k ω, fuel := f } nsigmas s = .ok () t) ∧
        ErrorsMadeFrom s t (fun x k => Z (.inl x) k ω) ∧ SupportsMadeFrom s t (fun x k => Z (.inr x) k ω) := by
  obtain ⟨Z, h1, h2⟩ := C107_law E hX nsigmas s ht h.registered h.apart h.injection.1 h.cutOff (cutoffBehind_ne_zero h)
  refine ⟨Z, h1, ?_⟩
  filter_upwards [standardNormal_keepsDrawing E hX] with ω hω
  obtain ⟨passes, t, hp⟩ := C86_succeeds { E with randn := fun k => X k ω } hω hT nsigmas s h
  exact ⟨passes, t, hp, h2 ω passes t (hp passes (le_refl _))⟩

/-- **C107**: a support with uncertainties of its start only is displaced as a whole, without being tilted, if it has no angle errors: both ends get the
same offset. -/
theorem C107_rigid (s s' : SC ℝ) (z : SupportDraw → ℕ → ℝ) (t : String) (p : Nat × Nat) (h : SupportMadeFrom s s' z t p)
    {sig : Attr ℝ} (hs : sigma s.SIG.Support p.1 (t ++ "Offset") = some sig) (he : sigma s.SIG.Support p.2 (t ++ "Offset") = none)
    (h1 : drawnAt s z t p (t ++ "Roll") false 1 = 0) (h2 : drawnAt s z t p (t ++ "Roll") false 2 = 0) :
    (∀ k < 3, coef (vecAt s'.RING p.1 (t ++ "Offset")) k = sigmaComponent sig k * z ⟨t, p, t ++ "Offset", false⟩ k ∧
      coef (vecAt s'.RING p.2 (t ++ "Offset")) k = coef (vecAt s'.RING p.1 (t ++ "Offset")) k) ∧
    coef (vecAt s'.RING p.1 (t ++ "Roll")) 1 = 0 ∧ coef (vecAt s'.RING p.1 (t ++ "Roll")) 2 = 0 := by
  have hd : ∀ b k, drawnAt s z t p (t ++ "Offset") b k = sigmaComponent sig k * z ⟨t, p, t ++ "Offset", false⟩ k := by
    intro b k
    have hb : endHas s p (t ++ "Offset") = false := by unfold endHas; rw [he]; rfl
    unfold drawnAt
    rw [hs, hb, Bool.and_false]
  have V := h.vertical
  have W := h.horizontal
  have L := h.longitudinal
  unfold Tilted at V W
  rw [if_pos h1, hd, hd, sub_self, zero_div] at V
  rw [if_pos h2, hd, hd, sub_self, zero_div] at W
  rw [hd, hd] at L
  refine ⟨fun k hk => ?_, V.1, W.1⟩
  have : k = 0 ∨ k = 1 ∨ k = 2 := by omega
  rcases this with rfl | rfl | rfl
  · exact ⟨W.2.1, W.2.2.trans W.2.1.symm⟩
  · exact ⟨V.2.1, V.2.2.trans V.2.1.symm⟩
  · exact ⟨L.1, L.2.trans L.1.symm⟩

/-- **C107**: if both ends of a support have offset uncertainties, their offsets are made from numbers of their own, and pitch and yaw are those of the
line through the ends. -/
theorem C107_two_ends (s s' : SC ℝ) (z : SupportDraw → ℕ → ℝ) (t : String) (p : Nat × Nat) (h : SupportMadeFrom s s' z t p)
    {sig sig' : Attr ℝ} (hs : sigma s.SIG.Support p.1 (t ++ "Offset") = some sig) (he : sigma s.SIG.Support p.2 (t ++ "Offset") = some sig')
    (h1 : drawnAt s z t p (t ++ "Roll") false 1 = 0) (h2 : drawnAt s z t p (t ++ "Roll") false 2 = 0) :
    (∀ k < 3, coef (vecAt s'.RING p.1 (t ++ "Offset")) k = sigmaComponent sig k * z ⟨t, p, t ++ "Offset", false⟩ k ∧
      coef (vecAt s'.RING p.2 (t ++ "Offset")) k = sigmaComponent sig k * z ⟨t, p, t ++ "Offset", true⟩ k) ∧
    coef (vecAt s'.RING p.1 (t ++ "Roll")) 1 =
      sigmaComponent sig 1 * (z ⟨t, p, t ++ "Offset", true⟩ 1 - z ⟨t, p, t ++ "Offset", false⟩ 1) / span s'.RING p ∧
    coef (vecAt s'.RING p.1 (t ++ "Roll")) 2 =
      sigmaComponent sig 0 * (z ⟨t, p, t ++ "Offset", true⟩ 0 - z ⟨t, p, t ++ "Offset", false⟩ 0) / span s'.RING p := by
  have hd : ∀ b k, drawnAt s z t p (t ++ "Offset") b k = sigmaComponent sig k * z ⟨t, p, t ++ "Offset", b⟩ k := by
    intro b k
    have hb : endHas s p (t ++ "Offset") = true := by unfold endHas; rw [he]; rfl
    unfold drawnAt
    rw [hs, hb, Bool.and_true]
  have V := h.vertical
  have W := h.horizontal
  have L := h.longitudinal
  unfold Tilted at V W
  rw [if_pos h1, hd, hd, ← mul_sub] at V
  rw [if_pos h2, hd, hd, ← mul_sub] at W
  rw [hd, hd] at L
  refine ⟨fun k hk => ?_, V.1, W.1⟩
  have : k = 0 ∨ k = 1 ∨ k = 2 := by omega
  rcases this with rfl | rfl | rfl
  · exact W.2
  · exact V.2
  · exact L

/-! ### a machine -/

/-- a girder of length 3 whose ends have offset uncertainties, with a cut-off of their own, and a plinth of length 1 with uncertainties of its start only -/
noncomputable def Example.twoSupports : SC ℝ where
  RING := [Elem.ofList [("GirderOffset", .vec [0, 0, 0]), ("GirderRoll", .vec [0, 0, 0])],
    Elem.ofList [("PassMethod", .str "DriftPass"), ("Length", .num 3)],
    Elem.ofList [("GirderOffset", .vec [0, 0, 0]), ("GirderRoll", .vec [0, 0, 0]), ("PlinthOffset", .vec [0, 0, 0]), ("PlinthRoll", .vec [0, 0, 0])],
    Elem.ofList [("PassMethod", .str "DriftPass"), ("Length", .num 1)],
    Elem.ofList [("PlinthOffset", .vec [0, 0, 0]), ("PlinthRoll", .vec [0, 0, 0])]]
  IDEALRING := []
  INJ := ⟨1, [0, 0, 0, 0, 0, 0], [0, 0, 0, 0, 0, 0], [], [], [], 1, 1, 1, "TBT"⟩
  SIG := ⟨[], [], [], [(0, [("GirderOffset", .pair (.vec [3, 4, 5]) 1)]), (2, [("GirderOffset", .vec [1, 1, 1]), ("PlinthOffset", .vec [1, 2, 3]),
    ("PlinthRoll", .vec [1, 0, 0])]), (4, [])], [], [1, 1, 2, 2, 0, 5], 1 / 10⟩
  ORD := ⟨[], [], [], [], [], [], [(0, 2)], [(2, 4)], []⟩
  rng := 0

theorem Example.twoSupports_sigma : ∀ i name sig, Spec.sigma Example.twoSupports.SIG.Support i name = some sig →
    (i, name, sig) ∈ [(0, "GirderOffset", .pair (.vec [3, 4, 5]) 1), (2, "GirderOffset", .vec [1, 1, 1]), (2, "PlinthOffset", .vec [1, 2, 3]),
      (2, "PlinthRoll", Attr.vec ([1, 0, 0] : List ℝ))] :=
  sigma_forall (d := Example.twoSupports.SIG.Support) (P := fun i name sig => (i, name, sig) ∈
    [(0, "GirderOffset", .pair (.vec [3, 4, 5]) 1), (2, "GirderOffset", .vec [1, 1, 1]), (2, "PlinthOffset", .vec [1, 2, 3]),
      (2, "PlinthRoll", Attr.vec ([1, 0, 0] : List ℝ))]) (by simp [Example.twoSupports])

theorem Example.twoSupports_registered : WellRegistered Example.twoSupports.SIG := by
  have none : ∀ i name (sig : Attr ℝ), Spec.sigma ([] : Dict Nat (Dict String (Attr ℝ))) i name = some sig → False := by
    intro i name sig h; simp [Spec.sigma, Dict.get?] at h
  have single : SingleEntries ([] : Dict Nat (Dict String (Attr ℝ))) := ⟨List.nodup_nil, fun i e h => by simp [Dict.get?] at h⟩
  refine ⟨fun i name sig h => (none _ _ _ h).elim, fun i name sig h => (none _ _ _ h).elim, fun i name sig h => (none _ _ _ h).elim,
    fun i name sig h => ?_, single, single, single, ⟨?_, fun i e h => ?_⟩⟩
  · have := Example.twoSupports_sigma i name sig h
    simp only [List.mem_cons, Prod.mk.injEq, List.not_mem_nil, or_false] at this
    rcases this with ⟨-, rfl, -⟩ | ⟨-, rfl, -⟩ | ⟨-, rfl, -⟩ | ⟨-, rfl, -⟩ <;> simp
  · simp [Example.twoSupports, Dict.keys]
  · simp only [Example.twoSupports, Dict.get?] at h
    split at h
    · cases h; simp [Dict.keys]
    · split at h
      · cases h; simp [Dict.keys]
      · split at h
        · cases h; simp [Dict.keys]
        · cases h

theorem Example.twoSupports_tidy : Tidy Example.twoSupports.ORD := by
  refine ⟨?_, ?_, ?_, ?_, ?_, ?_⟩ <;> simp [Example.twoSupports, Increasing]

theorem Example.twoSupports_supports : ∀ t ∈ ["Section", "Plinth", "Girder"], ∀ p ∈ Example.twoSupports.ORD.pairs t,
    SupportInOrder Example.twoSupports t p := by
  intro t ht p hp
  simp only [List.mem_cons, List.not_mem_nil, or_false] at ht
  rcases ht with rfl | rfl | rfl
  · simp [Example.twoSupports, Ords.pairs] at hp
  · obtain rfl : p = (2, 4) := by simpa [Example.twoSupports, Ords.pairs] using hp
    refine ⟨by simp [Example.twoSupports], by simp [Example.twoSupports], ⟨0, 0, 0, ?_⟩, ⟨0, 0, 0, ?_⟩, ⟨0, 0, 0, ?_⟩, ?_, ?_, ?_, ⟨3, ?_⟩, ⟨1, ?_⟩⟩
    · simp [Example.twoSupports, Ring.attr, Elem.ofList, Elem.set]
    · simp [Example.twoSupports, Ring.attr, Elem.ofList, Elem.set]
    · simp [Example.twoSupports, Ring.attr, Elem.ofList, Elem.set]
    · simp [Example.twoSupports, Dict.keys]
    · intro a ha sig hs
      have := Example.twoSupports_sigma _ _ _ hs
      simp only [List.mem_cons, List.not_mem_nil, or_false] at ha
      rcases ha with rfl | rfl <;> simp at this <;> subst this <;> simp [Drawable, uncertainties]
    · simp [Example.twoSupports, Spec.sigma, Dict.get?]
    · simp [Example.twoSupports, numAt, Ring.attr, Elem.ofList, Elem.set, Elem.empty]
    · simp [Example.twoSupports, numAt, Ring.attr, Elem.ofList, Elem.set, Elem.empty]
  · obtain rfl : p = (0, 2) := by simpa [Example.twoSupports, Ords.pairs] using hp
    refine ⟨by simp [Example.twoSupports], by simp [Example.twoSupports], ⟨0, 0, 0, ?_⟩, ⟨0, 0, 0, ?_⟩, ⟨0, 0, 0, ?_⟩, ?_, ?_, ?_, ⟨1, ?_⟩, ⟨3, ?_⟩⟩
    · simp [Example.twoSupports, Ring.attr, Elem.ofList, Elem.set]
    · simp [Example.twoSupports, Ring.attr, Elem.ofList, Elem.set]
    · simp [Example.twoSupports, Ring.attr, Elem.ofList, Elem.set]
    · simp [Example.twoSupports, Dict.keys]
    · intro a ha sig hs
      have := Example.twoSupports_sigma _ _ _ hs
      simp only [List.mem_cons, List.not_mem_nil, or_false] at ha
      rcases ha with rfl | rfl <;> simp at this <;> subst this <;> simp [Drawable, uncertainties]
    · simp [Example.twoSupports, Spec.sigma, Dict.get?, vecAt, Ring.attr, Elem.ofList, Elem.set, coef]
    · simp [Example.twoSupports, numAt, Ring.attr, Elem.ofList, Elem.set, Elem.empty]
    · simp [Example.twoSupports, numAt, Ring.attr, Elem.ofList, Elem.set, Elem.empty]

theorem Example.twoSupports_applicable : Applicable 2 Example.twoSupports := by
  refine ⟨by norm_num, Example.twoSupports_registered, ⟨?_, ?_, ?_⟩, ?_, ?_, ?_, ?_, ?_, ?_, ?_, ?_, ?_, Example.twoSupports_supports, ?_⟩
  · intro i hi; simp [Example.twoSupports] at hi
  · intro i hi; simp [Example.twoSupports] at hi
  · intro i hi; simp [Example.twoSupports] at hi
  · intro i hi; simp [Example.twoSupports] at hi
  · intro i hi; simp [Example.twoSupports] at hi
  · intro i hi; simp [Example.twoSupports] at hi
  · intro i hi; simp [Example.twoSupports] at hi
  · intro i hi; simp [Example.twoSupports] at hi
  · intro i hi; simp [Example.twoSupports] at hi
  · simp [Example.twoSupports]
  · refine forward_of_all (fun i hi => ?_)
    have : i = 0 ∨ i = 1 ∨ i = 2 ∨ i = 3 ∨ i = 4 := by simp [Example.twoSupports] at hi; omega
    rcases this with rfl | rfl | rfl | rfl | rfl <;> simp [Example.twoSupports, numAt, Ring.attr, Elem.ofList, Elem.set, Elem.empty]
  · right
    simp [Example.twoSupports, circumference, sPos, driftLength, DriftAt, numAt, Ring.attr, Elem.ofList, Elem.set, Elem.empty, List.range_succ]
    norm_num
  · intro t ht
    simp only [List.mem_cons, List.not_mem_nil, or_false] at ht
    rcases ht with rfl | rfl | rfl <;> simp [Example.twoSupports, Ords.pairs]

-- the hypotheses are met; there are numbers for both ends of the girder and for the start of the plinth only, with the right cut-offs
example : StandardNormal (streamLaw (gaussianReal 0 1)) (fun k (ω : ℕ → ℝ) => ω k) ∧ Tidy Example.twoSupports.ORD ∧
    Applicable 2 Example.twoSupports ∧
    supportUncertainty Example.twoSupports ⟨"Girder", (0, 2), "GirderOffset", false⟩ = some (.pair (.vec [3, 4, 5]) 1) ∧
    supportUncertainty Example.twoSupports ⟨"Girder", (0, 2), "GirderOffset", true⟩ = some (.pair (.vec [3, 4, 5]) 1) ∧
    supportUncertainty Example.twoSupports ⟨"Plinth", (2, 4), "PlinthRoll", false⟩ = some (.vec [1, 0, 0]) ∧
    supportUncertainty Example.twoSupports ⟨"Plinth", (2, 4), "PlinthRoll", true⟩ = none ∧
    cutoffBehind 2 Example.twoSupports (.inr ⟨"Girder", (0, 2), "GirderOffset", true⟩) = 1 ∧
    cutoffBehind 2 Example.twoSupports (.inr ⟨"Plinth", (2, 4), "PlinthRoll", false⟩) = 2 := by
  refine ⟨Example.generator, Example.twoSupports_tidy, Example.twoSupports_applicable, ?_, ?_, ?_, ?_, ?_, ?_⟩ <;>
    simp [cutoffBehind, uncertaintyBehind, cutoffFor, supportUncertainty, endHas, Example.twoSupports, Spec.sigma, Dict.get?, Ords.pairs]

-- the plinth is displaced as a whole, and the pitch of the girder is that of the line through its ends
example (E : Env ℝ) (hT : ∀ len theta dx dy dz pitch yaw roll, ∃ T, E.transform len theta [dx, dy, dz] [pitch, yaw, roll] = .ok T) :
    ∃ Z : SupportDraw → ℕ → (ℕ → ℝ) → ℝ, ∀ᵐ ω ∂(streamLaw (gaussianReal 0 1)), ∃ passes t,
      applyErrors { E with randn := fun k => ω k, fuel := passes } 2 Example.twoSupports = .ok () t ∧
      coef (vecAt t.RING 2 "PlinthOffset") 1 = 2 * Z ⟨"Plinth", (2, 4), "PlinthOffset", false⟩ 1 ω ∧
      coef (vecAt t.RING 4 "PlinthOffset") 1 = coef (vecAt t.RING 2 "PlinthOffset") 1 ∧
      coef (vecAt t.RING 0 "GirderRoll") 1 = 4 * (Z ⟨"Girder", (0, 2), "GirderOffset", true⟩ 1 ω - Z ⟨"Girder", (0, 2), "GirderOffset", false⟩ 1 ω) /
        span t.RING (0, 2) := by
  obtain ⟨Z, -, h⟩ := C107_machines_in_order E Example.generator hT 2 Example.twoSupports Example.twoSupports_tidy Example.twoSupports_applicable
  refine ⟨fun x => Z (.inr x), ?_⟩
  filter_upwards [h] with ω hω
  obtain ⟨passes, t, h1, -, h2⟩ := hω
  have a := h2 "Plinth" (by simp) (2, 4) (by simp [Example.twoSupports, Ords.pairs]) (by simp) (by simp [Example.twoSupports, Dict.keys])
  have b := h2 "Girder" (by simp) (0, 2) (by simp [Example.twoSupports, Ords.pairs]) (by simp) (by simp [Example.twoSupports, Dict.keys])
  obtain ⟨c, -⟩ := C107_rigid _ _ _ _ _ a (sig := .vec [1, 2, 3]) (by simp [Example.twoSupports, Spec.sigma, Dict.get?])
    (by simp [Example.twoSupports, Spec.sigma, Dict.get?])
    (by simp [drawnAt, Example.twoSupports, Spec.sigma, Dict.get?, sigmaComponent, coef])
    (by simp [drawnAt, Example.twoSupports, Spec.sigma, Dict.get?, sigmaComponent, coef])
  obtain ⟨-, d, -⟩ := C107_two_ends _ _ _ _ _ b (sig := .pair (.vec [3, 4, 5]) 1) (sig' := .vec [1, 1, 1])
    (by simp [Example.twoSupports, Spec.sigma, Dict.get?]) (by simp [Example.twoSupports, Spec.sigma, Dict.get?])
    (by simp [drawnAt, Example.twoSupports, Spec.sigma, Dict.get?, vecAt, Ring.attr, Elem.ofList, Elem.set, coef])
    (by simp [drawnAt, Example.twoSupports, Spec.sigma, Dict.get?, vecAt, Ring.attr, Elem.ofList, Elem.set, coef])
  exact ⟨passes, t, h1 passes (le_refl _), by simpa [sigmaComponent, coef] using (c 1 (by omega)).1, (c 1 (by omega)).2,
    by simpa [sigmaComponent, coef] using d⟩

end PySC
