import Verif.Lemmas.Scaling
import Verif.Props.Applicable
/-
C103: errors are in proportion to the uncertainties.
-/
namespace PySC
set_option linter.unusedSectionVars false
open Py Spec

section general
variable {K : Type} [Field K] [LinearOrder K] [FloorRing K]

/-- **C103**: with the same random numbers, a machine whose uncertainties are all `c` times as large gets `c` times the errors, at every
BPM, cavity, magnet and support and at injection, and uses up equally many random numbers. -/
theorem C103_proportional (c : K) (E : Env K) (nsigmas : K) (s s' t' : SC K) (hw : WellRegistered s.SIG) (h0 : WithoutErrors s)
    (h1 : applyErrors E nsigmas s = .ok () s')
    (h2 : applyErrors E nsigmas { s with SIG := scaleSigmas (fun _ _ => c) c s.SIG } = .ok () t') :
    ScaledErrors (fun _ _ => c) c s' t' ∧ s'.rng = t'.rng :=
  applyErrors_scaled (fun _ _ _ => rfl) E nsigmas hw h0 h1 h2

/-- **C103**: the uncertainties of BPMs, cavities and magnets may also be changed one by one, each by a factor of its own: every error
then changes by the factor of its own uncertainty.  Supports have one factor in common, because they are connected. -/
theorem C103_one_by_one (F : Nat → String → K) (c : K) (hF : ∀ i, ∀ a ∈ supportErrorNames, F i a = c) (E : Env K) (nsigmas : K)
    (s s' t' : SC K) (hw : WellRegistered s.SIG) (h0 : WithoutErrors s) (h1 : applyErrors E nsigmas s = .ok () s')
    (h2 : applyErrors E nsigmas { s with SIG := scaleSigmas F c s.SIG } = .ok () t') :
    ScaledErrors F c s' t' ∧ s'.rng = t'.rng :=
  applyErrors_scaled hF E nsigmas hw h0 h1 h2

theorem scaleAttr_one (v : Attr K) : scaleAttr 1 v = v := by
  induction v with
  | pair v k ih => simp [scaleAttr, ih]
  | vec v => simp [scaleAttr]
  | num v => simp [scaleAttr]
  | _ => rfl

/-- **C103**: in particular the error of no other element, and no other error of the same element, depends on how large one uncertainty
of a BPM, a cavity or a magnet is. -/
theorem C103_others_unchanged (j : Nat) (b : String) (hb : b ∉ supportErrorNames) (c : K) (E : Env K) (nsigmas : K) (s s' t' : SC K)
    (hw : WellRegistered s.SIG) (h0 : WithoutErrors s) (h1 : applyErrors E nsigmas s = .ok () s')
    (h2 : applyErrors E nsigmas { s with SIG := scaleSigmas (fun i a => if i = j ∧ a = b then c else 1) 1 s.SIG } = .ok () t') :
    (∀ i, ∀ a ∈ errorNames, ¬ (i = j ∧ a = b) → t'.RING.attr i a = s'.RING.attr i a) ∧
    (b ∈ errorNames → t'.RING.attr j b = (s'.RING.attr j b).map (scaleAttr c)) ∧ s'.rng = t'.rng := by
  obtain ⟨h, hr⟩ := applyErrors_scaled (F := fun i a => if i = j ∧ a = b then c else 1) (c := 1)
    (fun i a ha => if_neg (by rintro ⟨-, rfl⟩; exact hb ha)) E nsigmas hw h0 h1 h2
  refine ⟨fun i a ha hn => ?_, fun hb' => ?_, hr⟩
  · rw [h.elements i a ha, if_neg hn]
    cases s'.RING.attr i a <;> simp [scaleAttr_one]
  · rw [h.elements j b hb', if_pos ⟨rfl, rfl⟩]

end general

section total
variable {K : Type} [Field K] [LinearOrder K] [IsStrictOrderedRing K] [FloorRing K]

theorem scaledEntry_get (G : String → K) (l : Dict String (Attr K)) (n : String) :
    Dict.get? (κ := String) (v := Attr K) (l.map (fun kv => (kv.1, scaleAttr (G kv.1) kv.2))) n = (l.get? n).map (scaleAttr (G n)) := by
  induction l with
  | nil => rfl
  | cons x d ih =>
    rw [List.map_cons]
    unfold Dict.get?
    split
    · rename_i hh
      rw [hh]; rfl
    · exact ih

theorem scaleTable_sigma (F : Nat → String → K) (d : Dict Nat (Dict String (Attr K))) (i : Nat) (n : String) :
    sigma (scaleTable F d) i n = (sigma d i n).map (scaleAttr (F i n)) := by
  unfold sigma
  rw [scaleTable_get]
  cases d.get? i with
  | none => rfl
  | some e => exact scaledEntry_get _ e n

theorem scaleTable_only {F : Nat → String → K} {d : Dict Nat (Dict String (Attr K))} {names : List String} (h : OnlyNames d names) :
    OnlyNames (scaleTable F d) names := by
  intro i n v hv
  rw [scaleTable_sigma] at hv
  obtain ⟨w, hw, -⟩ := Option.map_eq_some_iff.mp hv
  exact h i n w hw

theorem scaleTable_single {F : Nat → String → K} {d : Dict Nat (Dict String (Attr K))} (h : SingleEntries d) :
    SingleEntries (scaleTable F d) := by
  refine ⟨by rw [scaleTable_keys]; exact h.1, fun i e he => ?_⟩
  rw [scaleTable_get] at he
  obtain ⟨w, hw, rfl⟩ := Option.map_eq_some_iff.mp he
  have := h.2 i w hw
  unfold Dict.keys at this ⊢
  rw [List.map_map]
  exact this

theorem scaleSigmas_registered {F : Nat → String → K} {c : K} {g : Sigs K} (h : WellRegistered g) : WellRegistered (scaleSigmas F c g) :=
  ⟨scaleTable_only h.bpmNames, scaleTable_only (F := fun i name => F i (magnetErrorName name)) h.magnetNames, scaleTable_only h.rfNames, scaleTable_only h.supportNames,
    scaleTable_single h.bpmSingle, scaleTable_single (F := fun i name => F i (magnetErrorName name)) h.magnetSingle, scaleTable_single h.rfSingle, scaleTable_single h.supportSingle⟩

theorem drawable_scaled (f : K) {v : Attr K} (h : Drawable v) : Drawable (scaleAttr f v) := by
  match v, h with
  | .num _, _ => trivial
  | .vec _, _ => trivial
  | .pair (.num _) c, h => exact h
  | .pair (.vec _) c, h => exact h

theorem uncertainties_scaled (f : K) {v : Attr K} (h : Drawable v) : uncertainties (scaleAttr f v) = (uncertainties v).map (fun x => f * x) := by
  match v, h with
  | .num _, _ => rfl
  | .vec _, _ => rfl
  | .pair (.num _) c, h => rfl
  | .pair (.vec _) c, h => rfl

theorem applicable_scaled {F : Nat → String → K} {c n : K} {s : SC K} (h : Applicable n s) :
    Applicable n { s with SIG := scaleSigmas F c s.SIG } := by
  have draw : ∀ {d : Dict Nat (Dict String (Attr K))} {G : Nat → String → K} {i name sig}, sigma (scaleTable G d) i name = some sig →
      ∃ w, sigma d i name = some w ∧ sig = scaleAttr (G i name) w := by
    intro d G i name sig hs
    rw [scaleTable_sigma] at hs
    obtain ⟨w, hw, rfl⟩ := Option.map_eq_some_iff.mp hs
    exact ⟨w, hw, rfl⟩
  refine ⟨h.cutOff, scaleSigmas_registered h.registered, ⟨fun i hi ab hab v hv => ?_, fun i hi v hv => ?_, fun i hi m v hv => ?_⟩, h.bpms,
    fun i hi name sig hs hn => ?_, h.cavities, fun i hi name sig hs => ?_, h.magnets, fun i hi name sig hs => ?_, ?_, h.forward, h.circumference,
    fun t ht p hp => ?_, h.apart⟩
  · obtain ⟨w, hw, rfl⟩ := draw (G := fun i name => F i (magnetErrorName name)) hv
    obtain ⟨x, hx, h1, h2⟩ := h.fitting.calibrations i hi ab hab w hw
    rcases hx with rfl | ⟨k, rfl⟩
    · exact ⟨_, Or.inl rfl, by simpa using h1, by simpa using h2⟩
    · exact ⟨_, Or.inr ⟨k, rfl⟩, by simpa using h1, by simpa using h2⟩
  · obtain ⟨w, hw, rfl⟩ := draw (G := fun i name => F i (magnetErrorName name)) hv
    obtain ⟨⟨x, hx⟩, h1⟩ := h.fitting.angles i hi w hw
    rcases hx with rfl | ⟨k, rfl⟩
    · exact ⟨⟨_, Or.inl rfl⟩, h1⟩
    · exact ⟨⟨_, Or.inr ⟨k, rfl⟩⟩, h1⟩
  · obtain ⟨w, hw, rfl⟩ := draw (G := F) hv
    obtain ⟨x, hx⟩ := h.fitting.cavities i hi m w hw
    rcases hx with rfl | ⟨k, rfl⟩
    · exact ⟨_, Or.inl rfl⟩
    · exact ⟨_, Or.inr ⟨k, rfl⟩⟩
  · obtain ⟨w, hw, rfl⟩ := draw (G := F) hs
    exact drawable_scaled _ (h.bpmErrors i hi name w hw hn)
  · obtain ⟨w, hw, rfl⟩ := draw (G := F) hs
    exact drawable_scaled _ (h.cavityErrors i hi name w hw)
  · obtain ⟨w, hw, rfl⟩ := draw (G := fun i name => F i (magnetErrorName name)) hs
    obtain ⟨h1, h2⟩ := h.magnetErrors i hi name w hw
    refine ⟨drawable_scaled _ h1, fun hn => ?_⟩
    rw [uncertainties_scaled _ h1, List.length_map]
    exact h2 hn
  · exact ⟨by simpa [scaleSigmas] using h.injection.1, h.injection.2⟩
  · have hp' := h.supports t ht p hp
    refine ⟨hp'.start, hp'.end_, hp'.startOffset, hp'.endOffset, hp'.roll, ?_, fun a ha sig hs => ?_, fun hs k hk => ?_, hp'.inside, hp'.outside⟩
    · simpa [scaleSigmas, scaleTable_keys] using hp'.known
    · obtain ⟨w, hw, rfl⟩ := draw (G := F) hs
      obtain ⟨h1, h2⟩ := hp'.uncertainty a ha w hw
      refine ⟨drawable_scaled _ h1, ?_⟩
      rw [uncertainties_scaled _ h1, List.length_map]
      exact h2
    · have hs' : (sigma s.SIG.Support p.2 (t ++ "Offset")).isSome := by
        simpa [scaleSigmas, scaleTable_sigma] using hs
      have h1 := hp'.tilt hs' k hk
      have h2 := hp'.uncertainty "Roll" (by simp)
      simp only [scaleSigmas, scaleTable_sigma]
      revert h1 h2
      cases hx : sigma s.SIG.Support p.1 (t ++ "Roll") with
      | none => intro h1 _; exact h1
      | some sig =>
        intro h1 h2
        obtain ⟨h2, -⟩ := h2 sig rfl
        simp only [Option.map_some]
        rw [uncertainties_scaled _ h2]
        change coef (uncertainties sig) k = 0 at h1
        unfold coef at h1 ⊢
        rw [List.getD_eq_getElem?_getD] at h1 ⊢
        rw [List.getElem?_map]
        cases hu : (uncertainties sig)[k]? with
        | none => simp
        | some x => rw [hu] at h1; simp at h1; simp [h1]

/-- **C103**: and where the errors can be applied to the one machine, they can be applied to the other. -/
theorem C103_both_succeed (F : Nat → String → K) (c : K) (hF : ∀ i, ∀ a ∈ supportErrorNames, F i a = c)
    (E : Env K) (hE : KeepsDrawing E.randn)
    (hT : ∀ len theta dx dy dz pitch yaw roll, ∃ T, E.transform len theta [dx, dy, dz] [pitch, yaw, roll] = .ok T)
    (nsigmas : K) (s : SC K) (h : Applicable nsigmas s) (h0 : WithoutErrors s) :
    ∃ passes s' t', (∀ f, passes ≤ f → applyErrors { E with fuel := f } nsigmas s = .ok () s' ∧
      applyErrors { E with fuel := f } nsigmas { s with SIG := scaleSigmas F c s.SIG } = .ok () t') ∧
      ScaledErrors F c s' t' ∧ s'.rng = t'.rng := by
  obtain ⟨p, s', h1⟩ := C86_succeeds E hE hT nsigmas s h
  obtain ⟨q, t', h2⟩ := C86_succeeds E hE hT nsigmas _ (applicable_scaled (F := F) (c := c) h)
  refine ⟨max p q, s', t', fun f hf => ⟨h1 f (by omega), h2 f (by omega)⟩, ?_⟩
  exact applyErrors_scaled hF { E with fuel := max p q } nsigmas h.registered h0 (h1 _ (by omega)) (h2 _ (by omega))

end total

/-! ### examples -/

/-- no errors, checked element by element -/
theorem withoutErrors_of {s : SC ℚ} (h : ∀ i < s.RING.length, ∀ a ∈ errorNames, ∀ v ∈ s.RING.attr i a,
    v = .num 0 ∨ v = .vec [0, 0] ∨ v = .vec [0, 0, 0] ∨ v = .vec [0] ∨ v = .vec []) : WithoutErrors s := by
  intro i a ha v hv
  have hi : i < s.RING.length := by
    by_contra hi
    unfold Ring.attr at hv
    rw [List.getElem?_eq_none (by omega)] at hv
    cases hv
  rcases h i hi a ha v hv with rfl | rfl | rfl | rfl | rfl
  · exact Or.inl rfl
  · exact Or.inr ⟨2, rfl⟩
  · exact Or.inr ⟨3, rfl⟩
  · exact Or.inr ⟨1, rfl⟩
  · exact Or.inr ⟨0, rfl⟩

theorem orderly_without : WithoutErrors Example.orderly := withoutErrors_of (by decide +kernel)

-- a machine with girders, a section, magnets, a BPM and a cavity: the hypotheses are met for any factors
example (F : Nat → String → ℚ) (c : ℚ) (hF : ∀ i, ∀ a ∈ supportErrorNames, F i a = c) :
    ∃ passes s' t', (∀ f, passes ≤ f → applyErrors { Example.dice with fuel := f } 2 Example.orderly = .ok () s' ∧
      applyErrors { Example.dice with fuel := f } 2 { Example.orderly with SIG := scaleSigmas F c Example.orderly.SIG } = .ok () t') ∧
      ScaledErrors F c s' t' ∧ s'.rng = t'.rng :=
  C103_both_succeed F c hF Example.dice Example.dice_keeps (fun _ _ _ _ _ _ _ _ => ⟨_, rfl⟩) 2 _ orderly_applicable orderly_without

-- three times the uncertainties: offsets of the magnet from its girders, of the magnet itself, and at injection
example :
    let s' := (applyErrors Example.dice 2 Example.orderly).state
    let t' := (applyErrors Example.dice 2 { Example.orderly with SIG := scaleSigmas (fun _ _ => 3) 3 Example.orderly.SIG }).state
    s'.RING.attr 3 "SupportOffset" = some (.vec [-1/3, -1/6, -1/3]) ∧ t'.RING.attr 3 "SupportOffset" = some (.vec [-1, -1/2, -1]) ∧
    s'.RING.attr 2 "MagnetOffset" = some (.vec [-1/3, 3, 0]) ∧ t'.RING.attr 2 "MagnetOffset" = some (.vec [-1, 9, 0]) ∧
    s'.INJ.Z0 ≠ s'.INJ.Z0ideal ∧ s'.INJ.Z0ideal = [0, 0, 0, 0, 0, 0] ∧ t'.INJ.Z0 = s'.INJ.Z0.map (fun x => 3 * x) := by decide +kernel
-- one magnet with ten times the offset uncertainty: all other magnets are where they were
example :
    let s' := (applyErrors Example.dice 2 Example.orderly).state
    let t' := (applyErrors Example.dice 2
      { Example.orderly with SIG := scaleSigmas (fun i a => if i = 2 ∧ a = "MagnetOffset" then 10 else 1) 1 Example.orderly.SIG }).state
    t'.RING.attr 2 "MagnetOffset" = some (.vec [-10/3, 30, 0]) ∧ s'.RING.attr 3 "MagnetOffset" = some (.vec [3, 0, 0]) ∧
    t'.RING.attr 3 "MagnetOffset" = some (.vec [3, 0, 0]) := by decide +kernel

end PySC
