import Verif.Lemmas.ApplicableErrors
import Verif.Props.Requests
import Verif.Props.Transformation
/-
C86: errors can be applied to every machine in order.
-/
namespace PySC
set_option linter.unusedSectionVars false
open Py Spec Matrix

section general
variable {K : Type} [Field K] [LinearOrder K] [IsStrictOrderedRing K] [FloorRing K]

/-- **C86**: on a machine in order `apply_errors` comes to an end, however many random numbers have to be drawn again; it ends without
exception, unless the transformation of one of the magnets can not be computed from the offsets and angles which this magnet then has. -/
theorem C86_ends (E : Env K) (hE : KeepsDrawing E.randn) (nsigmas : K) (s : SC K) (h : Applicable nsigmas s) :
    ∃ passes res, (∀ f, passes ≤ f → applyErrors { E with fuel := f } nsigmas s = res) ∧
      ((∃ t, res = .ok () t) ∨ ∃ e t, res = .error e t ∧ Refused E e t) := by
  obtain ⟨passes, res, h1, h2⟩ := applyErrors_settles hE h
  refine ⟨passes, res, h1, ?_⟩
  rcases h2 with ⟨_, t, h2, -⟩ | h2
  · exact Or.inl ⟨t, h2⟩
  · exact Or.inr h2

/-- **C86**: so it succeeds whenever transformations can be computed. -/
theorem C86_succeeds (E : Env K) (hE : KeepsDrawing E.randn)
    (hT : ∀ len theta dx dy dz pitch yaw roll, ∃ T, E.transform len theta [dx, dy, dz] [pitch, yaw, roll] = .ok T)
    (nsigmas : K) (s : SC K) (h : Applicable nsigmas s) :
    ∃ passes t, ∀ f, passes ≤ f → applyErrors { E with fuel := f } nsigmas s = .ok () t := by
  obtain ⟨passes, res, h1, ⟨t, rfl⟩ | ⟨e, t, rfl, i, hi, h2⟩⟩ := C86_ends E hE nsigmas s h
  · exact ⟨passes, t, h1⟩
  · obtain ⟨T, hT⟩ := hT (numAt t.RING i "Length") (numAt t.RING i "BendingAngle") (together t.RING i "Offset" 0) (together t.RING i "Offset" 1)
      (together t.RING i "Offset" 2) (together t.RING i "Roll" 1) (together t.RING i "Roll" 2) (together t.RING i "Roll" 0)
    rw [hT] at h2
    cases h2

end general

/-! ### the transformations of pySC -/

theorem axis_entry (r : Matrix (Fin 3) (Fin 3) ℝ) : (![0, 0, 1] : Fin 3 → ℝ) ⬝ᵥ r *ᵥ ![0, 0, 1] = r 2 2 := by
  simp [Matrix.mulVec, dotProduct, Fin.sum_univ_three]

theorem axis_exit (r b : Matrix (Fin 3) (Fin 3) ℝ) :
    (b *ᵥ ![0, 0, 1]) ⬝ᵥ r *ᵥ (b *ᵥ ![0, 0, 1]) = (bᵀ * (rᵀ * b)) 2 2 := by
  simp only [Matrix.mulVec, dotProduct, Fin.sum_univ_three, Matrix.mul_apply, Matrix.transpose_apply, Matrix.cons_val_zero, Matrix.cons_val_one,
    Matrix.cons_val, mul_zero, mul_one, zero_add]
  ring

/-- **C86**: with the formulas of `update_transformation` the only obstacle is a magnet turned so far that its axis is at right angles to
the design trajectory. -/
theorem C86_right_angles (E : Env ℝ) (hE : KeepsDrawing E.randn) (hT : E.transform = transformLists) (nsigmas : ℝ) (s : SC ℝ)
    (h : Applicable nsigmas s) :
    ∃ passes res, (∀ f, passes ≤ f → applyErrors { E with fuel := f } nsigmas s = res) ∧
      ((∃ t, res = .ok () t) ∨ ∃ t, res = .error .nonFinite t ∧ ∃ i ∈ t.ORD.Magnet, Crosswise (numAt t.RING i "BendingAngle")
        (together t.RING i "Roll" 1) (together t.RING i "Roll" 2) (together t.RING i "Roll" 0)) := by
  obtain ⟨passes, res, h1, h2⟩ := C86_ends E hE nsigmas s h
  refine ⟨passes, res, h1, ?_⟩
  rcases h2 with h2 | ⟨e, t, rfl, i, hi, h2⟩
  · exact Or.inl h2
  · right
    rw [hT] at h2
    generalize numAt t.RING i "Length" = L at h2
    have key : ∀ (θ : ℝ) (o a : Fin 3 → ℝ), transformLists L θ [o 0, o 1, o 2] [a 0, a 1, a 2] = .error e →
        e = .nonFinite ∧ Crosswise θ (a 0) (a 1) (a 2) := by
      intro θ o a h
      change (transformation L θ ![o 0, o 1, o 2] ![a 0, a 1, a 2] >>= fun t => _) = _ at h
      rw [vec3_eta, vec3_eta] at h
      have cross : ∀ b : ℝ, aboutY b = rotation ![0, b, 0] := by
        intro b
        rw [rotation_eq_turned]
        simp [turned, aboutX, aboutY, aboutZ]
      have et : turned (a 0) (a 1) (a 2) = rotation a := (rotation_eq_turned a).symm
      have herr : transformation L θ o a = .error e := by
        cases ht : transformation L θ o a with
        | error e' => rw [ht] at h; cases h; rfl
        | ok t' => rw [ht] at h; cases h
      unfold Crosswise
      simp only
      rw [et, cross, axis_entry, axis_exit]
      by_cases g1 : rotation a 2 2 = 0
      · unfold transformation at herr
        simp only [g1, if_true] at herr
        cases herr
        exact ⟨rfl, Or.inl g1⟩
      · by_cases g2 : ((rotation ![0, -θ, 0])ᵀ * ((rotation a)ᵀ * rotation ![0, -θ, 0])) 2 2 = 0
        · unfold transformation at herr
          simp only [g1, g2, if_false, if_true, det_rMatrix _ (proper_rotation a) g1] at herr
          cases herr
          exact ⟨rfl, Or.inr g2⟩
        · obtain ⟨t', ht'⟩ := transformation_ok L o g1 g2
          rw [ht'] at herr
          cases herr
    obtain ⟨rfl, hc⟩ := key _ ![together t.RING i "Offset" 0, together t.RING i "Offset" 1, together t.RING i "Offset" 2]
      ![together t.RING i "Roll" 1, together t.RING i "Roll" 2, together t.RING i "Roll" 0] h2
    exact ⟨t, rfl, i, hi, hc⟩


/-! ### a machine -/

section decidable
/-- checks of all uncertainties at once -/
theorem sigma_forall {K : Type} {d : Dict Nat (Dict String (Attr K))} {P : Nat → String → Attr K → Prop} (h : ∀ e ∈ d, ∀ kv ∈ e.2, P e.1 kv.1 kv.2)
    (i : Nat) (name : String) (sig : Attr K) (hs : sigma d i name = some sig) : P i name sig := by
  have mem : ∀ {κ v : Type} [DecidableEq κ] (d : Dict κ v) (k : κ) (x : v), d.get? k = some x → (k, x) ∈ d := by
    intro κ v _ d k x h
    induction d with
    | nil => cases h
    | cons e d ih =>
      unfold Dict.get? at h
      split at h
      · rename_i he; cases h; rw [← he]; exact List.mem_cons_self
      · exact List.mem_cons_of_mem _ (ih h)
  unfold sigma at hs
  obtain ⟨kw, h1, h2⟩ := Option.bind_eq_some_iff.1 hs
  exact h _ (mem _ _ _ h1) _ (mem _ _ _ h2)

instance (p q : Nat × Nat) : Decidable (EndsApart p q) := by unfold EndsApart; infer_instance
instance (a : Attr ℚ) : Decidable (Drawable a) := by unfold Drawable; split <;> infer_instance
end decidable

/-- everything of `Example.rawRing` with uncertainties of all kinds: two girders (one with uncertainties of both ends) and a section -/
def Example.parts : SC ℚ :=
  registrations [.bpms [0] [("Noise", .vec [1, 1]), ("Offset", .pair (.vec [3, 4]) 1), ("Roll", .num 2)],
    .cavities [4] [("VoltageOffset", .num 5), ("FrequencyCalError", .pair (.num 1) 2)],
    .supports [[5, 0], [7, 3]] "Girder" [("Offset", .mat [[1, 2, 3], [4, 5, 6]]), ("Roll", .vec [1, 0, 0])],
    .supports [[1], [6]] "Section" [("Offset", .vec [1, 1, 1]), ("Roll", .pair (.vec [1, 2, 3]) 1)]] Example.raw

def Example.magnetKw : Kwargs ℚ :=
  [("CalErrorB", .vec [1/10, 1/20]), ("MagnetOffset", .pair (.vec [1, 1, 0]) 3), ("MagnetRoll", .vec [1, 0, 0]), ("HCM", .num 1)]

def Example.orderly : SC ℚ :=
  let s := (registerMagnets [2, 3] Example.magnetKw Example.parts).state
  { s with SIG := { s.SIG with staticInjectionZ := [1, 1, 2, 2, 0, 5], Circumference := 1/10 } }

/-- a generator of which every third number is small -/
def Example.dice : Env ℚ := { Example.env with randn := fun k => if k % 3 = 0 then 0 else if k % 3 = 1 then -1/3 else 3 }

theorem Example.dice_keeps : KeepsDrawing Example.dice.randn := by
  intro c _ k
  refine ⟨3 * k, by omega, ?_⟩
  have : Example.dice.randn (3 * k) = 0 := by simp [Example.dice]
  rw [this, abs_zero]
  exact abs_nonneg c

theorem orderly_ord : Example.orderly.ORD = ⟨[0], [4], [2, 3], [], [2, 3], [], [(0, 3), (5, 7)], [], [(1, 6)]⟩ := by decide +kernel

theorem orderly_registered : WellRegistered Example.orderly.SIG := by
  have h : WellRegistered (registerMagnets [2, 3] Example.magnetKw Example.parts).state.SIG := by
    have := wellRegistered_registrations [.magnets [2, 3] Example.magnetKw] Example.parts (C03_only_uncertainties_stored _ _ _)
    exact this
  exact ⟨h.1, h.2, h.3, h.4, h.5, h.6, h.7, h.8⟩

theorem orderly_magnets : ∀ i ∈ [2, 3], MagnetReady Example.orderly.RING i ∧ Placeable Example.orderly.RING i := by
  have raw : ∀ i ∈ [2, 3], RawMagnet Example.parts.RING i := by
    intro i hi
    simp only [List.mem_cons, List.not_mem_nil, or_false] at hi
    rcases hi with rfl | rfl
    · refine ⟨fun ab hab => ?_, ⟨"StrMPoleSymplectic4Pass", by decide +kernel⟩, fun hh => absurd hh (by decide +kernel), by decide +kernel⟩
      simp only [List.mem_cons, List.not_mem_nil, or_false] at hab
      rcases hab with rfl | rfl
      · exact ⟨[0, 0], by decide +kernel, by simp⟩
      · exact ⟨[0, 2, 1/3], by decide +kernel, by simp⟩
    · refine ⟨fun ab hab => ?_, ⟨"BndMPoleSymplectic4Pass", by decide +kernel⟩, fun _ => ⟨⟨⟨1/10, by decide +kernel⟩,
        ⟨2, by decide +kernel, by decide +kernel⟩, by decide +kernel⟩, [0, -1], -1, by decide +kernel, by decide +kernel, by decide +kernel⟩,
        by decide +kernel⟩
      simp only [List.mem_cons, List.not_mem_nil, or_false] at hab
      rcases hab with rfl | rfl
      · exact ⟨[0, 0], by decide +kernel, by simp⟩
      · exact ⟨[0, -1], by decide +kernel, by simp⟩
  intro i hi
  have hok : registerMagnets [2, 3] Example.magnetKw Example.parts = .ok () (registerMagnets [2, 3] Example.magnetKw Example.parts).state :=
    ok_of_isOk (by decide +kernel)
  refine ⟨(C76_registered_magnets _ _ _ _ hok (by decide +kernel) i hi (raw i hi)).1, ?_⟩
  simp only [List.mem_cons, List.not_mem_nil, or_false] at hi
  rcases hi with rfl | rfl
  · exact ⟨⟨0, 0, 0, by decide +kernel⟩, ⟨0, 0, 0, by decide +kernel⟩, Or.inr ⟨1/2, by decide +kernel⟩, Or.inl (by decide +kernel)⟩
  · exact ⟨⟨0, 0, 0, by decide +kernel⟩, ⟨0, 0, 0, by decide +kernel⟩, Or.inr ⟨2, by decide +kernel⟩, Or.inr ⟨1/10, by decide +kernel⟩⟩

theorem orderly_fitting : FittingErrors Example.orderly := by
  have h0 := orderly_ord
  refine ⟨fun i hi ab hab v hv => ?_, fun i hi v hv => ?_, fun i hi n v hv => ?_⟩
  · rw [h0] at hi
    simp only [List.mem_cons, List.not_mem_nil, or_false] at hi hab
    rcases hi with rfl | rfl <;> rcases hab with rfl | rfl
    · rw [show sigma Example.orderly.SIG.Magnet 2 ("CalError" ++ "A") = none from by decide +kernel] at hv; cases hv
    · rw [show sigma Example.orderly.SIG.Magnet 2 ("CalError" ++ "B") = some (.vec [1/10, 1/20]) from by decide +kernel] at hv; cases hv
      exact ⟨_, Or.inl rfl, by decide +kernel, fun _ _ => by simp⟩
    · rw [show sigma Example.orderly.SIG.Magnet 3 ("CalError" ++ "A") = none from by decide +kernel] at hv; cases hv
    · rw [show sigma Example.orderly.SIG.Magnet 3 ("CalError" ++ "B") = some (.vec [1/10, 1/20]) from by decide +kernel] at hv; cases hv
      exact ⟨_, Or.inl rfl, by decide +kernel, fun _ _ => by simp⟩
  · have : (fun (_ : Nat) (n : String) (_ : Attr ℚ) => n ≠ "BendingAngle") i "BendingAngle" v :=
      sigma_forall (d := Example.orderly.SIG.Magnet) (P := fun _ n _ => n ≠ "BendingAngle") (by decide +kernel) i _ v hv
    exact absurd rfl this
  · rcases (sigma_forall (d := Example.orderly.SIG.RF) (P := fun _ _ v => v = .num 5 ∨ v = .pair (.num 1) 2) (by decide +kernel) i n v hv) with rfl | rfl
    · exact ⟨_, Or.inl rfl⟩
    · exact ⟨_, Or.inr ⟨_, rfl⟩⟩

theorem orderly_supports : ∀ t ∈ ["Section", "Plinth", "Girder"], ∀ p ∈ Example.orderly.ORD.pairs t, SupportInOrder Example.orderly t p := by
  intro t ht p hp
  rw [orderly_ord] at hp
  have unc : ∀ t ∈ ["Section", "Girder"], ∀ q : Nat, ∀ a ∈ ["Offset", "Roll"], ∀ sig, sigma Example.orderly.SIG.Support q (t ++ a) = some sig →
      Drawable sig ∧ (uncertainties sig).length = 3 := fun t _ q a _ sig hs =>
    sigma_forall (d := Example.orderly.SIG.Support) (P := fun _ _ v => Drawable v ∧ (uncertainties v).length = 3) (by decide +kernel) q _ sig hs
  simp only [List.mem_cons, List.not_mem_nil, or_false] at ht
  rcases ht with rfl | rfl | rfl
  · have : p = (1, 6) := by simpa [Ords.pairs] using hp
    subst this
    exact ⟨by decide +kernel, by decide +kernel, ⟨0, 0, 0, by decide +kernel⟩, ⟨0, 0, 0, by decide +kernel⟩, ⟨0, 0, 0, by decide +kernel⟩,
      by decide +kernel, unc _ (by simp) _, fun hs => absurd hs (by decide +kernel), ⟨2, by decide +kernel⟩, ⟨6, by decide +kernel⟩⟩
  · simp [Ords.pairs] at hp
  · have : p = (0, 3) ∨ p = (5, 7) := by simpa [Ords.pairs] using hp
    rcases this with rfl | rfl
    · exact ⟨by decide +kernel, by decide +kernel, ⟨0, 0, 0, by decide +kernel⟩, ⟨0, 0, 0, by decide +kernel⟩, ⟨0, 0, 0, by decide +kernel⟩,
        by decide +kernel, unc _ (by simp) _, fun _ => by
          rw [show sigma Example.orderly.SIG.Support (0, 3).1 ("Girder" ++ "Roll") = some (.vec [1, 0, 0]) from by decide +kernel]
          decide +kernel, ⟨2, by decide +kernel⟩, ⟨6, by decide +kernel⟩⟩
    · exact ⟨by decide +kernel, by decide +kernel, ⟨0, 0, 0, by decide +kernel⟩, ⟨0, 0, 0, by decide +kernel⟩, ⟨0, 0, 0, by decide +kernel⟩,
        by decide +kernel, unc _ (by simp) _, fun _ => by
          rw [show sigma Example.orderly.SIG.Support (5, 7).1 ("Girder" ++ "Roll") = some (.vec [1, 0, 0]) from by decide +kernel]
          decide +kernel, ⟨6, by decide +kernel⟩, ⟨2, by decide +kernel⟩⟩

theorem orderly_applicable : Applicable 2 Example.orderly := by
  have h0 := orderly_ord
  refine ⟨by norm_num, orderly_registered, orderly_fitting, by decide +kernel, fun i _ n sig hs => ?_, fun i hi => ?_, fun i _ n sig hs => ?_,
    by rw [h0]; exact orderly_magnets, fun i _ n sig hs => ?_, by decide +kernel, forward_of_all (by decide +kernel), Or.inr (by decide +kernel),
    orderly_supports, by decide +kernel⟩
  · exact sigma_forall (d := Example.orderly.SIG.BPM) (P := fun _ n v => n ∉ ["Noise", "NoiseCO"] → Drawable v) (by decide +kernel) i n sig hs
  · rw [h0] at hi
    simp only [List.mem_cons, List.not_mem_nil, or_false] at hi
    subst hi
    refine ⟨by decide +kernel, fun f hf p hp => ?_⟩
    simp only [List.mem_cons, List.not_mem_nil, or_false] at hf hp
    rcases hf with rfl | rfl | rfl <;> rcases hp with rfl | rfl | rfl
    · exact ⟨1000, by decide +kernel⟩
    · exact ⟨0, by decide +kernel⟩
    · exact ⟨0, by decide +kernel⟩
    · exact ⟨500, by decide +kernel⟩
    all_goals exact ⟨0, by decide +kernel⟩
  · exact sigma_forall (d := Example.orderly.SIG.RF) (P := fun _ _ v => Drawable v) (by decide +kernel) i n sig hs
  · exact sigma_forall (d := Example.orderly.SIG.Magnet) (P := fun _ n v => Drawable v ∧ (n ∈ ["MagnetOffset", "MagnetRoll"] → (uncertainties v).length = 3))
      (by decide +kernel) i n sig hs

-- errors can be applied to it, and this changes the alignment of its magnets
example : ∃ passes t, ∀ f, passes ≤ f → applyErrors { Example.dice with fuel := f } 2 Example.orderly = .ok () t :=
  C86_succeeds Example.dice Example.dice_keeps (fun _ _ _ _ _ _ _ _ => ⟨_, rfl⟩) 2 _ orderly_applicable
example : (applyErrors Example.dice 2 Example.orderly).isOk ∧
    (applyErrors Example.dice 2 Example.orderly).state.RING.attr 3 "T1" ≠ Example.orderly.RING.attr 3 "T1" := by decide +kernel
-- with one pass only the numbers beyond the cut-off are not drawn again often enough
example : (applyErrors { Example.dice with fuel := 0 } 2 Example.orderly).err? = some .outOfFuel := by decide +kernel
-- a transformation which fails ends the run with its own error
example : Refused { Example.dice with transform := fun _ _ _ _ => .error .nonFinite } .nonFinite Example.orderly ∧
    (applyErrors { Example.dice with transform := fun _ _ _ _ => .error .nonFinite } 2 Example.orderly).err? = some .nonFinite :=
  ⟨⟨2, by decide +kernel, rfl⟩, by decide +kernel⟩

end PySC
