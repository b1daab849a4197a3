import Verif.Lemmas.RequestsSession
import Verif.Props.History
/-
C76: a machine in order accepts every request in order, whatever was done to it before.
-/
namespace PySC
set_option linter.unusedSectionVars false
variable {K : Type} [Field K] [LinearOrder K] [FloorRing K]
open Py Spec

section session
variable {W : World K} {s t : SC K} (hw : WellRegistered s.SIG) (hf : FittingErrors s) (h : Session W s t)
include hw hf h

/-- **C76**: correctors which are in order at the beginning of a session accept every request of set-points (any method, any values, one
per corrector or one for all) at any later time, whatever calls were made in between and whatever became of them. -/
theorem C76_correctors_set (ords : List Nat) (skewness : Bool) (hr : ∀ i ∈ ords, CorrectorReady s.RING i skewness) (method : String)
    (sp : NpArr K) (hfit : Fits method ords.length sp) : ∃ t', setCMSetpoints ords sp skewness method t = .ok () t' :=
  setCM_total (fun i hi => (session_kept h hw hf).corrector i skewness (hr i hi)) hfit

/-- **C76**: their set-points can be read at any time, one value per corrector, without changing anything. -/
theorem C76_correctors_read (ords : List Nat) (skewness : Bool) (hr : ∀ i ∈ ords, CorrectorReady s.RING i skewness) :
    ∃ v, getCMSetpoints ords skewness t = .ok v t ∧ v.length = ords.length :=
  getCM_total (fun i hi => (session_kept h hw hf).corrector i skewness (hr i hi))

/-- **C76**, what holds for the other magnets: every request is accepted, if steps ('rel', 'add') are not given as integers. -/
theorem C76_magnets_set_partial (ords : List Nat) (skewness : Bool) (order : Nat) (dipole_compensation : Bool)
    (hr : ∀ i ∈ ords, ComponentReady s i skewness order dipole_compensation) (method : String) (sp : NpArr K)
    (hfit : Fits method ords.length sp) (hfloat : method = "abs" ∨ sp.isInt = false) :
    ∃ t', setMagnetSetpoints ords sp skewness order method dipole_compensation t = .ok () t' :=
  setMagnet_total (fun i hi => (session_kept h hw hf).component i skewness order dipole_compensation (hr i hi)) hfit hfloat

/-- **C76**, what holds for cavities: the same. -/
theorem C76_cavities_set_partial (ords : List Nat) (hr : ∀ i ∈ ords, CavityReady s.RING i) (param : String)
    (hparam : param ∈ ["Voltage", "Frequency", "TimeLag"]) (method : String) (sp : NpArr K)
    (hfit : Fits method ords.length sp) (hfloat : method = "abs" ∨ sp.isInt = false) :
    ∃ t', setCavitySetpoints ords sp param method t = .ok () t' :=
  setCavity_total' (fun i hi => (session_kept h hw hf).cavity i (hr i hi)) hparam hfit hfloat

/-- **C76**: the fields can be brought up to date at any time, of any of the magnets and cavities. -/
theorem C76_updates (magnets cavities : List Nat) (hm : ∀ i ∈ magnets, MagnetReady s.RING i) (hc : ∀ i ∈ cavities, CavityReady s.RING i) :
    (∃ t', updateMagnets (some magnets) t = .ok () t') ∧ ∃ t', updateCavities (some cavities) t = .ok () t' :=
  ⟨updateMagnets_total (fun i hi => (session_kept h hw hf).magnet i (hm i hi)),
    updateCavities_total (fun i hi => (session_kept h hw hf).cavity i (hc i hi))⟩

/-- **C76**: and of all the registered ones. -/
theorem C76_updates_all (hm : ∀ i ∈ s.ORD.Magnet, MagnetReady s.RING i) (hc : ∀ i ∈ s.ORD.RF, CavityReady s.RING i) :
    (∃ t', updateMagnets none t = .ok () t') ∧ ∃ t', updateCavities none t = .ok () t' := by
  have hk := session_kept h hw hf
  have := C76_updates hw hf h s.ORD.Magnet s.ORD.RF hm hc
  rw [← hk.ord] at this
  exact this
end session

/-- **C76**: `register_magnets` makes magnets ready: every magnet of the lattice file with polynomials, for field updates; if it is
thin corrector or has a length, as a corrector in both planes; and in every component of its polynomials for set-points. -/
theorem C76_registered_magnets (ords : List Nat) (kw : Kwargs K) (s s' : SC K) (h : registerMagnets ords kw s = .ok () s')
    (hmaster : "MasterOf" ∉ kw.keys) (i : Nat) (hi : i ∈ ords) (hr : RawMagnet s.RING i) :
    MagnetReady s'.RING i ∧
    (s.RING.attr i "PassMethod" = some (.str "CorrectorPass") ∨ HasLength s.RING i → ∀ skewness, CorrectorReady s'.RING i skewness) ∧
    ((∀ v, kw.get? "SkewQuad" = some v → (∃ l, v = .lim l) ∨ ∃ x, v = .num x) → ∀ (skewness : Bool) (order : Nat) (dipole_compensation : Bool),
      order < arrLen s.RING i ("Polynom" ++ if skewness then "A" else "B") → ComponentReady s' i skewness order dipole_compensation) :=
  ⟨registered_magnet h hmaster hi hr, fun hl sk => registered_corrector h hmaster hi hr hl sk,
    fun hs _ _ d hk => registered_component h hmaster hi hr hs hk d⟩

/-- **C76**: `register_cavities` makes cavities ready. -/
theorem C76_registered_cavities (ords : List Nat) (kw : Kwargs K) (s s' : SC K) (h : registerCavities ords kw s = .ok () s') (i : Nat)
    (hi : i ∈ ords) (hr : ∀ f ∈ ["Voltage", "Frequency", "TimeLag"], ∃ x, s.RING.attr i f = some (.num x)) : CavityReady s'.RING i :=
  registered_cavity h hi hr

/-! ### a machine -/

/-- the magnets and the cavity of `Example.rawRing`, with uncertainties -/
def Example.regCalls : List (RegCall ℚ) :=
  [.magnets [1] [("HCM", .num 3), ("VCM", .num 2), ("CalErrorB", .pair (.vec [1/10]) 2)],
   .magnets [2] [("CalErrorB", .vec [0, 1/10]), ("CalErrorA", .vec [1/5]), ("SkewQuad", .num 4)],
   .magnets [3] [("CF", .flag true), ("CalErrorB", .vec [1/10, 1/20]), ("BendingAngle", .num (1/100))],
   .cavities [4] [("VoltageOffset", .num 5), ("FrequencyCalError", .pair (.num 1) 2)]]

def Example.ready : SC ℚ := registrations Example.regCalls Example.raw

theorem Example.raw_magnets : ∀ i ∈ [1, 2, 3], RawMagnet Example.raw.RING i := by
  intro i hi
  simp only [List.mem_cons, List.not_mem_nil, or_false] at hi
  rcases hi with rfl | rfl | rfl
  · refine ⟨fun ab hab => ?_, ⟨"CorrectorPass", by decide +kernel⟩, fun hh => absurd hh (by decide +kernel), by decide +kernel⟩
    refine ⟨[0], ?_, by simp⟩
    revert ab; decide +kernel
  · refine ⟨fun ab hab => ?_, ⟨"StrMPoleSymplectic4Pass", by decide +kernel⟩, fun hh => absurd hh (by decide +kernel), by decide +kernel⟩
    simp only [List.mem_cons, List.not_mem_nil, or_false] at hab
    rcases hab with rfl | rfl
    · exact ⟨[0, 0], by decide +kernel, by simp⟩
    · exact ⟨[0, 2, 1/3], by decide +kernel, by simp⟩
  · refine ⟨fun ab hab => ?_, ⟨"BndMPoleSymplectic4Pass", by decide +kernel⟩, fun _ => ⟨⟨⟨1/10, by decide +kernel⟩,
      ⟨2, by decide +kernel, by decide +kernel⟩, by decide +kernel⟩, [0, -1], -1, by decide +kernel, by decide +kernel, by decide +kernel⟩,
      by decide +kernel⟩
    simp only [List.mem_cons, List.not_mem_nil, or_false] at hab
    rcases hab with rfl | rfl
    · exact ⟨[0, 0], by decide +kernel, by simp⟩
    · exact ⟨[0, -1], by decide +kernel, by simp⟩

example : (registerMagnets [1, 2, 3] [("CF", .num 1), ("HCM", .num 1), ("SkewQuad", .num 2)] Example.raw).isOk = true ∧
    HasLength Example.raw.RING 2 ∧ 1 < arrLen Example.raw.RING 2 "PolynomA" ∧
    (registerCavities [4] [("VoltageOffset", .num 5)] Example.raw).isOk = true ∧ Example.raw.RING.attr 4 "Voltage" = some (.num 1000) :=
  ⟨by decide +kernel, ⟨⟨1/2, by decide +kernel, by decide +kernel⟩, by decide +kernel⟩, by decide +kernel, by decide +kernel, by decide +kernel⟩

theorem ready_fitting : WellRegistered Example.ready.SIG ∧ FittingErrors Example.ready := by
  refine ⟨C03_only_uncertainties_stored _ _ _, ⟨fun i hi ab hab v hv => ?_, fun i hi v hv => ?_, fun i hi n v hv => ?_⟩⟩
  · rw [show Example.ready.ORD.Magnet = [1, 2, 3] from by decide +kernel] at hi
    simp only [List.mem_cons, List.not_mem_nil, or_false] at hi hab
    rcases hi with rfl | rfl | rfl <;> rcases hab with rfl | rfl
    · rw [show sigma Example.ready.SIG.Magnet 1 ("CalError" ++ "A") = none from by decide +kernel] at hv; cases hv
    · rw [show sigma Example.ready.SIG.Magnet 1 ("CalError" ++ "B") = some (.pair (.vec [1/10]) 2) from by decide +kernel] at hv; cases hv
      exact ⟨_, Or.inr ⟨_, rfl⟩, by decide +kernel, fun hc => absurd hc.1 (by decide +kernel)⟩
    · rw [show sigma Example.ready.SIG.Magnet 2 ("CalError" ++ "A") = some (.vec [1/5]) from by decide +kernel] at hv; cases hv
      exact ⟨_, Or.inl rfl, by decide +kernel, fun hc => absurd hc.1 (by decide +kernel)⟩
    · rw [show sigma Example.ready.SIG.Magnet 2 ("CalError" ++ "B") = some (.vec [0, 1/10]) from by decide +kernel] at hv; cases hv
      exact ⟨_, Or.inl rfl, by decide +kernel, fun hc => absurd hc.1 (by decide +kernel)⟩
    · rw [show sigma Example.ready.SIG.Magnet 3 ("CalError" ++ "A") = none from by decide +kernel] at hv; cases hv
    · rw [show sigma Example.ready.SIG.Magnet 3 ("CalError" ++ "B") = some (.vec [1/10, 1/20]) from by decide +kernel] at hv; cases hv
      exact ⟨_, Or.inl rfl, by decide +kernel, fun _ _ => by simp⟩
  · rw [show Example.ready.ORD.Magnet = [1, 2, 3] from by decide +kernel] at hi
    simp only [List.mem_cons, List.not_mem_nil, or_false] at hi
    rcases hi with rfl | rfl | rfl
    · rw [show sigma Example.ready.SIG.Magnet 1 "BendingAngle" = none from by decide +kernel] at hv; cases hv
    · rw [show sigma Example.ready.SIG.Magnet 2 "BendingAngle" = none from by decide +kernel] at hv; cases hv
    · rw [show sigma Example.ready.SIG.Magnet 3 "BendingAngle" = some (.num (1/100)) from by decide +kernel] at hv; cases hv
      refine ⟨⟨_, Or.inl rfl⟩, fun t ht => ?_⟩
      rcases ht with rfl | ⟨l, hl, -⟩
      · exact ⟨⟨1/10, by decide +kernel⟩, ⟨2, by decide +kernel, by decide +kernel⟩, by decide +kernel⟩
      · rw [show Example.ready.RING.attr 3 "MasterOf" = none from by decide +kernel] at hl; cases hl
  · rw [show Example.ready.ORD.RF = [4] from by decide +kernel] at hi
    simp only [List.mem_cons, List.not_mem_nil, or_false] at hi
    subst hi
    have hn := (C03_only_uncertainties_stored _ _ _ : WellRegistered Example.ready.SIG).rfNames 4 n v hv
    simp only [List.mem_cons, List.not_mem_nil, or_false] at hn
    rcases hn with rfl | rfl | rfl | rfl | rfl | rfl | rfl | rfl | rfl
    · exact absurd hv (by rw [show sigma Example.ready.SIG.RF 4 _ = none from by decide +kernel]; simp)
    · rw [show sigma Example.ready.SIG.RF 4 _ = some (.num 5) from by decide +kernel] at hv; cases hv; exact ⟨_, Or.inl rfl⟩
    · exact absurd hv (by rw [show sigma Example.ready.SIG.RF 4 _ = none from by decide +kernel]; simp)
    · exact absurd hv (by rw [show sigma Example.ready.SIG.RF 4 _ = none from by decide +kernel]; simp)
    · exact absurd hv (by rw [show sigma Example.ready.SIG.RF 4 _ = none from by decide +kernel]; simp)
    · rw [show sigma Example.ready.SIG.RF 4 _ = some (.pair (.num 1) 2) from by decide +kernel] at hv; cases hv; exact ⟨_, Or.inr ⟨_, rfl⟩⟩
    · exact absurd hv (by rw [show sigma Example.ready.SIG.RF 4 _ = none from by decide +kernel]; simp)
    · exact absurd hv (by rw [show sigma Example.ready.SIG.RF 4 _ = none from by decide +kernel]; simp)
    · exact absurd hv (by rw [show sigma Example.ready.SIG.RF 4 _ = none from by decide +kernel]; simp)

theorem Example.ready_dipole : MagnetReady Example.ready.RING 3 := by
  refine ⟨fun ab hab => ?_, fun ab hab => ?_, fun ab hab => ?_, ⟨"BndMPoleSymplectic4Pass", by decide +kernel⟩, Or.inl (by decide +kernel),
    Or.inr ⟨true, by decide +kernel⟩, fun _ => ⟨by decide +kernel, [0, -1], -1, by decide +kernel, by decide +kernel, by decide +kernel⟩,
    ⟨by decide +kernel, fun ab hab => Or.inl ?_, fun t ht ab hab => Or.inl ?_, fun _ => ⟨⟨1/10, by decide +kernel⟩, ⟨2, by decide +kernel,
      by decide +kernel⟩, by decide +kernel⟩⟩, Or.inl (by decide +kernel)⟩
  · simp only [List.mem_cons, List.not_mem_nil, or_false] at hab
    rcases hab with rfl | rfl
    · exact ⟨⟨[0, 0], by decide +kernel⟩, by decide +kernel⟩
    · exact ⟨⟨[0, -1], by decide +kernel⟩, by decide +kernel⟩
  · refine ⟨⟨[0, 0], ?_⟩, ?_⟩ <;> (revert ab; decide +kernel)
  · simp only [List.mem_cons, List.not_mem_nil, or_false] at hab
    rcases hab with rfl | rfl
    · exact ⟨⟨[0, 0], by decide +kernel⟩, by decide +kernel⟩
    · exact ⟨⟨[0, -1], by decide +kernel⟩, by decide +kernel⟩
  · revert ab; decide +kernel
  · revert t ab; decide +kernel

-- the combined function magnet as corrector, its gradient with compensation of the bending angle, and the cavity
example : CorrectorReady Example.ready.RING 3 false ∧ ComponentReady Example.ready 3 false 1 true ∧ CavityReady Example.ready.RING 4 := by
  have hc : CorrectorReady Example.ready.RING 3 false :=
    ⟨Example.ready_dipole, Or.inr ⟨⟨2, by decide +kernel, by decide +kernel⟩, by decide +kernel⟩, Or.inl (by decide +kernel)⟩
  refine ⟨hc, ⟨Example.ready_dipole, by decide +kernel, Or.inl (by decide +kernel), fun _ _ => Or.inr ⟨1/10, by decide +kernel⟩,
    fun _ _ _ _ => ⟨hc, by decide +kernel, [0, -1], -1, by decide +kernel, by decide +kernel, by decide +kernel⟩⟩, fun f hf p hp => ?_⟩
  simp only [List.mem_cons, List.not_mem_nil, or_false] at hf hp
  rcases hf with rfl | rfl | rfl <;> rcases hp with rfl | rfl | rfl
  · exact ⟨1000, by decide +kernel⟩
  · exact ⟨0, by decide +kernel⟩
  · exact ⟨0, by decide +kernel⟩
  · exact ⟨500, by decide +kernel⟩
  · exact ⟨0, by decide +kernel⟩
  · exact ⟨0, by decide +kernel⟩
  · exact ⟨0, by decide +kernel⟩
  · exact ⟨0, by decide +kernel⟩
  · exact ⟨0, by decide +kernel⟩

-- errors, a failing call and a trim: the trim and the errors changed the machine, and requests are still accepted
example : ∃ t, Session Example.world Example.ready t ∧ Example.ready.ORD.Magnet = [1, 2, 3] ∧
    t.RING.attr 3 "CalErrorB" ≠ Example.ready.RING.attr 3 "CalErrorB" ∧
    ((Call.setCM [1, 9] ⟨false, [1]⟩ false "abs").run Example.world Example.ready).isOk = false ∧
    (setCMSetpoints [1, 2, 3] ⟨false, [1/100]⟩ true "add" t).isOk = true := by
  refine ⟨_, .operation (.errors (.start _) 2) (.setCM [1, 9] ⟨false, [1]⟩ false "abs") trivial, by decide +kernel, by decide +kernel,
    by decide +kernel, by decide +kernel⟩

/-! ### where the code refuses -/

theorem error_of_map {α β : Type} {x : Except Err α} {f : α → β} {e : Err} (h : x.map f = .error e) : x = .error e := by
  cases x with
  | ok a => cases h
  | error e' => cases h; rfl

/-- **C76 is violated** for steps given as integers: a quadrupole and a cavity in order refuse them with a `TypeError`. -/
theorem C76_violated_integer_steps :
    setMagnetSetpoints [2] ⟨true, [1]⟩ false 1 "add" false Example.ready = .error .typeError Example.ready ∧
    setMagnetSetpoints [2] ⟨true, [2]⟩ false 1 "rel" false Example.ready = .error .typeError Example.ready ∧
    setCavitySetpoints [4] ⟨true, [1]⟩ "Voltage" "add" Example.ready = .error .typeError Example.ready ∧
    (setMagnetSetpoints [2] ⟨false, [1]⟩ false 1 "add" false Example.ready).isOk = true ∧
    (setCavitySetpoints [4] ⟨false, [1]⟩ "Voltage" "add" Example.ready).isOk = true := by
  have hm : ∀ {x : ℚ} {m : String}, magnetRequest Example.ready.RING [2] ⟨true, [x]⟩ false 1 m = .error .typeError →
      setMagnetSetpoints [2] ⟨true, [x]⟩ false 1 m false Example.ready = .error .typeError Example.ready := by
    intro x m hx
    unfold setMagnetSetpoints
    rw [bind_apply, rd_eq_error.2 ⟨hx, rfl⟩]
  refine ⟨hm (error_of_map (f := NpArr.vals) (by decide +kernel)), hm (error_of_map (f := NpArr.vals) (by decide +kernel)), ?_, by decide +kernel, by decide +kernel⟩
  have hx : cavityRequest Example.ready.RING [4] ⟨true, [1]⟩ "Voltage" "add" = .error .typeError :=
    error_of_map (f := NpArr.vals) (by decide +kernel)
  unfold setCavitySetpoints
  rw [bind_apply, rd_eq_error.2 ⟨hx, rfl⟩]

/-- **C76 needs fitting uncertainties**: a calibration uncertainty given as a single number is accepted by `register_magnets`, but the
errors drawn from it make `apply_errors`, and every later field update of this magnet, fail with a `ValueError`. -/
theorem C76_violated_scalar_uncertainty : ∃ s1 s2 s3 : SC ℚ,
    registerMagnets [2] [("CalErrorB", .num (1/10))] Example.raw = .ok () s1 ∧ applyErrors Example.env 2 s1 = .error .valueError s2 ∧
    updateMagnets (some [2]) s2 = .error .valueError s3 :=
  ⟨_, _, _, ok_of_isOk (by decide +kernel), err_of_err? (by decide +kernel), err_of_err? (by decide +kernel)⟩

/-- **C76 needs fitting uncertainties**: one calibration uncertainty for a combined function magnet with dipole and gradient is accepted
as well and leads to an `IndexError`. -/
theorem C76_violated_short_uncertainty : ∃ s1 s2 s3 : SC ℚ,
    registerMagnets [3] [("CF", .flag true), ("CalErrorB", .vec [1/10])] Example.raw = .ok () s1 ∧
    applyErrors Example.env 2 s1 = .error .indexError s2 ∧ updateMagnets (some [3]) s2 = .error .indexError s3 :=
  ⟨_, _, _, ok_of_isOk (by decide +kernel), err_of_err? (by decide +kernel), err_of_err? (by decide +kernel)⟩

end PySC
