import Verif.Lemmas.Restore
import Verif.Props.Setpoints
import Verif.Props.BeamLoss
/-
C19 (nothing is left of a step that was taken back) and C72 (fields follow the set-points).
-/
namespace PySC
open Py Spec
set_option linter.unusedSectionVars false
variable {K : Type} [Field K] [LinearOrder K] [FloorRing K]

/-! ### C72 -/

/-- **C72**: after updating all registered magnets, the fields of each of them are up to date. -/
theorem C72_after_update (s s' : SC K) (hsep : Separate s) (h : updateMagnets none s = .ok () s') : UpToDate s' := by
  rw [updateMagnets_none] at h
  obtain ⟨st, f⟩ := updateMagnets_tight h
  intro o ho
  rw [f.ord] at ho
  have haff : ∀ o t, Affects s'.RING o t ↔ Affects s.RING o t := by
    intro o t
    unfold Affects
    rw [f.attr o "MasterOf" (fun h => by simpa [magnetWrites] using h.mem)]
  exact st.mem ho (fun j hj t h1 h2 => hsep j hj o ho t ((haff _ _).1 h2) ((haff _ _).1 h1))

/-- **C72**: fields that are up to date stay up to date through every history of successful set-point calls addressing
registered magnets, if no element gets its field from two magnets; nothing but set-points and fields is changed. -/
theorem C72_every_history (calls : List (Trim K)) (s s' : SC K) (hsep : Separate s) (hup : UpToDate s)
    (hreg : ∀ c ∈ calls, ∀ o ∈ c.ords, o ∈ s.ORD.Magnet) (h : runTrims calls s = .ok () s') :
    UpToDate s' ∧ Separate s' ∧ s'.RING.length = s.RING.length ∧
    ∀ i a, a ∉ ["SetPointA", "SetPointB"] → ¬ FieldOf s.RING s.ORD.Magnet i a → s'.RING.attr i a = s.RING.attr i a := by
  have t := runTrims_trimmed hreg h
  exact ⟨t.up hsep hup, t.separate hsep, t.len, fun i a ha hf => t.rest i a ha hf⟩

/-- **C72**: the fields are a function of the set-points: two histories which lead to the same set-points lead to the same
lattice, in every attribute of every element. -/
theorem C72_no_hysteresis (calls calls' : List (Trim K)) (s s1 s2 : SC K) (hsep : Separate s) (hup : UpToDate s)
    (hreg : ∀ c ∈ calls, ∀ o ∈ c.ords, o ∈ s.ORD.Magnet) (hreg' : ∀ c ∈ calls', ∀ o ∈ c.ords, o ∈ s.ORD.Magnet)
    (h1 : runTrims calls s = .ok () s1) (h2 : runTrims calls' s = .ok () s2)
    (heq : ∀ i skew k, setpoint s1.RING i skew k = setpoint s2.RING i skew k) : s1.RING = s2.RING := by
  have t1 := runTrims_trimmed hreg h1
  have t2 := runTrims_trimmed hreg' h2
  exact (t2.similar.symm.trans t1.similar).same (t2.up hsep hup) (t1.up hsep hup) heq

/-- a child without master is not in two families -/
theorem Example.sc_separate : Separate Example.sc := by
  have h1 : Example.sc.RING.attr 1 "MasterOf" = none := by decide +kernel
  have h2 : Example.sc.RING.attr 2 "MasterOf" = some (.ords [3]) := by decide +kernel
  have h4 : Example.sc.RING.attr 4 "MasterOf" = none := by decide +kernel
  intro o ho o' ho' t
  simp only [show Example.sc.ORD.Magnet = [1, 2, 4] from rfl, List.mem_cons, List.not_mem_nil, or_false] at ho ho'
  rcases ho with rfl | rfl | rfl <;> rcases ho' with rfl | rfl | rfl <;> simp [Affects, h1, h2, h4] <;> omega

/-- the example machine with its fields up to date -/
def Example.upToDate : SC ℚ := (updateMagnets none Example.sc).state

theorem Example.upToDate_ok : updateMagnets none Example.sc = .ok () Example.upToDate := ok_of_isOk (by decide +kernel)

theorem Example.upToDate_separate : Separate Example.upToDate := by
  have h := Example.upToDate_ok
  rw [updateMagnets_none] at h
  exact (updateMagnets_trimmed (fun _ h => h) h).separate Example.sc_separate

theorem Example.upToDate_upToDate : UpToDate Example.upToDate := C72_after_update _ _ Example.sc_separate Example.upToDate_ok

/-- two different histories with a corrector, a quadrupole with child and the combined function magnet with compensation -/
example : (runTrims [.cm [1] ⟨false, [1/1000]⟩ false "abs", .magnet [2, 4] ⟨false, [3, -1]⟩ false 1 "abs" true] Example.upToDate).isOk ∧
    (runTrims [.magnet [2] ⟨false, [1]⟩ false 1 "add" false, .magnet [4] ⟨false, [-2]⟩ false 1 "abs" true,
      .magnet [4] ⟨false, [1]⟩ false 1 "add" true, .update [1]] Example.upToDate).isOk ∧
    ∀ o ∈ [1, 2, 4], o ∈ Example.upToDate.ORD.Magnet := by decide +kernel

/-- **C72 violated** by exceptions: a call that fails at its second corrector has set the first one, but the field does not follow. -/
theorem C72_violated_exception : ∃ s' : SC ℚ,
    setCMSetpoints [1, 7] ⟨false, [2/1000]⟩ false "abs" Example.upToDate = .error .indexError s' ∧
    UpToDate Example.upToDate ∧ ¬ UpToDate s' ∧ setpoint s'.RING 1 false 0 = 2/1000 ∧
    s'.RING.attr 1 "KickAngle" = Example.upToDate.RING.attr 1 "KickAngle" ∧
    Example.upToDate.RING.attr 1 "KickAngle" = some (.vec [11/10000, 0]) := by
  refine ⟨_, err_of_err? (by decide +kernel), Example.upToDate_upToDate, fun h => ?_, by decide +kernel, by decide +kernel, by decide +kernel⟩
  have h1 := h 1 (by decide +kernel)
  unfold Settled at h1
  have h2 : ((updateMagnets (some [1]) (setCMSetpoints [1, 7] ⟨false, [2/1000]⟩ false "abs" Example.upToDate).state).state.RING.attr 1
      "KickAngle") = some (.vec [22/10000, 0]) := by decide +kernel
  rw [h1] at h2
  exact absurd h2 (by decide +kernel)

/-! ### C19 -/

/-- **C19**: if fields are up to date before, nothing at all is left of a step that is taken back: the object is the same as
before, in every attribute (limits not being hit by the forward step). -/
theorem C19_no_trace [IsStrictOrderedRing K] (ords : List Nat) (d : K) (skew : Bool) (s s1 s2 : SC K) (hnd : ords.Nodup)
    (hs : Settled s ords)
    (h1 : setCMSetpoints ords ⟨false, [d]⟩ skew "add" s = .ok () s1)
    (h2 : setCMSetpoints ords ⟨false, [-d]⟩ skew "add" s1 = .ok () s2)
    (hlim : ∀ o ∈ ords, Lim.Nonneg (kickLimit s.RING o skew) ∧ Within (kickLimit s.RING o skew) (kick s.RING o skew) ∧
      Within (kickLimit s.RING o skew) (kick s.RING o skew + d)) : s2 = s := by
  have hr : s2.RING = s.RING := setCM_restores hs h1 rfl h2 (fun o ho => by
    obtain ⟨a, b, c⟩ := hlim o ho
    exact C19_forth_and_back ords d skew s s1 s2 hnd h1 h2 o ho a b c)
  have f1 := (setCMSetpoints_modifies _ _ _ _).ok h1
  have f2 := (setCMSetpoints_modifies _ _ _ _).ok h2
  have e1 := f2.ideal.trans f1.ideal
  have e2 := f2.inj.trans f1.inj
  have e3 := f2.sig.trans f1.sig
  have e4 := f2.ord.trans f1.ord
  have e5 := f2.rng.trans f1.rng
  cases s2; cases s
  simp only [SC.mk.injEq]
  exact ⟨hr, e1, e2, e3, e4, e5⟩

example : Settled Example.upToDate [1] ∧
    (setCMSetpoints [1] ⟨false, [1/1000]⟩ false "add" Example.upToDate).isOk ∧
    (setCMSetpoints [1] ⟨false, [-1/1000]⟩ false "add" (setCMSetpoints [1] ⟨false, [1/1000]⟩ false "add" Example.upToDate).state).isOk :=
  ⟨Example.upToDate_upToDate 1 (by decide +kernel), by decide +kernel, by decide +kernel⟩

end PySC
