import Verif.Model.MatlabIndex
import Verif.Spec.MatlabIndex
import Verif.Props.Correctors
import Verif.Props.Setpoints
import Verif.Props.Multipoles
import Verif.Props.Transformation
import Verif.Props.Rf
import Verif.Props.Orbit
import Verif.Props.Bba
import Verif.Props.ScTools
/-
C77: the functions named as in the Matlab toolkit SC do what the functions of that name do, with its conventions.
C78: orbit-based alignment.
-/
set_option linter.unusedSectionVars false
namespace PySC
open Py Spec
variable {K : Type} [Field K] [LinearOrder K]

/-! ### C77: planes, kinds and orders -/

theorem verticalOf_some {n : Int} {v : Bool} (h : verticalOf n = some v) : ¬ (n ≠ 1 ∧ n ≠ 2) ∧ decide (n = 2) = v := by
  unfold verticalOf at h
  split at h
  · cases h; subst n; simp
  · split at h
    · cases h; subst n; simp
    · cases h

theorem verticalOf_none {n : Int} : verticalOf n = none ↔ n ≠ 1 ∧ n ≠ 2 := by
  unfold verticalOf
  by_cases h1 : n = 1
  · simp [h1]
  · by_cases h2 : n = 2 <;> simp [h1, h2]

theorem skewOf_some {n : Int} {v : Bool} (h : skewOf n = some v) : ¬ (n ≠ 1 ∧ n ≠ 2) ∧ decide (n = 1) = v := by
  unfold skewOf at h
  split at h
  · cases h; subst n; simp
  · split at h
    · cases h; subst n; simp
    · cases h

theorem skewOf_none {n : Int} : skewOf n = none ↔ n ≠ 1 ∧ n ≠ 2 := by
  unfold skewOf
  by_cases h1 : n = 1
  · simp [h1]
  · by_cases h2 : n = 2 <;> simp [h1, h2]

section order
variable [FloorRing K] [IsStrictOrderedRing K]

/-- **C77**: `SCsetCMs2SetPoints` returns the kicks the correctors of the plane have been set to, each the requested one clipped to
its limit, and changes nothing else; `SCgetCMSetPoints` reads the same. -/
theorem C77_correctors (ords : List Nat) (vals : List K) (nDim : Int) (mode : String) (s s' : SC K) (out : List K) (hnd : ords.Nodup)
    (h : scSetCMs2SetPoints ords ⟨false, vals⟩ nDim mode s = .ok out s') :
    ∃ vertical, verticalOf nDim = some vertical ∧
      scGetCMSetPoints ords nDim s' = .ok out s' ∧ out.length = ords.length ∧
      ((∀ o ∈ ords, Lim.Nonneg (kickLimit s.RING o vertical)) → ∀ k o, ords[k]? = some o →
        out[k]? = some (clip (kickLimit s.RING o vertical) (asked mode (valueFor vals k) (kick s.RING o vertical)))) ∧
      (∀ i sk k, (i ∉ ords ∨ sk ≠ vertical ∨ k ≠ 0) → setpoint s'.RING i sk k = setpoint s.RING i sk k) := by
  cases hv : verticalOf nDim with
  | none =>
    unfold scSetCMs2SetPoints at h
    rw [if_pos (verticalOf_none.1 hv)] at h
    cases h
  | some v =>
    obtain ⟨h1, h2⟩ := verticalOf_some hv
    unfold scSetCMs2SetPoints at h
    rw [if_neg h1, h2, bind_eq_ok] at h
    obtain ⟨⟨⟩, s1, hs, hg⟩ := h
    have hr : getCMSetpoints ords v s1 = .ok (ords.map (fun o => kick s1.RING o v)) s1 := by
      rw [getCMSetpoints, rd_eq_ok]
      exact ⟨mapM_except_ok (fun o ho => (setCMSetpoints_readable hs ho).getCM1), rfl⟩
    rw [hr] at hg
    obtain ⟨rfl, rfl⟩ : ords.map (fun o => kick s1.RING o v) = out ∧ s1 = s' := by simpa using hg
    refine ⟨v, rfl, ?_, by simp, fun hlim k o hk => ?_, ?_⟩
    · unfold scGetCMSetPoints
      rw [if_neg h1, h2, hr]
    · rw [List.getElem?_map, hk, Option.map_some]
      rw [C11_correctors ords vals v mode s s1 hnd hs k o hk (hlim o (List.mem_iff_getElem?.2 ⟨k, hk⟩))]
    · have := (C11_correctors_nothing_else ords ⟨false, vals⟩ v mode s).1
      rw [hs] at this
      exact this

/-- **C77**: `SCsetMags2SetPoints` counts multipoles from one (1 dipole, 2 quadrupole, ...), and type 1 means skew. -/
theorem C77_magnets (ords : List Nat) (type : Int) (order : Nat) (vals : List K) (method : String) (comp : Bool) (s s' : SC K)
    (h : scSetMags2SetPoints ords type order ⟨false, vals⟩ method comp s = .ok () s') :
    ∃ skew k, skewOf type = some skew ∧ order = k + 1 ∧
      (∀ n o, LastAt ords n o → Lim.Nonneg (skewLimit s.RING o) → setpoint s'.RING o skew k =
        magnetStored s.RING o skew k (magnetAsked s.RING o skew k method (valueFor vals n))) ∧
      (comp = false → ∀ i sk j, (i ∉ ords ∨ sk ≠ skew ∨ j ≠ k) → setpoint s'.RING i sk j = setpoint s.RING i sk j) := by
  unfold scSetMags2SetPoints at h
  cases hv : skewOf type with
  | none => rw [if_pos (skewOf_none.1 hv)] at h; cases h
  | some v =>
    obtain ⟨h1, h2⟩ := skewOf_some hv
    rw [if_neg h1] at h
    cases order with
    | zero => cases h
    | succ k =>
      simp only [h2] at h
      refine ⟨v, k, rfl, rfl, fun n o hn hl => C11_magnets ords vals v k method comp s s' h n o hn hl, fun hc => ?_⟩
      subst hc
      exact (C11_magnets_nothing_else ords _ v k method s s' h).1

/-- kicks at a thin and at a thick corrector, the second beyond its limit; a skew quadrupole component, order 2 of type 1 -/
example : (scSetCMs2SetPoints [1, 2] ⟨false, [1/1000, 5]⟩ 1 "abs" Example.sc).value? = some [1/1000, 1/100] ∧
    (scGetCMSetPoints [1, 2] 2 (scSetCMs2SetPoints [1, 2] ⟨false, [1/1000, 5]⟩ 1 "abs" Example.sc).state).value? =
      (scGetCMSetPoints [1, 2] 2 Example.sc).value? ∧
    (scSetMags2SetPoints [2] 1 2 ⟨false, [1/50]⟩ "abs" false Example.sc).isOk = true ∧
    (scSetMags2SetPoints [2] 1 2 ⟨false, [1/50]⟩ "abs" false Example.sc).state.RING.attr 2 "SetPointA" = some (.vec [0, 1/50]) := by
  decide +kernel

/-- **C77**: other planes and kinds than 1 and 2 are refused before anything is changed. -/
theorem C77_refuses (E : Env K) (ords : List Nat) (sp : NpArr K) (AB : List (K × K)) (n : Int) (order : Nat) (o : Option Nat) (mode : String)
    (comp : Bool) (s : SC K) (h : n ≠ 1 ∧ n ≠ 2) :
    scGetCMSetPoints ords n s = .error .valueError s ∧ scSetCMs2SetPoints ords sp n mode s = .error .valueError s ∧
    scSetMags2SetPoints ords n order sp mode comp s = .error .valueError s ∧
    scSetMultipoles E ords AB mode o (some n) s = .error .valueError s := by
  unfold scGetCMSetPoints scSetCMs2SetPoints scSetMags2SetPoints scSetMultipoles
  rw [if_pos h, if_pos h, if_pos h, if_pos ⟨by simp, by simpa using h.1, by simpa using h.2⟩]
  exact ⟨rfl, rfl, rfl, rfl⟩

/-- **C77**: `SCfitInjectionZ` is one of the two native corrections of the injection (see C50 and C51); other modes are refused before anything
is changed. -/
theorem C77_fit_injection (E : Env K) (B : BeamEnv K) (J : InjEnv K) (mode : String) (nBpms : List Nat) (s : SC K) :
    (mode = "fitTrajectory" → scFitInjectionZ E B J mode nBpms s = fitInjectionTrajectory E B J nBpms s) ∧
    (mode = "injectionDrift" → scFitInjectionZ E B J mode nBpms s = fitInjectionDrift E B s) ∧
    (mode ∉ ["fitTrajectory", "injectionDrift"] → scFitInjectionZ E B J mode nBpms s = .error .valueError s) := by
  unfold scFitInjectionZ
  refine ⟨fun h => by rw [if_pos h], fun h => ?_, fun h => ?_⟩
  · subst h; rw [if_neg (by decide), if_pos rfl]
  · simp only [List.mem_cons, List.not_mem_nil, or_false, not_or] at h
    rw [if_neg h.1, if_neg h.2]
    rfl

/-! ### C77: multipoles -/

theorem entry_swap (AB : List (K × K)) {ab : String} (h : ab ∈ ["A", "B"]) (k : Nat) :
    entry (AB.map Prod.swap) ab k = entryAB AB ab k := by
  unfold entry entryAB
  rw [List.getElem?_map]
  cases AB[k]? with
  | none => rfl
  | some p =>
    simp only [List.mem_cons, List.not_mem_nil, or_false] at h
    rcases h with rfl | rfl <;> simp

/-- **C77**: `SCsetMultipoles` with random errors takes the amplitudes of the skew multipoles from the first column of its table
and those of the normal ones from the second. -/
theorem C77_random_multipoles (E : Env K) (ords : List Nat) (AB : List (K × K)) (order : Option Nat) (type : Option Int) (s s' : SC K)
    (h : scSetMultipoles E ords AB "rnd" order type s = .ok () s') :
    ∃ ts : List (List (K × K)), ts.length = ords.length ∧
      (∀ t ∈ ts, t.length = AB.length ∧ ∀ ab ∈ ["A", "B"], ∀ k, |entry t ab k| ≤ 2 * |entryAB AB ab k|) ∧
      ∀ i, ∀ ab ∈ ["A", "B"], ∀ k, coef (vecAt s'.RING i ("Polynom" ++ ab ++ "Offset")) k =
        coef (vecAt s.RING i ("Polynom" ++ ab ++ "Offset")) k +
          ((ords.zip ts).map (fun p => if p.1 = i then entry p.2 ab k else 0)).sum := by
  unfold scSetMultipoles at h
  split at h
  · cases h
  rw [if_pos rfl] at h
  obtain ⟨ts, h1, h2, h3⟩ := C57_random_multipoles E ords _ s s' h
  refine ⟨ts, h1, fun t ht => ⟨by simpa using (h2 t ht).1, fun ab hab k => ?_⟩, h3⟩
  rw [← entry_swap AB hab]
  exact (h2 t ht).2 ab hab k

/-- **C77**: with systematic errors, `order` counts from one and `type` names the kind of the main field, 1 skew.  Both
polynomials get the column of the table named by the type instead of one each (as `C56_violated_columns`). -/
theorem C77_systematic_multipoles_partial (E : Env K) (ords : List Nat) (AB : List (K × K)) (method : String) (hm : method ≠ "rnd")
    (order : Option Nat) (type : Option Int) (s s' : SC K) (h : scSetMultipoles E ords AB method order type s = .ok () s') (i : Nat)
    (hi : i ∈ ords) (main : String) (hmain : main = if type = some 1 then "A" else "B")
    (hno : ∀ target ∈ ["A", "B"], s.RING.attr i ("SysPol" ++ target ++ "From" ++ main) = none) :
    ∃ n, order = some (n + 1) ∧ ∀ target ∈ ["A", "B"], ∀ k,
      multipole s'.RING i i target k = multipole s.RING i i target k +
        mainField s.RING i main n * (if k = n then 0 else entryAB AB main k) := by
  unfold scSetMultipoles at h
  rw [if_neg hm] at h
  split at h
  · cases h
  split at h
  · cases h
  · cases h
  · rename_i n
    rw [bind_eq_ok] at h
    obtain ⟨BA', s1, h1, h2⟩ := h
    cases h2
    refine ⟨n, rfl, fun target ht k => ?_⟩
    have hsrc : (if decide (type = some 1) = true then "A" else "B") = main := by rw [hmain]; simp
    have := C56_effect_partial ords _ BA' n _ s s' h1 i hi (by rw [hsrc]; exact hno) target ht k
    rw [hsrc] at this
    rw [this, entry_swap AB (by rw [hmain]; split <;> simp)]

end order

example : (scSetMultipoles Example.env [2, 3, 2] [(1/10, 1), (0, 2), (1, 1/100)] "rnd" none none Example.sc).isOk = true ∧
    (scSetMultipoles Example.env [4] [(1/10, 1), (0, 2), (1, 1/100)] "sys" (some 2) (some 2) Example.sc).isOk = true ∧
    (scSetMultipoles Example.env [4] [(1/10, 1), (0, 2), (1, 1/100)] "sys" (some 2) (some 2) Example.sc).state.RING.attr 4 "SysPolBFromB" =
      some (.multip [(1, [1, 0, 1/100])]) ∧
    Example.sc.RING.attr 4 "SysPolAFromB" = none ∧ Example.sc.RING.attr 4 "SysPolBFromB" = none := by decide +kernel

/-! ### C77: the feedback functions take the pseudo-inverse -/

theorem Spec.IsPseudoInverse.symm {m n : Nat} {a : Matrix (Fin m) (Fin n) K} {x : Matrix (Fin n) (Fin m) K} (h : IsPseudoInverse a x) :
    IsPseudoInverse x a := ⟨h.outer, h.inner, h.right, h.left⟩

/-- **C77**: if `Mplus` is the pseudo-inverse of a response matrix, and `np.linalg.pinv` finds the pseudo-inverse of `Mplus`, the
functions `SCfeedback...`, which are given `Mplus`, do exactly what the functions of pySC do, which are given the response matrix. -/
theorem C77_feedback [FloorRing K] [IsStrictOrderedRing K] (E : Env K) (B : BeamEnv K) (O : OrbitEnv K)
    (npPinv : List (List K) → Except Err (List (List K))) {m n : Nat} (rm x : Matrix (Fin m) (Fin n) K) (mplus : Matrix (Fin n) (Fin m) K)
    (hm : IsPseudoInverse rm mplus) (hx : npPinv (rowsOf mplus) = .ok (rowsOf x)) (hp : IsPseudoInverse mplus x)
    (r0 : Option (List K)) (cms : Option CMs) (bpms : Option (List Nat)) (eps target scaleDisp : K) (nBpms maxsteps : Nat) :
    scFeedbackFirstTurn E B O npPinv (rowsOf mplus) r0 cms bpms maxsteps = firstTurn E B O (rowsOf rm) r0 cms bpms maxsteps ∧
    scFeedbackStitch E B O npPinv (rowsOf mplus) r0 cms bpms nBpms maxsteps = stitch E B O (rowsOf rm) r0 cms bpms nBpms maxsteps ∧
    scFeedbackBalance E B O npPinv (rowsOf mplus) r0 cms bpms eps maxsteps = balance E B O (rowsOf rm) r0 cms bpms eps maxsteps ∧
    scFeedbackRun E B O npPinv (rowsOf mplus) r0 cms bpms eps target maxsteps scaleDisp =
      correct E B O (rowsOf rm) r0 cms bpms eps target maxsteps scaleDisp := by
  have e : x = rm := C47_unique mplus x rm hp hm.symm
  subst e
  unfold scFeedbackFirstTurn scFeedbackStitch scFeedbackBalance scFeedbackRun
  rw [hx]
  exact ⟨rfl, rfl, rfl, rfl⟩

/-- two BPM readings and one corrector: the response (2, 1) has the pseudo-inverse (2/5, 1/5) -/
example : IsPseudoInverse (!![2; 1] : Matrix (Fin 2) (Fin 1) ℚ) !![2/5, 1/5] ∧ rowsOf (!![2; 1] : Matrix (Fin 2) (Fin 1) ℚ) = [[2], [1]] ∧
    rowsOf (!![2/5, 1/5] : Matrix (Fin 1) (Fin 2) ℚ) = [[2/5, 1/5]] := by
  refine ⟨⟨?_, ?_, ?_, ?_⟩, by decide +kernel, by decide +kernel⟩ <;> decide +kernel

/-! ### C77: geometry -/

/-- **C77**: `SCgetTransformation` returns the transformations of an element moved by `(dx, dy, dz)` and turned by `ax`, `ay`, `az`
about the axes, with the reference point at its entrance. -/
theorem C77_transformation (dx dy dz ax ay az θ L : ℝ) (refPoint : String) (out : List ℝ × List ℝ × List (List ℝ) × List (List ℝ))
    (h : scGetTransformation dx dy dz ax ay az θ L refPoint = .ok out) :
    ∃ (T1 T2 : Fin 6 → ℝ) (R1 R2 : Matrix (Fin 6) (Fin 6) ℝ), out = (List.ofFn T1, List.ofFn T2, rowsOf R1, rowsOf R2) ∧
      ∀ v : Fin 6 → ℝ, v 1 = 0 → v 3 = 0 → v 4 = 0 →
        Arrives entrance (entrance.moved (turned ax ay az) ![dx, dy, dz]) v (R1.mulVec (v + T1)) ∧
        Arrives ((exitPlace L θ).moved (turned ax ay az) ![dx, dy, dz]) (exitPlace L θ) v (R2.mulVec v + T2) := by
  unfold scGetTransformation at h
  split at h
  · cases h
  have e : rollBack (roll1 [ax, ay, az]) = [(![ax, ay, az] : Fin 3 → ℝ) 0, ![ax, ay, az] 1, ![ax, ay, az] 2] := rfl
  rw [e] at h
  obtain ⟨t, ht, rfl⟩ := transformLists_eq_ok (o := ![dx, dy, dz]) h
  refine ⟨t.T1, t.T2, t.R1, t.R2, rfl, fun v h1 h3 h4 => ?_⟩
  exact ⟨C30_entrance L θ _ _ t ht v h1 h3 h4, C30_exit L θ _ _ t ht v h1 h3 h4⟩

example (x y L : ℝ) : ∃ out, scGetTransformation x y 0 0 0 0 0 L "entrance" = .ok out := by
  have e : rollBack (roll1 [(0 : ℝ), 0, 0]) = [(0 : Fin 3 → ℝ) 0, (0 : Fin 3 → ℝ) 1, (0 : Fin 3 → ℝ) 2] := rfl
  unfold scGetTransformation
  rw [if_neg (by decide), e]
  have : transformLists L 0 [x, y, 0] [(0 : Fin 3 → ℝ) 0, (0 : Fin 3 → ℝ) 1, (0 : Fin 3 → ℝ) 2] =
      (transformation L 0 ![x, y, 0] ![(0 : Fin 3 → ℝ) 0, (0 : Fin 3 → ℝ) 1, (0 : Fin 3 → ℝ) 2] >>= fun t =>
        .ok (List.ofFn t.T1, List.ofFn t.T2, matRows t.R1, matRows t.R2)) := rfl
  rw [this, vec3_eta, C30_straight_offset]
  exact ⟨_, rfl⟩

/-- **C77** is violated: the default reference point of `SCgetTransformation` is refused. -/
theorem C77_violated_reference_point (dx dy dz ax ay az θ L : ℝ) :
    scGetTransformation dx dy dz ax ay az θ L "center" = .error .notImplemented := if_pos rfl

/-! ### C77: radio frequency -/

section rf
variable [FloorRing K] [IsStrictOrderedRing K]

/-- **C77**: `SCsynchPhaseCorrection` is the phase correction with its own number of turns, which it sets back. -/
theorem C77_phase_partial (E : Env K) (B : BeamEnv K) (R : RfEnv K) (cavs : Option (List Nat)) (nSteps nTurns : Nat) (s s' : SC K)
    (hc : ∀ i ∈ cavs.getD s.ORD.RF, CavityReady s.RING i)
    (h : scSynchPhaseCorrection E B R cavs nSteps nTurns s = .ok () s') :
    (∃ s1, correctRfPhase E B R cavs none nSteps { s with INJ := { s.INJ with nTurns := nTurns } } = .ok () s1 ∧
      s'.RING = s1.RING) ∧ ∃ d, Shifted (cavs.getD s.ORD.RF) "TimeLag" d s s' := by
  unfold scSynchPhaseCorrection at h
  rw [bindGet_eq_ok, bind_eq_ok] at h
  obtain ⟨⟨⟩, s0, h0, h⟩ := h
  cases h0
  rw [bind_eq_ok] at h
  obtain ⟨⟨⟩, s1, h1, h⟩ := h
  cases h
  refine ⟨⟨s1, h1, rfl⟩, ?_⟩
  obtain ⟨-, -, d, -, -, -, hd, -⟩ :=
    C45_phase E B R cavs none nSteps { s with INJ := { s.INJ with nTurns := nTurns } } s1 hc h1
  have f := hd.rest
  exact ⟨d, hd.setpoint, hd.realised, f.ideal, by simp [f.inj], f.sig, f.ord, f.len, f.attr⟩

/-- **C77** is violated: `SCsynchEnergyCorrection` fails whatever it is given, and leaves the number of turns changed. -/
theorem C77_violated_energy (nTurns : Nat) (s : SC K) :
    ∃ s', scSynchEnergyCorrection nTurns s = .error .typeError s' ∧ s'.INJ.nTurns = nTurns ∧ s'.RING = s.RING :=
  ⟨_, rfl, rfl, rfl⟩

end rf

example : (scSynchPhaseCorrection Example.rand Example.driftBeam Example.saw none 6 8 Example.sc).isOk = true ∧
    (scSynchPhaseCorrection Example.rand Example.driftBeam Example.saw none 6 8 Example.sc).state.INJ.nTurns = Example.sc.INJ.nTurns ∧
    Example.sc.INJ.nTurns ≠ 8 := by decide +kernel

/-- **C77** is violated: if the measurement fails, `SCsynchPhaseCorrection` leaves the number of turns changed. -/
theorem C77_violated_phase_failure : ∃ e s', scSynchPhaseCorrection Example.rand Example.driftBeam Example.saw none 5 8 Example.sc = .error e s' ∧
    s'.INJ.nTurns = 8 ∧ Example.sc.INJ.nTurns ≠ 8 :=
  ⟨.valueError, _, err_of_err? (by decide +kernel), by decide +kernel, by decide +kernel⟩

/-! ### C77: alignment -/

/-- **C77** is violated: `SCBBA` needs the argument `mode`, and with another mode than "TBT" and "ORB", for example the mode of the
machine "PORB", it does nothing without saying so. -/
theorem C77_violated_bba_mode [FloorRing K] (E : Env K) (B : BeamEnv K) (Q : BbaEnv K) (bpmOrds magOrds : List (List Nat)) (par : BbaPar K)
    (u : Bool) (rm : Option RMstruct) (s : SC K) :
    scBBA E B Q bpmOrds magOrds par u rm none s = .error .keyError s ∧
    ∀ mode, mode ≠ "TBT" → mode ≠ "ORB" → scBBA E B Q bpmOrds magOrds par u rm (some mode) s = .ok none s := by
  refine ⟨rfl, fun mode h1 h2 => ?_⟩
  unfold scBBA
  simp only [if_neg h1, if_neg h2]
  rfl

/-- **C77** is violated: the random part of the offsets left by `SCpseudoBBA` is always cut at two standard deviations, whatever
cut is requested. -/
theorem C77_violated_pseudo_bba (E : Env K) (S : StatsEnv K) (bpmOrds magOrds : List (List Nat)) (post : List (Option K)) (sigma sigma' : K) :
    scPseudoBBA E S bpmOrds magOrds post sigma = scPseudoBBA E S bpmOrds magOrds post sigma' := rfl

/-! ### C78 -/

/-- **C78** is violated: orbit-based alignment never completes, whatever it is given; nothing is measured. -/
theorem C78_violated_orbit_bba [FloorRing K] [IsStrictOrderedRing K] (E : Env K) (B : BeamEnv K) (bpmOrds magOrds : List (List Nat))
    (fitOrder : Nat) (u : Bool) (rm : Option RMstruct) (s : SC K) :
    ∃ e s', orbitBba E B bpmOrds magOrds fitOrder u rm s = .error e s' ∧ s' = { s with rng := s'.rng } := by
  have bump : ∃ e s', getOrbitBump E B u rm s = .error e s' ∧ s' = { s with rng := s'.rng } := by
    cases rm with
    | none => exact ⟨_, s, rfl, rfl⟩
    | some x =>
      cases u with
      | false => exact ⟨_, s, rfl, rfl⟩
      | true =>
        have hr := bpmReading_onlyRng E B none false s
        unfold getOrbitBump
        simp only [if_true]
        cases h : bpmReading E B none false s with
        | error e s' => rw [bind_apply, h]; rw [h] at hr; exact ⟨e, s', rfl, hr.1⟩
        | ok r s' => rw [bind_apply, h]; rw [h] at hr; exact ⟨_, s', rfl, hr.1⟩
  unfold orbitBba
  rw [bind_apply, get_apply]
  simp only
  split_ifs
  · exact ⟨_, s, rfl, rfl⟩
  · exact ⟨_, s, rfl, rfl⟩
  · exact ⟨_, s, rfl, rfl⟩
  · split
    · rename_i b _ _ _
      rw [bind_apply]
      simp only [lift]
      cases h : bpmIndex s.ORD.BPM b with
      | error e => exact ⟨e, s, rfl, rfl⟩
      | ok k => exact bump
    · exact ⟨_, s, rfl, rfl⟩

/-- **C78**: an orbit-based alignment which fails (as it always does) has changed nothing but the state of the random numbers, also
when it is called through `SCBBA`. -/
theorem C78_unchanged_partial [FloorRing K] [IsStrictOrderedRing K] (E : Env K) (B : BeamEnv K) (Q : BbaEnv K) (bpmOrds magOrds : List (List Nat))
    (par : BbaPar K) (u : Bool) (rm : Option RMstruct) (s : SC K) :
    ∃ e s', scBBA E B Q bpmOrds magOrds par u rm (some "ORB") s = .error e s' ∧ s' = { s with rng := s'.rng } := by
  obtain ⟨e, s', h, h'⟩ := C78_violated_orbit_bba E B bpmOrds magOrds par.fitOrder u rm s
  refine ⟨e, s', ?_, h'⟩
  have : scBBA E B Q bpmOrds magOrds par u rm (some "ORB") s =
      (orbitBba E B bpmOrds magOrds par.fitOrder u rm >>= fun _ => Py.pure none) s := rfl
  rw [this, bind_apply, h]

end PySC
