import Verif.Lemmas.Tune
import Verif.Props.BeamLoss
import Verif.Props.Orbit
import Mathlib.Analysis.SpecialFunctions.Trigonometric.Basic
/-
C46 Tune scan.
-/
set_option linter.unusedSectionVars false
namespace PySC
open Py Spec
variable {K : Type} [Field K] [LinearOrder K] [IsStrictOrderedRing K] [FloorRing K]

/-- **C46** The scan starts in the centre of the grid and its indices are at most twice those of the centre; so for odd numbers
of grid points they are within the grid. -/
theorem C46_points (T : TuneEnv K) (rel : List K × List K) (n : Nat) (inds : List (Nat × Nat)) (h0 : T.sqrt 0 = 0)
    (h : goldenDonutInds T (rel.1.length / 2, rel.2.length / 2) n = .ok inds) :
    inds.length = n ∧ (0 < n → inds[0]? = some (rel.1.length / 2, rel.2.length / 2)) ∧
      ∀ i ∈ inds, (rel.1.length % 2 = 1 → i.1 < rel.1.length) ∧ (rel.2.length % 2 = 1 → i.2 < rel.2.length) := by
  unfold goldenDonutInds at h
  split at h
  · cases h
  cases h
  refine ⟨by simp, fun hn => ?_, fun i hi => ?_⟩
  · have hz : ∀ r : Nat, donutIndex r (0 : K) = r := by
      intro r
      have : npRound (0 : K) = 0 := by
        unfold npRound
        simp
      unfold donutIndex
      rw [this]
      omega
    rw [List.getElem?_map, List.getElem?_range hn]
    simp [h0, hz]
  · rw [List.mem_map] at hi
    obtain ⟨k, -, rfl⟩ := hi
    have hle : ∀ (r : Nat) (x : K), donutIndex r x ≤ 2 * r := by
      intro r x
      unfold donutIndex
      omega
    refine ⟨fun hodd => ?_, fun hodd => ?_⟩
    · refine lt_of_le_of_lt (hle _ _) ?_
      simp only
      omega
    · refine lt_of_le_of_lt (hle _ _) ?_
      simp only
      omega

/-- **C46** If `tune_scan` returns, the quadrupoles are set to the returned multiples of their nominal strengths, whatever they
were set to before, and no other set-point has changed.  All results were measured with the quadrupoles set according to their
grid point.  The factors are those of the first point at which the target was reached; or, if it was not reached or a full scan
was asked for, of the point with the highest transmission or, without any transmission in the last turn, with the most turns. -/
theorem C46_result (E : Env K) (B : BeamEnv K) (T : TuneEnv K) (q : List Nat × List Nat) (rel : List K × List K) (target : K)
    (n : Nat) (np nt : Option Nat) (fullScan : Bool) (s s' : SC K) (f : K × K) (results : List (ScanPoint K))
    (hnd : (q.1 ++ q.2).Nodup) (h0 : T.sqrt 0 = 0) (h : tuneScan E B T q rel target n np nt fullScan s = .ok (f, results) s') :
    OnlyQuads q s s' ∧ FamiliesAt s'.RING q f ∧
    (∀ p ∈ results, Measured E B q rel (np.getD s.INJ.nParticles) (nt.getD s.INJ.nTurns) s p) ∧
    results.head?.map ScanPoint.ind = some (rel.1.length / 2, rel.2.length / 2) ∧
    ∃ p, factorsAt rel p.ind f ∧
      ((fullScan = false ∧ target ≤ transmitted p ∧ ∃ pre, results = pre ++ [p] ∧ ∀ x ∈ pre, transmitted x < target) ∨
      ((fullScan = true ∨ ∀ x ∈ results, transmitted x < target) ∧ results.length = n ∧ Latest results p ∧
        ((0 < transmitted p ∧ ∀ x, Latest results x → transmitted x ≤ transmitted p) ∨
        ((∀ x, Latest results x → transmitted x ≤ 0) ∧ 0 < p.turns ∧ ∀ x, Latest results x → x.turns ≤ p.turns)))) := by
  unfold tuneScan at h
  rw [bindGet_eq_ok] at h
  rw [bindLift_eq_ok] at h; obtain ⟨inds, hinds, h⟩ := h
  rw [bindLift_eq_ok] at h; obtain ⟨a, ha, h⟩ := h
  rw [bindRd_eq_ok] at h; obtain ⟨_, -, h⟩ := h
  rw [bindLift_eq_ok] at h; obtain ⟨b, hb, h⟩ := h
  rw [bindRd_eq_ok] at h; obtain ⟨_, -, h⟩ := h
  rw [bind_eq_ok] at h; obtain ⟨out, s1, hl, h⟩ := h
  rw [idx_eq_ok] at ha hb
  have hne : (q.1 ++ q.2).length ≠ 1 := by
    have := (List.getElem?_eq_some_iff.1 ha).1
    have := (List.getElem?_eq_some_iff.1 hb).1
    rw [List.length_append]
    omega
  obtain ⟨hlen, hcent, -⟩ := C46_points T rel n inds h0 hinds
  obtain ⟨o1, new, e, hm, hmatch⟩ := scanLoop_ok hnd hne (OnlyQuads.refl q s) hl
  rw [List.nil_append] at e
  have hhead : ∀ l : List (ScanPoint K), l.map ScanPoint.ind <+: inds → l ≠ [] →
      l.head?.map ScanPoint.ind = some (rel.1.length / 2, rel.2.length / 2) := by
    intro l hp hl
    obtain ⟨t, ht⟩ := hp
    cases l with
    | nil => exact absurd rfl hl
    | cons x l =>
      have := hcent (by rw [← hlen, ← ht]; simp)
      rw [← ht] at this
      simpa using this
  cases hout : out.1 with
  | some g =>
    simp only [hout] at h hmatch
    cases h
    obtain ⟨hfam, hfull, hpre, pre, p, rfl, hfa, ht, hx⟩ := hmatch
    exact ⟨o1, hfam, by rw [e]; exact hm, by rw [e]; exact hhead _ hpre (by simp), p, hfa, Or.inl ⟨hfull, ht, pre, e, hx⟩⟩
  | none =>
    simp only [hout] at h hmatch
    rw [bindLift_eq_ok] at h; obtain ⟨k, hk, h⟩ := h
    rw [bindLift_eq_ok] at h; obtain ⟨i, hi, h⟩ := h
    rw [bindLift_eq_ok] at h; obtain ⟨f1, hf1, h⟩ := h
    rw [bindLift_eq_ok] at h; obtain ⟨f2, hf2, h⟩ := h
    rw [bind_eq_ok] at h; obtain ⟨_, s2, h2, h⟩ := h
    rw [idx_eq_ok] at hi hf1 hf2
    cases h
    obtain ⟨hinds', hbelow⟩ := hmatch
    rw [e] at hk ⊢
    have hall : ∀ j ∈ inds, ∃ p, lastAt new j = some p := by
      intro j hj
      rw [← hinds'] at hj
      obtain ⟨x, hx, rfl⟩ := List.mem_map.1 hj
      unfold lastAt
      rw [← Option.isSome_iff_exists, List.find?_isSome]
      exact ⟨x, List.mem_reverse.2 hx, by simp⟩
    have hget : ∀ (l : List (Nat × Nat)), (∀ j ∈ l, ∃ p, lastAt new j = some p) → ∀ m : Nat,
        (l.filterMap (lastAt new))[m]? = l[m]?.bind (lastAt new) := by
      intro l
      induction l with
      | nil => intro _ m; simp
      | cons j l ih =>
        intro hl m
        obtain ⟨p, hp⟩ := hl j (by simp)
        rw [List.filterMap_cons_some hp]
        cases m with
        | zero => simp [hp]
        | succ m => simpa using ih (fun j hj => hl j (by simp [hj])) m
    have hmem : ∀ x, x ∈ inds.filterMap (lastAt new) ↔ Latest new x := by
      intro x
      rw [List.mem_filterMap]
      constructor
      · rintro ⟨j, -, hj⟩
        exact (lastAt_eq_some hj).2
      · intro hx
        refine ⟨x.ind, ?_, lastAt_of_latest hx⟩
        rw [← hinds']
        obtain ⟨a, b, rfl, -⟩ := hx
        simp
    unfold bestPoint at hk
    simp only at hk
    split at hk
    · cases hk
    rename_i hne'
    split at hk
    · cases hk
    rename_i hturns
    have hpne : inds.filterMap (lastAt new) ≠ [] := by simpa using hne'
    have hnewne : new ≠ [] := by
      rintro rfl
      apply hpne
      rw [← hinds']
      simp
    obtain ⟨p, hp⟩ := hall i (List.mem_iff_getElem?.2 ⟨k, hi⟩)
    obtain ⟨hpi, hpl⟩ := lastAt_eq_some hp
    refine ⟨o1.trans (scanSet_ok h2), scanSet_families hnd hne h2, hm, hhead _ (by rw [hinds']) hnewne, p,
      by rw [hpi]; exact ⟨hf1, hf2⟩, Or.inr ⟨hbelow, ?_, hpl, ?_⟩⟩
    · rw [← hlen, ← hinds', List.length_map]
    have hpk : (inds.filterMap (lastAt new))[k]? = some p := by rw [hget _ hall, hi]; exact hp
    have hfin : ∀ x : ScanPoint K, finalTransmission x = transmitted x := fun x => getLastD_eq_coef _
    split at hk
    · rename_i htr
      injection hk with hk
      right
      simp only [List.all_map, List.all_eq_true, Function.comp_apply, decide_eq_true_eq, hfin, hmem] at htr
      obtain ⟨x, hx, hmx⟩ := argmaxFirst_spec ((inds.filterMap (lastAt new)).map (fun p => (p.turns : K))) (by simpa using hpne)
      rw [hk, List.getElem?_map, hpk] at hx
      simp only [Option.map_some, Option.some.injEq] at hx
      subst hx
      have hmx' : ∀ x, Latest new x → (x.turns : K) ≤ (p.turns : K) := by
        intro x hx
        exact hmx _ (List.mem_map.2 ⟨x, (hmem x).2 hx, rfl⟩)
      refine ⟨htr, ?_, ?_⟩
      · simp only [List.all_map, List.all_eq_true, Function.comp_apply, decide_eq_true_eq, hmem, not_forall] at hturns
        obtain ⟨x, hx, hlt⟩ := hturns
        have := lt_of_lt_of_le (not_le.1 hlt) (hmx' x hx)
        exact_mod_cast this
      · intro x hx
        exact_mod_cast hmx' x hx
    · rename_i htr
      injection hk with hk
      left
      simp only [List.all_map, List.all_eq_true, Function.comp_apply, decide_eq_true_eq, hfin, hmem, not_forall] at htr
      obtain ⟨x, hx, hmx⟩ := argmaxFirst_spec ((inds.filterMap (lastAt new)).map finalTransmission) (by simpa using hpne)
      rw [hk, List.getElem?_map, hpk] at hx
      simp only [Option.map_some, Option.some.injEq] at hx
      subst hx
      have hmx' : ∀ x, Latest new x → transmitted x ≤ transmitted p := by
        intro x hx
        have := hmx _ (List.mem_map.2 ⟨x, (hmem x).2 hx, rfl⟩)
        rwa [hfin, hfin] at this
      refine ⟨?_, hmx'⟩
      obtain ⟨x, hx, hlt⟩ := htr
      exact lt_of_lt_of_le (not_le.1 hlt) (hmx' x hx)

/-- **C46** Whatever happens, exceptions included, nothing but normal set-points and realised fields of the quadrupoles changes.

Partial: the set-points themselves should be restored if the scan fails. -/
theorem C46_failure_partial (E : Env K) (B : BeamEnv K) (T : TuneEnv K) (q : List Nat × List Nat) (rel : List K × List K)
    (target : K) (n : Nat) (np nt : Option Nat) (fullScan : Bool) (s : SC K) :
    DrawFrame (scanWrites q) s (tuneScan E B T q rel target n np nt fullScan s).state := by
  revert s
  suffices Rel (DrawFrame (scanWrites q)) (tuneScan E B T q rel target n np nt fullScan) from this
  unfold tuneScan
  refine Rels.bind Rels.get (fun s => Rels.bind (Rels.lift _) (fun inds => Rels.bind (Rels.lift _) (fun a => Rels.bind (Rels.rd _) (fun _ =>
    Rels.bind (Rels.lift _) (fun b => Rels.bind (Rels.rd _) (fun _ => Rels.bind (scanLoop_writes _ _) (fun out => ?_)))))))
  split
  · exact Rels.pure _
  · exact Rels.bind (Rels.lift _) (fun _ => Rels.bind (Rels.lift _) (fun _ => Rels.bind (Rels.lift _) (fun _ => Rels.bind (Rels.lift _)
      (fun _ => Rels.bind scanSet_writes (fun _ => Rels.pure _)))))

/-! ### Examples and violations -/

/-- a beam that survives as many turns as the first quadrupole family is above 0.945 times nominal, in steps of 0.105, and
looses half of the particles with the second one below nominal -/
def Example.scanBeam : BeamEnv ℚ := { Example.beam with
  track := fun r Z _ t => Z.zipIdx.map (fun p =>
    if (t : ℚ) * (21 / 100) < coef (vecAt r 2 "PolynomB") 1 - 189 / 100 ∧ (p.2 % 2 = 1 ∨ coef (vecAt r 4 "PolynomB") 1 < -99 / 100)
    then (some 0, some 0) else (none, none)) }

/-- the beam is lost at once -/
def Example.lostBeam : BeamEnv ℚ := { Example.scanBeam with track := fun _ Z _ _ => Z.map (fun _ => (none, none)) }

def Example.scan : TuneEnv ℚ where
  sqrt := fun x => x
  direction := fun i => if i % 3 = 1 then (1, 0) else if i % 3 = 2 then (0, 1) else (4 / 5, -3 / 5)

def Example.scanMachine : SC ℚ := { Example.sc with INJ := { Example.inj with nTurns := 3, nParticles := 2, beamSize := Example.sigma, beamLostAt := 3 / 4 } }

/-- without transmission in the last turn the point with the most turns is chosen; with two turns the target is reached at the
last point -/
example : goldenDonutInds Example.scan (3 / 2, 3 / 2) 4 = .ok [(1, 1), (1, 1), (1, 2), (2, 0)] ∧
    (tuneScan Example.rand Example.scanBeam Example.scan ([2], [4]) ([9/10, 1, 11/10], [9/10, 1, 11/10]) (1/2) 4 none none false
      Example.scanMachine).value?.map (fun o => (o.1, o.2.map (fun p => (p.ind, p.turns, p.transmission)))) =
      some ((11/10, 9/10), [((1, 1), 1, [1, 0, 0]), ((1, 1), 1, [1, 0, 0]), ((1, 2), 1, [1, 0, 0]), ((2, 0), 2, [1/2, 1/2, 0])]) ∧
    (tuneScan Example.rand Example.scanBeam Example.scan ([2], [4]) ([9/10, 1, 11/10], [9/10, 1, 11/10]) (1/2) 5 none (some 2) false
      Example.scanMachine).value?.map (fun o => (o.1, o.2.map (fun p => (p.ind, transmitted p)))) =
      some ((11/10, 1), [((1, 1), 0), ((1, 1), 0), ((1, 1), 0), ((2, 1), 1)]) := by
  decide +kernel

/-- **C46 violated**: if there is no transmission at all, the scan raises `RuntimeError` and leaves the quadrupoles at their
nominal strengths divided by the factors of the last point: dividing was meant to undo the change. -/
theorem C46_violated_failure : ∃ s' : SC ℚ,
    tuneScan Example.rand Example.lostBeam Example.scan ([2], [4]) ([9/10, 1, 11/10], [9/10, 1, 11/10]) 1 4 none none false
      Example.scanMachine = .error .runtimeError s' ∧
    setpoint Example.scanMachine.RING 2 false 1 = 2 ∧ setpoint s'.RING 2 false 1 = 2 / (11 / 10) ∧
    setpoint Example.scanMachine.RING 4 false 1 = -1 ∧ setpoint s'.RING 4 false 1 = -1 / (9 / 10) :=
  ⟨_, err_of_err? (by decide +kernel), by decide +kernel, by decide +kernel, by decide +kernel, by decide +kernel⟩

/-- the scan as it is -/
noncomputable def realScan : TuneEnv ℝ where
  sqrt := Real.sqrt
  direction := fun i => (Real.cos (i * (2 * Real.pi / ((1 + Real.sqrt 5) / 2))), Real.sin (i * (2 * Real.pi / ((1 + Real.sqrt 5) / 2))))

/-- the fourth point of a scan with four points on a grid of two -/
theorem realScan_fourth : goldenDonutInds realScan (1, 1) 4 ≠ .error .nonFinite ∧
    ∀ inds, goldenDonutInds realScan (1, 1) 4 = .ok inds → ∃ i, inds[3]? = some i ∧ i.1 = 2 := by
  have h5 : Real.sqrt 5 ^ 2 = 5 := Real.sq_sqrt (by norm_num)
  have h5p : 0 ≤ Real.sqrt 5 := Real.sqrt_nonneg 5
  have hlo : 20 / 9 < Real.sqrt 5 := by nlinarith
  have hhi : Real.sqrt 5 < 7 / 3 := by nlinarith
  have hphi : 2 * Real.pi / ((1 + Real.sqrt 5) / 2) = Real.pi * (Real.sqrt 5 - 1) := by
    rw [div_eq_iff (by positivity)]
    linear_combination (-Real.pi / 2) * h5
  have hcos : 1 / 2 < Real.cos ((3 : ℕ) * (2 * Real.pi / ((1 + Real.sqrt 5) / 2))) := by
    rw [hphi]
    have e : ((3 : ℕ) : ℝ) * (Real.pi * (Real.sqrt 5 - 1)) = Real.pi * (3 * Real.sqrt 5 - 7) + (2 : ℕ) * (2 * Real.pi) := by
      push_cast; ring
    rw [e, Real.cos_add_nat_mul_two_pi, ← Real.cos_neg, ← Real.cos_pi_div_three]
    have hpi := Real.pi_pos
    refine Real.cos_lt_cos_of_nonneg_of_le_pi ?_ ?_ ?_ <;> nlinarith
  have hle := Real.cos_le_one ((3 : ℕ) * (2 * Real.pi / ((1 + Real.sqrt 5) / 2)))
  refine ⟨by simp [goldenDonutInds], fun inds h => ?_⟩
  simp only [goldenDonutInds, show ¬ (4 = 1) by decide, if_false, Except.ok.injEq] at h
  subst h
  refine ⟨_, by rw [List.getElem?_map, List.getElem?_range (by decide)]; rfl, ?_⟩
  have hs : realScan.sqrt (((3 : ℕ) : ℝ) / (((4 : ℕ) : ℝ) - 1)) = 1 := by
    show Real.sqrt _ = 1
    norm_num
  simp only [hs, one_mul]
  have hd : (realScan.direction 3).1 = Real.cos ((3 : ℕ) * (2 * Real.pi / ((1 + Real.sqrt 5) / 2))) := rfl
  rw [hd]
  generalize Real.cos ((3 : ℕ) * (2 * Real.pi / ((1 + Real.sqrt 5) / 2))) = c at hcos hle
  have hr : npRound (((1 : ℕ) : ℝ) * c) = 1 := by
    rw [Nat.cast_one, one_mul]
    rcases eq_or_lt_of_le hle with rfl | hlt
    · simp [npRound]
    · have hf : ⌊c⌋ = 0 := by rw [Int.floor_eq_zero_iff]; exact ⟨by linarith, hlt⟩
      unfold npRound
      rw [hf]
      rw [if_neg (by push_cast; linarith), if_pos (by push_cast; linarith)]
      rfl
  unfold donutIndex
  rw [hr]
  rfl

/-- **C46 violated**: with an even number of factors the scan asks for grid points that do not exist. A full scan of four points
never returns with two factors for each family, whatever machine it is used on. -/
theorem C46_violated_even (E : Env ℝ) (B : BeamEnv ℝ) (q : List Nat × List Nat) (a b c d target : ℝ) (np nt : Option Nat)
    (s s' : SC ℝ) (out : (ℝ × ℝ) × List (ScanPoint ℝ)) (hnd : (q.1 ++ q.2).Nodup) :
    tuneScan E B realScan q ([a, b], [c, d]) target 4 np nt true s ≠ .ok out s' := by
  intro h
  unfold tuneScan at h
  rw [bindGet_eq_ok] at h
  rw [bindLift_eq_ok] at h; obtain ⟨inds, hinds, h⟩ := h
  rw [bindLift_eq_ok] at h; obtain ⟨x, ha, h⟩ := h
  rw [bindRd_eq_ok] at h; obtain ⟨_, -, h⟩ := h
  rw [bindLift_eq_ok] at h; obtain ⟨y, hb, h⟩ := h
  rw [bindRd_eq_ok] at h; obtain ⟨_, -, h⟩ := h
  rw [bind_eq_ok] at h; obtain ⟨o, s1, hl, h⟩ := h
  rw [idx_eq_ok] at ha hb
  have hne : (q.1 ++ q.2).length ≠ 1 := by
    have := (List.getElem?_eq_some_iff.1 ha).1
    have := (List.getElem?_eq_some_iff.1 hb).1
    rw [List.length_append]
    omega
  obtain ⟨i, hi, hi2⟩ := realScan_fourth.2 inds (by simpa only [List.length_cons, List.length_nil, Nat.zero_add, Nat.reduceAdd, Nat.reduceDiv] using hinds)
  obtain ⟨-, new, -, hm, hmatch⟩ := scanLoop_ok hnd hne (OnlyQuads.refl q s) hl
  cases ho : o.1 with
  | some f => simp [ho] at hmatch
  | none =>
    simp only [ho] at hmatch
    have : i ∈ new.map ScanPoint.ind := by rw [hmatch.1]; exact List.mem_iff_getElem?.2 ⟨3, hi⟩
    obtain ⟨p, hp, rfl⟩ := List.mem_map.1 this
    obtain ⟨f, -, -, ⟨hf, -⟩, -⟩ := hm p hp
    rw [hi2] at hf
    simp at hf

end PySC
