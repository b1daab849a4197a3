import Verif.Lemmas.Convergence
import Verif.Props.Orbit
import Verif.Props.BeamLoss
/-
C87: orbit corrections converge on a linear machine.
-/
set_option linter.unusedSectionVars false
namespace PySC
open Py Spec Finset
variable {K : Type} [Field K] [LinearOrder K] [FloorRing K] [IsStrictOrderedRing K]

/-- **C87**: a call of `correct` on a machine which responds linearly.  If the pseudo-inverse of the given matrix inverts the response of the
machine up to a relative error `q`, each step without a corrector at its limit makes the largest deviation from the reference smaller by
the factor `q` (or more). -/
theorem C87_correct (E : Env K) (B : BeamEnv K) (O : OrbitEnv K) (rm mplus : List (List K)) (reference : Option (List K))
    (cms : Option CMs) (bpms : Option (List Nat)) (eps target : K) (maxsteps : Nat) (s s' : SC K) (logs : List (Log K))
    (h : correct E B O rm reference cms bpms eps target maxsteps 0 s = .ok logs s') (hmax : maxsteps ≠ 0)
    (hm : O.pinv rm = .ok mplus) (hp : PinvShape O rm) (hsq : SqrtSound B.sqrt)
    (hH : (correctorsOf s cms).1.Nodup) (hV : (correctorsOf s cms).2.Nodup) (hl : SaneLimits s (correctorsOf s cms))
    (R : Nat → Nat → K) (q D : K) (hlin : Responds allReadings R (correctorsOf s cms) (referenceOf rm reference).length logs)
    (hq : Inverts q R mplus (correctorsOf s cms) (referenceOf rm reference).length)
    (hu : ∀ l ∈ logs, Unsaturated (correctorsOf s cms) l.before)
    (h0 : ∀ l, logs[0]? = some l → ∀ j < (referenceOf rm reference).length, |allReadings l j - coef (referenceOf rm reference) j| ≤ D) :
    ∀ (k : Nat) (l : Log K), logs[k]? = some l → ∀ j < (referenceOf rm reference).length,
      |allReadings l j - coef (referenceOf rm reference) j| ≤ q ^ k * D := by
  obtain ⟨m, hm', hrun, -⟩ := C38_correct_partial E B O rm reference cms bpms eps target maxsteps 0 s s' logs h hp (fun h => absurd rfl h)
    hsq hmax hH hV hl
  rw [hm] at hm'
  cases hm'
  exact run_converges hrun (fun hist l l' hs => ⟨hs.1, _, hs.2.1⟩) hlin hq hu h0

/-- **C87**: with an exact inverse the reference is reached in the first step. -/
theorem C87_exact (E : Env K) (B : BeamEnv K) (O : OrbitEnv K) (rm mplus : List (List K)) (reference : Option (List K))
    (cms : Option CMs) (bpms : Option (List Nat)) (eps target : K) (maxsteps : Nat) (s s' : SC K) (logs : List (Log K))
    (h : correct E B O rm reference cms bpms eps target maxsteps 0 s = .ok logs s') (hmax : maxsteps ≠ 0)
    (hm : O.pinv rm = .ok mplus) (hp : PinvShape O rm) (hsq : SqrtSound B.sqrt)
    (hH : (correctorsOf s cms).1.Nodup) (hV : (correctorsOf s cms).2.Nodup) (hl : SaneLimits s (correctorsOf s cms))
    (R : Nat → Nat → K) (hlin : Responds allReadings R (correctorsOf s cms) (referenceOf rm reference).length logs)
    (hq : ∀ i < (referenceOf rm reference).length, ∀ j < (referenceOf rm reference).length,
      ∑ k ∈ range (numCMs (correctorsOf s cms)), R i k * coef (mplus.getD k []) j = if i = j then 1 else 0)
    (hu : ∀ l ∈ logs, Unsaturated (correctorsOf s cms) l.before) :
    ∀ (k : Nat) (l : Log K), logs[k + 1]? = some l → ∀ j < (referenceOf rm reference).length,
      allReadings l j = coef (referenceOf rm reference) j := by
  intro k l hk j hj
  have hinv : Inverts 0 R mplus (correctorsOf s cms) (referenceOf rm reference).length := by
    intro i hi
    refine le_of_eq (Finset.sum_eq_zero (fun j hj => ?_))
    rw [hq i hi j (Finset.mem_range.1 hj), sub_self, abs_zero]
  obtain ⟨D, hD⟩ : ∃ D, ∀ l, logs[0]? = some l → ∀ j < (referenceOf rm reference).length,
      |allReadings l j - coef (referenceOf rm reference) j| ≤ D := by
    cases h0 : logs[0]? with
    | none => exact ⟨0, fun l h => by cases h⟩
    | some l0 =>
      refine ⟨∑ j ∈ range (referenceOf rm reference).length, |allReadings l0 j - coef (referenceOf rm reference) j|, ?_⟩
      intro l h j hj
      cases h
      exact Finset.single_le_sum (f := fun j => |allReadings l0 j - coef (referenceOf rm reference) j|) (fun _ _ => abs_nonneg _)
        (Finset.mem_range.2 hj)
  have := C87_correct E B O rm mplus reference cms bpms eps target maxsteps s s' logs h hmax hm hp hsq hH hV hl R 0 D hlin hinv hu hD
    (k + 1) l hk j hj
  rw [pow_succ, mul_zero, zero_mul] at this
  exact sub_eq_zero.1 (abs_eq_zero.1 (le_antisymm this (abs_nonneg _)))

/-- **C87**: the same for `balance`, for the trajectory of the first turn and its difference from the second turn. -/
theorem C87_balance (E : Env K) (B : BeamEnv K) (O : OrbitEnv K) (rm mplus : List (List K)) (reference : Option (List K))
    (cms : Option CMs) (bpms : Option (List Nat)) (eps : K) (maxsteps : Nat) (s s' : SC K) (logs : List (Log K))
    (h : balance E B O rm reference cms bpms eps maxsteps s = .ok logs s')
    (hm : O.pinv rm = .ok mplus) (hp : PinvShape O rm) (hsq : SqrtSound B.sqrt)
    (hH : (correctorsOf s cms).1.Nodup) (hV : (correctorsOf s cms).2.Nodup) (hl : SaneLimits s (correctorsOf s cms))
    (R : Nat → Nat → K) (q D : K)
    (hlin : Responds (twoTurnReading (bpmsOf s bpms).length (bpmsOf s bpms).length) R (correctorsOf s cms) (4 * (bpmsOf s bpms).length) logs)
    (hq : Inverts q R mplus (correctorsOf s cms) (4 * (bpmsOf s bpms).length))
    (hu : ∀ l ∈ logs, Unsaturated (correctorsOf s cms) l.before)
    (h0 : ∀ l, logs[0]? = some l → ∀ j < 4 * (bpmsOf s bpms).length,
      |twoTurnReading (bpmsOf s bpms).length (bpmsOf s bpms).length l j -
        firstTurnReference (bpmsOf s bpms).length (referenceOf rm reference) j| ≤ D) :
    ∀ (k : Nat) (l : Log K), logs[k]? = some l → ∀ j < 4 * (bpmsOf s bpms).length,
      |twoTurnReading (bpmsOf s bpms).length (bpmsOf s bpms).length l j -
        firstTurnReference (bpmsOf s bpms).length (referenceOf rm reference) j| ≤ q ^ k * D := by
  obtain ⟨m, hm', hrun, -⟩ := C39_balance E B O rm reference cms bpms eps maxsteps s s' logs h hp hsq hH hV hl
  rw [hm] at hm'
  cases hm'
  exact run_converges hrun (fun hist l l' hs => ⟨hs.1, _, hs.2⟩) hlin hq hu h0

/-- the readings of a BPM in one turn -/
def allReading2 (l : Log K) : K × K := (allReadings l 0, allReadings l 1)

instance (l : Lim K) (x : K) : Decidable (Inside l x) := by cases l <;> simp only [Inside] <;> infer_instance
instance (cms : CMs) (t : SC K) : Decidable (Unsaturated cms t) := by unfold Unsaturated; infer_instance
instance (m : Log K → Nat → K) (R : Nat → Nat → K) (cms : CMs) (n : Nat) (logs : List (Log K)) : Decidable (Responds m R cms n logs) := by
  unfold Responds; infer_instance
instance (q : K) (R : Nat → Nat → K) (M : List (List K)) (cms : CMs) (n : Nat) : Decidable (Inverts q R M cms n) := by
  unfold Inverts; infer_instance

/-! A BPM after one corrector for both planes; the corrections are made with 8/11 of the inverse. -/

def Example.linearBeam : BeamEnv ℚ := { Example.lineBeam with
  track := fun r Z _ t => Z.map (fun _ => (some (1/1000 + (t + 1) * coef (vecAt r 0 "PolynomB") 0), some ((t + 1) * coef (vecAt r 0 "PolynomA") 0))) }

def Example.cautious : OrbitEnv ℚ where
  pinv := fun _ => .ok [[8/11, 0], [0, 8/11]]
  donut := []

abbrev Example.halfway (maxsteps : Nat) : Res (SC ℚ) (List (Log ℚ)) :=
  correct Example.rand Example.linearBeam Example.cautious [[1, 0], [0, 1]] none (some ([0], [0])) (some [1]) (1/1000) 0 maxsteps 0
    (Example.straight (1/1000) 1)

/-- two steps from 2 mm, the deviation being multiplied by 3/11 in each of them -/
example : (Example.halfway 2).value?.map (fun logs => logs.map allReading2) =
      some [(1/500, 0), (3/5500, 0), (9/60500, 0)] ∧
    (Example.halfway 2).value?.map (fun logs => decide (Responds allReadings (fun i k => if i = k then 1 else 0) ([0], [0]) 2 logs ∧
      ∀ l ∈ logs, Unsaturated ([0], [0]) l.before)) = some true ∧
    Inverts (3/11) (fun i k => if i = k then (1 : ℚ) else 0) [[8/11, 0], [0, 8/11]] ([0], [0]) 2 ∧
    SqrtSound Example.linearBeam.sqrt ∧ PinvShape Example.cautious [[1, 0], [0, 1]] := by
  refine ⟨by decide +kernel, by decide +kernel, by decide +kernel, Example.qsqrt_sound, ?_⟩
  intro p hp; cases hp; rfl

/-- with the exact inverse, one step is enough -/
example : (correct Example.rand Example.linearBeam ⟨fun _ => .ok [[1, 0], [0, 1]], []⟩ [[1, 0], [0, 1]] none (some ([0], [0])) (some [1]) (1/1000) 0 1 0
    (Example.straight (1/1000) 1)).value?.map (fun logs => logs.map allReading2) = some [(1/500, 0), (0, 0)] := by decide +kernel

/-- **C38** is violated: with the default options the same correction fails, although the reading is zero after the first of thirty steps: the
variation of the readings is 0/0 then. -/
theorem C38_violated_perfect : ∃ s' : SC ℚ,
    correct Example.rand Example.linearBeam ⟨fun _ => .ok [[1, 0], [0, 1]], []⟩ [[1, 0], [0, 1]] none (some ([0], [0])) (some [1]) (1/10000) 0 30 0
      (Example.straight (1/1000) 1) = .error .runtimeError s' ∧
    (bpmReading Example.rand Example.linearBeam (some [1]) false s').value?.map (fun r => (r.x, r.y)) = some ([some 0], [some 0]) :=
  ⟨_, err_of_err? (by decide +kernel), by decide +kernel⟩

/-- two correctors and a BPM for two turns -/
abbrev Example.balancing : Res (SC ℚ) (List (Log ℚ)) :=
  balance Example.rand { Example.linearBeam with
      track := fun r Z _ t => Z.map (fun _ =>
        (some (1/1000 + coef (vecAt r 0 "PolynomB") 0 + t * coef (vecAt r 2 "PolynomB") 0),
         some (coef (vecAt r 0 "PolynomA") 0 + t * coef (vecAt r 2 "PolynomA") 0))) }
    ⟨fun m => .ok m, []⟩ [[1, 0, 0, 0], [0, 1, 0, 0], [0, 0, 1, 0], [0, 0, 0, 1]] none (some ([0, 2], [0, 2])) (some [1]) (1/1000) 10
    { Example.straight 0 2 with RING := (Example.straight 0 2).RING.take 2 ++ (Example.straight 0 2).RING.take 2 }

example : Example.balancing.value?.map (fun logs => logs.map (fun l => (List.range 4).map (twoTurnReading 1 1 l))) =
      some ([1/1000, 0, 0, 0] :: List.replicate 4 [0, 0, 0, 0]) ∧
    Example.balancing.value?.map (fun logs => decide (Responds (twoTurnReading 1 1) (fun i k => if i = k then 1 else 0) ([0, 2], [0, 2]) 4 logs ∧
      ∀ l ∈ logs, Unsaturated ([0, 2], [0, 2]) l.before)) = some true ∧
    Inverts 0 (fun i k => if i = k then (1 : ℚ) else 0) [[1, 0, 0, 0], [0, 1, 0, 0], [0, 0, 1, 0], [0, 0, 0, 1]] ([0, 2], [0, 2]) 4 := by
  refine ⟨by decide +kernel, by decide +kernel, by decide +kernel⟩

end PySC
