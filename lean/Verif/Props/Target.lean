import Verif.Lemmas.Target
import Verif.Props.Convergence
import Verif.Props.History
/-
C113: the target orbit given to the corrections.
-/
set_option linter.unusedSectionVars false
namespace PySC
variable {K : Type} [Field K] [LinearOrder K] [FloorRing K]
open Py Spec

/-! ### The array is modified -/

/-- two correctors and a BPM for two turns: the first corrector steers both turns, the second one the second turn only -/
abbrev Example.twoKnobs : World ℚ := ⟨Example.rand, { Example.linearBeam with
      track := fun r Z _ t => Z.map (fun _ =>
        (some (1/1000 + coef (vecAt r 0 "PolynomB") 0 + t * coef (vecAt r 2 "PolynomB") 0),
         some (coef (vecAt r 0 "PolynomA") 0 + t * coef (vecAt r 2 "PolynomA") 0))) }, ⟨fun m => .ok m, []⟩⟩

/-- the machine of these correctors -/
abbrev Example.knobMachine : SC ℚ :=
  { Example.straight 0 2 with RING := (Example.straight 0 2).RING.take 2 ++ (Example.straight 0 2).RING.take 2 }

/-- the response of the readings to the correctors -/
abbrev Example.knobRM : List (List ℚ) := [[1, 0, 0, 0], [0, 1, 0, 0], [0, 0, 1, 0], [0, 0, 0, 1]]

/-- the target: 0.5 mm in the first and 0.2 mm in the second turn -/
abbrev Example.knobTarget : List ℚ := [1/2000, 1/5000, 0, 0]

/-- balance the turns, then one step of a correction to the target -/
abbrev Example.balanceAndCorrect : List (TargetCall ℚ) :=
  [.balance Example.knobRM (some ([0, 2], [0, 2])) (some [1]) (1/1000) 10,
   .correct Example.knobRM (some ([0, 2], [0, 2])) (some [1]) (1/1000) 0 1 0]

/-- the corrections of two turns and others in between, some of which fail -/
abbrev Example.knobSession : List (TargetCall ℚ) :=
  Example.balanceAndCorrect ++ [.firstTurn Example.knobRM (some ([0, 2], [0, 2])) (some [1]) 10, .other (.setCM [0] ⟨false, [1/1000]⟩ false "add"),
    .stitch Example.knobRM (some ([0, 2], [0, 2])) (some [1]) 1 3, .balance Example.knobRM none (some [1, 3]) (1/1000) 10]

/-- **C113** is violated: balancing the turns sets the target of the second turn to zero in the array of the caller, and the correction that
follows steers to another target than with an array of its own.  Both calls return. -/
theorem C113_violated :
    (targetHistory Example.twoKnobs Example.balanceAndCorrect Example.knobMachine Example.knobTarget).2 = [1/2000, 0, 0, 0] ∧
    vecAt (targetHistory Example.twoKnobs Example.balanceAndCorrect Example.knobMachine Example.knobTarget).1.RING 2 "PolynomB" = [-1/2000] ∧
    vecAt (copiesHistory Example.twoKnobs Example.balanceAndCorrect Example.knobMachine Example.knobTarget).RING 2 "PolynomB" = [-3/10000] ∧
    (∃ t s', (Example.balanceAndCorrect[0].call Example.knobTarget).run Example.twoKnobs Example.knobMachine = .ok () t ∧
      (Example.balanceAndCorrect[1].call [1/2000, 0, 0, 0]).run Example.twoKnobs t = .ok () s') := by
  refine ⟨by decide +kernel, by decide +kernel, by decide +kernel, ?_⟩
  exact ⟨_, _, ok_of_isOk (by decide +kernel), ok_of_isOk (by decide +kernel)⟩

/-- Every `stitch` and every `balance` that returns has set the target of the second turn to zero in the array of the caller. -/
theorem C113_lost (W : World K) (c : TargetCall K) (s s' : SC K) (ref : List K) (h2 : ForTwoTurns c)
    (h : (c.call ref).run W s = .ok () s') : NoSecondTurn (targetHistory W [c] s ref).2 := by
  cases c with
  | stitch rm c b k n => exact stitch_array h
  | balance rm c b e n => exact balance_array h
  | _ => exact absurd h2 id

-- the target had entries for the second turn
example : ForTwoTurns Example.balanceAndCorrect[0] ∧
    ((Example.balanceAndCorrect[0].call Example.knobTarget).run Example.twoKnobs Example.knobMachine).isOk = true ∧
    ¬ NoSecondTurn Example.knobTarget := by
  refine ⟨trivial, by decide +kernel, fun h => ?_⟩
  exact absurd (h 1 (by decide) (by unfold OfFirstTurn; decide)) (by decide +kernel)

/-! ### What holds -/

/-- **C113**, for calls other than `stitch` and `balance`: the array keeps its entries, and it makes no difference whether all corrections use the
same array or each one its own. -/
theorem C113_one_turn_partial (W : World K) (calls : List (TargetCall K)) (s : SC K) (ref : List K)
    (h : ∀ c ∈ calls, ¬ ForTwoTurns c) :
    (targetHistory W calls s ref).2 = ref ∧ (targetHistory W calls s ref).1 = copiesHistory W calls s ref := by
  rw [targetHistory_fixed W calls s ref]
  · exact ⟨rfl, rfl⟩
  · intro c hc t
    cases c with
    | stitch rm c b k n => exact absurd trivial (h _ hc)
    | balance rm c b e n => exact absurd trivial (h _ hc)
    | _ => rfl

/-- the correction alone changes the machine -/
example : (∀ c ∈ [Example.balanceAndCorrect[1], Example.balanceAndCorrect[1]], ¬ ForTwoTurns c) ∧
    vecAt (targetHistory Example.twoKnobs [Example.balanceAndCorrect[1], Example.balanceAndCorrect[1]] Example.knobMachine Example.knobTarget).1.RING 2
      "PolynomB" = [-3/10000] ∧ vecAt Example.knobMachine.RING 2 "PolynomB" = [0] := by
  refine ⟨?_, by decide +kernel, by decide +kernel⟩
  intro c hc
  simp only [List.mem_cons, List.not_mem_nil, or_false, or_self] at hc
  subst hc; exact id

/-- **C113**, for a target without second turn: after any sequence of calls, whichever of them fail, the array keeps its entries, and it makes no
difference whether all corrections use the same array or each one its own. -/
theorem C113_no_second_turn_partial (W : World K) (calls : List (TargetCall K)) (s : SC K) (ref : List K) (h : NoSecondTurn ref) :
    (targetHistory W calls s ref).2 = ref ∧ (targetHistory W calls s ref).1 = copiesHistory W calls s ref := by
  rw [targetHistory_fixed W calls s ref (fun c _ t => (array_kept W t ref c).eq h)]
  exact ⟨rfl, rfl⟩

/-- a session of several corrections with such a target -/
example : NoSecondTurn ([1/2000, 0, 1/5000, 0] : List ℚ) ∧
    vecAt (targetHistory Example.twoKnobs Example.knobSession Example.knobMachine [1/2000, 0, 1/5000, 0]).1.RING 0 "PolynomB" ≠ [0] := by
  refine ⟨?_, by decide +kernel⟩
  intro k hk ho
  simp only [List.length_cons, List.length_nil] at hk
  have hk : k = 0 ∨ k = 1 ∨ k = 2 ∨ k = 3 := by omega
  rcases hk with rfl | rfl | rfl | rfl <;> first | rfl | (exact absurd (show OfFirstTurn _ _ by unfold OfFirstTurn; decide) ho)

/-- **C113**, what remains of any target after any sequence of calls, whichever of them fail: as many entries as before, the entries of the first
turn unchanged, and those of the second turn all unchanged or all zero.  What is missing: the entries of the second turn, see `C113_violated`. -/
theorem C113_first_turn_partial (W : World K) (calls : List (TargetCall K)) (s : SC K) (ref : List K) :
    FirstTurnKept ref (targetHistory W calls s ref).2 := targetHistory_kept W calls s ref

example : (targetHistory Example.twoKnobs Example.knobSession Example.knobMachine [1/2000, 1/3000, 1/5000, 1/6000]).2 =
    [1/2000, 0, 1/5000, 0] := by decide +kernel

end PySC
