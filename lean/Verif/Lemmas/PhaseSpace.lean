import Verif.Spec.PhaseSpace
import Verif.Lemmas.PlotSupport
import Verif.Lemmas.Orbit
import Verif.Lemmas.Beam
import Mathlib.Tactic.Ring
import Mathlib.Tactic.IntervalCases
/-
Lemmas about `plot_phase_space`.
-/
namespace PySC
set_option linter.unusedSectionVars false
variable {K : Type} [Field K] [LinearOrder K] [IsStrictOrderedRing K]
open Py Spec

theorem slippage_ok {s : SC K} {x : K} (h : slippage s = .ok x) : SlipPerTurn s x := by
  unfold slippage at h
  simp only [Except.bind_eq_ok', idx_eq_ok, Ring.getStr_eq_ok] at h
  obtain ⟨cav, h1, pm, h2, h⟩ := h
  refine ⟨cav, by rw [← h1, List.head?_eq_getElem?], fun hp => ?_, fun hp => ?_⟩
  · rw [h2] at hp
    cases hp
    rw [if_pos rfl] at h
    simp only [Except.bind_eq_ok', Ring.getNum_eq_ok, divE_eq_ok] at h
    obtain ⟨a, h3, f, h4, l, ⟨h5, rfl⟩, h⟩ := h
    cases h
    rw [numAt_of_attr h3, numAt_of_attr h4, findspos_last]
    exact ⟨h5, rfl⟩
  · rw [h2] at hp
    rw [if_neg (fun e => hp (by rw [e]))] at h
    cases h; rfl

theorem appears_of (slip : K) (t : Nat) (z : List (Option K)) : Appears (slip * (t : K)) z (inUnits (slipped slip t (maskLost z))) := by
  constructor
  · intro h k
    have e : maskLost z = List.replicate 6 none := by
      unfold maskLost; rw [if_pos]; show (coordinate z 0).isNone = true; rw [h]; rfl
    rw [e]
    match k with
    | 0 | 1 | 2 | 3 | 4 | 5 => rfl
    | (k + 6) => rfl
  · intro h
    have e : maskLost z = z := by
      unfold maskLost; rw [if_neg]
      show ¬ (coordinate z 0).isNone = true
      intro hn; exact h (Option.isNone_iff_eq_none.1 hn)
    rw [e]
    refine ⟨fun k hk => ?_, rfl, ?_⟩
    · have : (10 : K) ^ 6 = 1000000 := by norm_num
      interval_cases k <;> simp only [inUnits, slipped, coordinate, List.getD_cons_zero, List.getD_cons_succ, this]
    · have : (10 : K) ^ 2 = 100 := by norm_num
      simp only [inUnits, slipped, coordinate, List.getD_cons_zero, List.getD_cons_succ, this]

/-- the particles of a figure -/
theorem phaseInput_ok {E : Env K} {B : BeamEnv K} {bunch : Option (List (List K))} {np nt : Option Nat} {s t : SC K}
    {Z : List (List K)} {n m : Nat} (h : phaseInput E B bunch np nt s = .ok (Z, n, m) t) :
    m = nt.getD s.INJ.nTurns ∧
    ((∃ rows, bunch = some rows ∧ np = none ∧ rows.length = 6 ∧ t = s ∧ n = (rows.headD []).length ∧ Z = (List.range n).map (columnOf rows)) ∨
     (bunch = none ∧ n = np.getD s.INJ.nParticles ∧ generateBunches E B (some n) s = .ok Z t)) := by
  unfold phaseInput at h
  obtain ⟨s0, s1, h0, g0⟩ := bind_eq_ok.1 h
  have e0 : s0 = s ∧ s1 = s := by cases h0; exact ⟨rfl, rfl⟩
  rw [e0.1, e0.2] at g0
  cases bunch with
  | none =>
    obtain ⟨Z', s2, h1, h2⟩ := bind_eq_ok.1 g0
    cases h2
    exact ⟨rfl, Or.inr ⟨rfl, rfl, h1⟩⟩
  | some rows =>
    cases np with
    | some k => cases g0
    | none =>
      dsimp only at g0
      split at g0
      · cases g0
      · next h6 => cases g0; exact ⟨rfl, Or.inl ⟨rows, rfl, rfl, not_not.1 h6, rfl, rfl, rfl⟩⟩

end PySC
