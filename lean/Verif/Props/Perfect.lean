import Verif.Lemmas.Perfect
import Verif.Props.ApplyErrors
/-
C23: without uncertainties `apply_errors` leaves a machine without errors.
-/
namespace PySC
open Py Spec
set_option linter.unusedSectionVars false
variable {K : Type} [Field K] [LinearOrder K] [IsStrictOrderedRing K] [FloorRing K]

/-- **C23**: if no uncertainty is registered, or all are zero, and the machine had no error before, then `apply_errors`
leaves a perfect machine, whatever the random numbers. -/
theorem C23_perfect_machine (E : Env K) (nsigmas : K) (s s' : SC K) (hw : WellRegistered s.SIG) (ht : Tidy s.ORD)
    (h6 : s.SIG.staticInjectionZ.length = 6) (hn : NoUncertainties s.SIG) (he : ErrorFree s)
    (h : applyErrors E nsigmas s = .ok () s') : PerfectMachine E s s' :=
  applyErrors_perfect hw ht h6 hn he h

/-- **C23**: the same for every element registered with errors earlier: whatever error an element had, an error for which
the uncertainty zero is registered is zero afterwards. -/
theorem C23_zero_uncertainty_zero_error (E : Env K) (nsigmas : K) (s s' : SC K) (hw : WellRegistered s.SIG)
    (h : applyErrors E nsigmas s = .ok () s') (i : Nat) (hi : i ∈ s.ORD.Magnet) (name : String) (sig : Attr K)
    (hs : sigma s.SIG.Magnet i name = some sig) (hz : IsZero sig) : ZeroAt s'.RING i (magnetErrorAttr name) := by
  obtain ⟨err, g1, g2⟩ := (applyErrors_stored hw h).2.2 i hi name sig hs
  intro v hv
  rw [show s'.RING.attr i (magnetErrorAttr name) = some err from g1] at hv
  cases hv
  exact errorFor_zero (by simpa using g2) hz

/-! the hypotheses are met -/

/-- decides `IsZero` -/
def isZeroB : Attr K → Bool
  | .num x => decide (x = 0)
  | .vec v => v.all (fun x => decide (x = 0))
  | .pair v _ => isZeroB v
  | _ => false

theorem isZero_of_isZeroB : ∀ {a : Attr K}, isZeroB a = true → IsZero a
  | .num x, h => by simpa [isZeroB, IsZero] using h
  | .vec v, h => fun k => by
      simp only [isZeroB, List.all_eq_true] at h
      exact AllZero.coef (fun x hx => of_decide_eq_true (h x hx)) k
  | .pair v c, h => isZero_of_isZeroB (a := v) (by simpa [isZeroB] using h)
  | .str _, h | .int _, h | .flag _, h | .mat _, h | .lim _, h | .lims _, h | .ords _, h | .ordMat _, h | .multip _, h => by
      cases h

theorem zeroAt_of_all {r : Ring K} {i : Nat} {a : String} (h : (r.attr i a).all isZeroB = true) : ZeroAt r i a := by
  intro v hv
  rw [hv] at h
  exact isZero_of_isZeroB h

theorem sigma_zero_of_all {d : Dict Nat (Dict String (Attr K))} (h : ∀ e ∈ d, ∀ kv ∈ e.2, isZeroB kv.2 = true) :
    ∀ i name sig, sigma d i name = some sig → IsZero sig := by
  intro i name sig hs
  unfold sigma at hs
  cases hg : d.get? i with
  | none => rw [hg] at hs; cases hs
  | some e =>
    rw [hg] at hs
    exact isZero_of_isZeroB (h (i, e) (Dict.mem_of_get? hg) (name, sig) (Dict.mem_of_get? hs))

/-- everything of `Example.rawRing` registered with zero uncertainties -/
def Example.ideal : SC ℚ := registrations
  [.magnets [1, 2] [("HCM", .num 1), ("CalErrorB", .vec [0])], .magnets [3] [("CF", .num 1), ("BendingAngle", .num 0),
     ("MagnetOffset", .vec [0, 0, 0])],
   .bpms [0] [("Noise", .vec [0, 0]), ("Roll", .num 0)], .cavities [4] [("VoltageOffset", .num 0)],
   .supports [[5, 0], [7, 4]] "Girder" [("Offset", .mat [[0, 0, 0], [0, 0, 0]]), ("Roll", .vec [0, 0, 0])],
   .supports [[1], [6]] "Section" [("Offset", .vec [0, 0, 0])]] Example.raw

example : WellRegistered Example.ideal.SIG ∧ Tidy Example.ideal.ORD ∧ Example.ideal.SIG.staticInjectionZ.length = 6 ∧
    NoUncertainties Example.ideal.SIG ∧ ErrorFree Example.ideal ∧
    (∃ s', applyErrors Example.env 2 Example.ideal = .ok () s') ∧ Example.ideal.SIG.RF ≠ [] ∧
    vecAt (applyErrors Example.env 2 Example.ideal).state.RING 2 "PolynomB" = [0, 2, 1/3] ∧
    CalFits (applyErrors Example.env 2 Example.ideal).state.RING 2 := by
  refine ⟨C03_only_uncertainties_stored _ _ _, C01_lists_of_new_object _ _ _, by decide +kernel, ?_, ?_,
    ⟨_, ok_of_isOk (by decide +kernel)⟩, by decide +kernel, by decide +kernel, ?_⟩
  · refine ⟨sigma_zero_of_all (by decide +kernel), sigma_zero_of_all (by decide +kernel), sigma_zero_of_all (by decide +kernel),
      sigma_zero_of_all (by decide +kernel), fun k => ?_, by decide +kernel⟩
    exact AllZero.coef (by unfold AllZero; decide +kernel) k
  · refine ⟨fun i hi a ha => zeroAt_of_all ?_, fun i hi a ha => zeroAt_of_all ?_, fun i hi a ha => zeroAt_of_all ?_,
      fun i hi a ha => zeroAt_of_all ?_, fun i hi a ha => ?_, fun i hi => ?_, fun i a ha => zeroAt_of_all ?_⟩
    · have : ∀ i ∈ Example.ideal.ORD.BPM, ∀ a ∈ bpmErrors, (Example.ideal.RING.attr i a).all isZeroB = true := by decide +kernel
      exact this i hi a ha
    · have : ∀ i ∈ Example.ideal.ORD.RF, ∀ a ∈ rfErrors, (Example.ideal.RING.attr i a).all isZeroB = true := by decide +kernel
      exact this i hi a ha
    · have : ∀ i ∈ Example.ideal.ORD.Magnet, ∀ a ∈ magnetErrors, (Example.ideal.RING.attr i a).all isZeroB = true := by decide +kernel
      exact this i hi a ha
    · have : ∀ i ∈ Example.ideal.ORD.Magnet, ∀ a ∈ ["PolynomAOffset", "PolynomBOffset"],
          (Example.ideal.RING.attr i a).all isZeroB = true := by decide +kernel
      exact this i hi a ha
    · have : ∀ i ∈ Example.ideal.ORD.Magnet, ∀ a ∈ ["SysPolAFromA", "SysPolAFromB", "SysPolBFromA", "SysPolBFromB"],
          Example.ideal.RING.attr i a = none := by decide +kernel
      exact this i hi a ha
    · have : ∀ i ∈ Example.ideal.ORD.Magnet, flagAt Example.ideal.RING i "CombinedFunction" = true →
          coef (vecAt Example.ideal.RING i "SetPointB") 1 = coef (vecAt Example.ideal.RING i "NomPolynomB") 1 ∧
          coef (vecAt Example.ideal.RING i "NomPolynomB") 1 ≠ 0 := by decide +kernel
      exact this i hi
    · have : ∀ i < Example.ideal.RING.length, ∀ a ∈ supportErrors, (Example.ideal.RING.attr i a).all isZeroB = true := by decide +kernel
      by_cases hi : i < Example.ideal.RING.length
      · exact this i hi a ha
      · simp [Ring.attr, List.getElem?_eq_none (not_lt.1 hi)]
  · unfold CalFits; decide +kernel

end PySC
