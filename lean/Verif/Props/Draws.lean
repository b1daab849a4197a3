import Verif.Lemmas.Draws
import Verif.Props.Register
import Verif.Props.ApplyErrors
/-
C85: every error is made from random numbers of its own.
-/
namespace PySC
open Py Spec
set_option linter.unusedSectionVars false
variable {K : Type} [Field K] [LinearOrder K] [IsStrictOrderedRing K] [FloorRing K]

/-- **C85**: after `apply_errors` every error of cavities, BPMs and magnets is its uncertainty times random numbers drawn for this error
alone, component by component; so are the six injection errors and the error of the circumference.  No random number is used for two
errors or for two components of one error, and all of them are drawn by this call. -/
theorem C85_own_random_numbers (E : Env K) (nsigmas : K) (s s' : SC K) (ht : Tidy s.ORD) (hw : WellRegistered s.SIG)
    (h6 : s.SIG.staticInjectionZ.length = 6) (h : applyErrors E nsigmas s = .ok () s') :
    ∃ draw : Source → List Nat, OwnNumbers draw s.rng s'.rng ∧
      ErrorsDrawn E.randn s'.RING s.ORD.RF s.SIG.RF [] id draw ∧
      ErrorsDrawn E.randn s'.RING s.ORD.BPM s.SIG.BPM ["Noise", "NoiseCO"] id draw ∧
      ErrorsDrawn E.randn s'.RING s.ORD.Magnet s.SIG.Magnet [] magnetErrorAttr draw ∧
      InjectionDrawn E.randn s.INJ.Z0ideal s.SIG.staticInjectionZ s'.INJ.Z0 (draw .injection) ∧
      ((∃ i < s.RING.length, DriftAt s.RING i) → ∃ q, draw .circumference = [q] ∧
        circumference s'.RING = (1 + s.SIG.Circumference * E.randn q) * circumference s.RING) :=
  applyErrors_drawn ht hw h6 h

/-- **C85**: a second seed shares nothing with the first: whatever is drawn by a later `apply_errors` is drawn after everything drawn
before. -/
theorem C85_seeds (E : Env K) (n1 n2 : K) (s s1 s2 : SC K) (ht : Tidy s.ORD) (hw : WellRegistered s.SIG)
    (h6 : s.SIG.staticInjectionZ.length = 6) (h1 : applyErrors E n1 s = .ok () s1) (h2 : applyErrors E n2 s1 = .ok () s2) :
    ∃ first second : Source → List Nat, OwnNumbers first s.rng s1.rng ∧ OwnNumbers second s1.rng s2.rng ∧
      (∀ x y, ∀ q ∈ first x, q ∉ second y) ∧
      ErrorsDrawn E.randn s1.RING s.ORD.Magnet s.SIG.Magnet [] magnetErrorAttr first ∧
      ErrorsDrawn E.randn s2.RING s.ORD.Magnet s.SIG.Magnet [] magnetErrorAttr second ∧
      ErrorsDrawn E.randn s1.RING s.ORD.BPM s.SIG.BPM ["Noise", "NoiseCO"] id first ∧
      ErrorsDrawn E.randn s2.RING s.ORD.BPM s.SIG.BPM ["Noise", "NoiseCO"] id second ∧
      ErrorsDrawn E.randn s1.RING s.ORD.RF s.SIG.RF [] id first ∧
      ErrorsDrawn E.randn s2.RING s.ORD.RF s.SIG.RF [] id second := by
  have hf := applyErrors_frame (E := E) (n := n1) hw
  rw [h1] at hf
  replace hf : ErrFrame (errorAttrs s) s s1 := hf
  obtain ⟨d1, o1, a1, b1, c1, -⟩ := applyErrors_drawn ht hw h6 h1
  obtain ⟨d2, o2, a2, b2, c2, -⟩ := applyErrors_drawn (by rw [hf.ord]; exact ht) (by rw [hf.sig]; exact hw) (by rw [hf.sig]; exact h6) h2
  rw [hf.ord, hf.sig] at a2 b2 c2
  refine ⟨d1, d2, o1, o2, fun x y q hq hq' => ?_, c1, c2, b1, b2, a1, a2⟩
  have := (o1.range x q hq).2
  have := (o2.range y q hq').1
  omega

/-- uncertainties of a BPM, a cavity and three magnets -/
def Example.uncertainParts : SC ℚ :=
  registrations (Example.calls ++ [.magnets [2] [("CalErrorB", .vec [0, 1/10, 0])], .bpms [0] [("Offset", .vec [3, 4]), ("Roll", .num 2)]])
    Example.raw

/-- and of the injected trajectory and the circumference -/
def Example.uncertain : SC ℚ :=
  { Example.uncertainParts with SIG := { Example.uncertainParts.SIG with staticInjectionZ := [1, 1, 2, 2, 0, 5], Circumference := 1/10 } }

/-- a generator whose numbers are all different -/
def Example.rising : Env ℚ := { Example.env with randn := fun k => (k + 1) / 50 }

theorem Example.uncertain_registered : WellRegistered Example.uncertain.SIG :=
  have h : WellRegistered Example.uncertainParts.SIG := C03_only_uncertainties_stored _ _ _
  ⟨h.bpmNames, h.magnetNames, h.rfNames, h.supportNames, h.bpmSingle, h.magnetSingle, h.rfSingle, h.supportSingle⟩

-- the hypotheses are met
example : Tidy Example.uncertain.ORD ∧ WellRegistered Example.uncertain.SIG ∧ Example.uncertain.SIG.staticInjectionZ.length = 6 ∧
    (applyErrors Example.rising 2 Example.uncertain).isOk ∧ (∃ i < Example.uncertain.RING.length, DriftAt Example.uncertain.RING i) :=
  ⟨C01_lists_of_new_object _ _ _, Example.uncertain_registered, by decide +kernel, by decide +kernel, 6, by decide +kernel,
    by unfold DriftAt; decide +kernel⟩

-- the first random numbers 1/50, 2/50, ... are used one after the other
example : (applyErrors Example.rising 2 Example.uncertain).state.RING.attr 4 "VoltageOffset" = some (.num (5 * (1/50))) ∧
    (applyErrors Example.rising 2 Example.uncertain).state.RING.attr 0 "Offset" = some (.vec [3 * (2/50), 4 * (3/50)]) ∧
    (applyErrors Example.rising 2 Example.uncertain).state.RING.attr 0 "Roll" = some (.num (2 * (4/50))) ∧
    (applyErrors Example.rising 2 Example.uncertain).state.RING.attr 2 "CalErrorB" = some (.vec [0 * (6/50), 1/10 * (7/50), 0 * (8/50)]) ∧
    (applyErrors Example.rising 2 Example.uncertain).state.INJ.Z0 =
      [1 * (10/50), 1 * (11/50), 2 * (12/50), 2 * (13/50), 0 * (14/50), 5 * (15/50)] ∧
    circumference (applyErrors Example.rising 2 Example.uncertain).state.RING =
      (1 + 1/10 * (16/50)) * circumference Example.uncertain.RING := by decide +kernel

-- a second seed can follow the first
example : (applyErrors Example.rising 2 (applyErrors Example.rising 2 Example.uncertain).state).isOk := by decide +kernel

end PySC
