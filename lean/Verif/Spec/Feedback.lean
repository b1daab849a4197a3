import Verif.Spec.ReadingLaw
/-
Measurements and adjustments in turn (C114).
-/
namespace PySC.Spec
open Py

/-- what the BPMs show: horizontal and vertical positions -/
abbrev Positions := List (Option ℝ) × List (Option ℝ)

/-- an adjustment of the machine, which may depend on all that was measured before -/
abbrev Adjustment := List Positions → SC ℝ → SC ℝ

/-- the machine without the random generator -/
def withoutRng (s : SC ℝ) : SC ℝ := { s with rng := 0 }

/-- `n` measurements with `bpm_reading`, before each of which the machine is adjusted; the adjustments do not use the random generator.
`past` are the measurements made so far, with the machine as it was measured; the result contains those as well. -/
noncomputable def feedback (E : Env ℝ) (B : BeamEnv ℝ) (req : ℕ → Option (List Nat)) (ce : Bool) (adjust : Adjustment) :
    ℕ → List (SC ℝ × Reading ℝ) → Py (SC ℝ) (List (SC ℝ × Reading ℝ))
  | 0, past => Py.pure past
  | n + 1, past => do
    modify (fun s => { adjust (past.map (fun m => (m.2.x, m.2.y))) (withoutRng s) with rng := s.rng })
    let m ← get
    let out ← bpmReading E B (req past.length) ce
    feedback E B req ce adjust n (past ++ [(m, out)])

/-- the settings which determine how many random numbers a measurement uses -/
structure MeasuredAlike (s t : SC ℝ) : Prop where
  bpms : t.ORD.BPM = s.ORD.BPM
  shots : t.INJ.nShots = s.INJ.nShots
  particles : t.INJ.nParticles = s.INJ.nParticles
  turns : t.INJ.nTurns = s.INJ.nTurns
  mode : t.INJ.trackMode = s.INJ.trackMode
  jitter : t.INJ.randomInjectionZ.length = s.INJ.randomInjectionZ.length

/-- the adjustments do not touch these settings -/
def KeepsSettings (adjust : Adjustment) : Prop := ∀ past t, MeasuredAlike t (adjust past t)

/-- the machine in measurement number `j`, the positions measured being `shown` -/
def machineAt (adjust : Adjustment) (s : SC ℝ) (shown : List Positions) : ℕ → SC ℝ
  | 0 => withoutRng (adjust [] (withoutRng s))
  | j + 1 => withoutRng (adjust (shown.take (j + 1)) (machineAt adjust s shown j))

/-- the random numbers of `n` measurements of machine `s`, at the BPMs `ords j` in measurement `j` -/
abbrev MeasuredNumber (s : SC ℝ) (ords : ℕ → List Nat) (n : ℕ) := {x : ℕ × Number // x.1 < n ∧ x.2.Used s (ords x.1).length}

/-- what measurements `outs` of machine `s`, which is adjusted in between, have to do with the numbers `z j` of measurement `j` -/
structure MeasuredFrom (B : BeamEnv ℝ) (adjust : Adjustment) (s : SC ℝ) (ords : ℕ → List Nat) (n : ℕ) (z : ℕ → Number → ℝ)
    (outs : List (SC ℝ × Reading ℝ)) : Prop where
  number : outs.length = n
  machine : ∀ j m out, outs[j]? = some (m, out) → withoutRng m = machineAt adjust s (outs.map (fun m => (m.2.x, m.2.y))) j
  reading : ∀ j m out, outs[j]? = some (m, out) → ReadFrom B m (ords j) (z j) out

end PySC.Spec
