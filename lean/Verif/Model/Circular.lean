import Verif.Model.Stats
import Mathlib.Analysis.SpecialFunctions.Complex.Arg
/-
pySC/utils/stats.py: circular averages, for 1-D arrays (`axis=None`) of real numbers.
-/
namespace PySC
open Real

/-- `np.average(data, weights=weights, returned=True)` of complex numbers -/
noncomputable def npAverageC (data : List ℂ) (weights : Option (List ℝ)) : Except Err (ℂ × ℝ) :=
  match weights with
  | none => if data.isEmpty then .error .nonFinite else .ok (data.sum / (data.length : ℂ), (data.length : ℝ))
  | some w =>
    if w.length ≠ data.length then .error .typeError
    else if w.sum = 0 then .error .zeroDivision
    else .ok ((List.zipWith (fun z (x : ℝ) => z * (x : ℂ)) data w).sum / (w.sum : ℂ), w.sum)

/-- pySC/utils/stats.py:39, 76: `np.exp(data * PI2I / period)` -/
noncomputable def complexPhases (data : List ℝ) (period : ℝ) : List ℂ :=
  data.map (fun x => Complex.exp ((x * (2 * π) / period : ℝ) * Complex.I))

/-- pySC/utils/stats.py:22-42 `circular_mean`; `np.angle` is the argument in (-pi, pi], zero for zero -/
noncomputable def circularMean (S : StatsEnv ℝ) (data : List ℝ) (period : ℝ) (errors : Option (List (Option ℝ))) : Except Err ℝ := do
  let a ← npAverageC (complexPhases data period) (weightsFromErrors S errors period)
  .ok (Complex.arg a.1 * period / (2 * π))

/-- pySC/utils/stats.py:45-50 `circular_nanmean`: masked entries take no part in sums, means and tests (an array with masked entries
only has no mean: the exception for NaN in the model) -/
noncomputable def circularNanmean (S : StatsEnv ℝ) (data : List (Option ℝ)) (period : ℝ) (errors : Option (List (Option ℝ))) :
    Except Err ℝ :=
  match errors with
  | none => circularMean S (data.filterMap id) period none
  | some es => do
    let es ← unmasked data es
    circularMean S (data.filterMap id) period (some es)

/-- pySC/utils/stats.py:73-86, the body of `circular_error` for data which are the entries not masked of an array of length
`size`: `effective_sample_size` counts with `data.shape` (stats.py:289), the length of the array with the masked entries.
`np.nan_to_num` makes zero of 0/0 and a huge number of a positive number divided by zero. -/
noncomputable def circularErrorOf (S : StatsEnv ℝ) (size : Nat) (data : List ℝ) (period : ℝ) (errors : Option (List (Option ℝ)))
    (tValueCorr : Bool) : Except Err ℝ := do
  let weights := weightsFromErrors S errors period
  let z := complexPhases data period
  let a ← npAverageC z weights
  let v ← npAverage (z.map (fun x => ‖x - a.1‖ ^ 2)) weights
  let var := if weights.isSome then v.1 + 1 / v.2 else v.1
  let e := √(var * unbiasVariance size weights)
  let huge : ℝ := 2 ^ 1023
  let pe := if ‖a.1‖ = 0 then (if e = 0 then 0 else huge) else e / ‖a.1‖
  let pe := if tValueCorr then pe * tValueCorrection S (effectiveSampleSize size weights) else pe
  .ok (if 1 / 4 * (2 * π) < pe then 3 / 10 * period else pe * period / (2 * π))

/-- pySC/utils/stats.py:53-86 `circular_error` -/
noncomputable def circularError (S : StatsEnv ℝ) (data : List ℝ) (period : ℝ) (errors : Option (List (Option ℝ))) (tValueCorr : Bool) :
    Except Err ℝ :=
  circularErrorOf S data.length data period errors tValueCorr

/-- pySC/utils/stats.py:89-95 `circular_nanerror` -/
noncomputable def circularNanerror (S : StatsEnv ℝ) (data : List (Option ℝ)) (period : ℝ) (errors : Option (List (Option ℝ)))
    (tValueCorr : Bool) : Except Err ℝ :=
  match errors with
  | none => circularErrorOf S data.length (data.filterMap id) period none tValueCorr
  | some es => do
    let es ← unmasked data es
    circularErrorOf S data.length (data.filterMap id) period (some es) tValueCorr

/-- pySC/utils/stats.py:174-189 `circular_rms` (NaN is an exception of the model) -/
noncomputable def circularRms (S : StatsEnv ℝ) (data : List ℝ) (period : ℝ) : Except Err ℝ := do
  let m ← circularMean S (data.map (fun x => (x / period) ^ 2)) 1 none
  match S.sqrt (m * period) with
  | none => .error .nonFinite
  | some r => .ok r

end PySC
