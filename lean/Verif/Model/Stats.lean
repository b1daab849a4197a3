import Verif.Model.Fit
/-
pySC/utils/stats.py: weighted averages and their errors, for 1-D arrays (`axis=None`).
-/
namespace PySC
variable {K : Type} [Field K] [LinearOrder K]

/-- What the statistics obtain from numpy and scipy: the square root (NaN of negative numbers), the constant 2 pi and the
quantile of Student's t distribution at the confidence level, by degrees of freedom. -/
structure StatsEnv (K : Type) where
  sqrt : K → Option K
  pi2 : K
  tppf : K → K

/-- pySC/utils/stats.py:234-255 `weights_from_errors`; a missing error is NaN, a missing result is `None` -/
def weightsFromErrors (S : StatsEnv K) (errors : Option (List (Option K))) (period : K) : Option (List K) :=
  match errors with
  | none => none
  | some es =>
    if es.any (fun e => e.isNone) then none
    else if (es.filterMap id).any (fun e => decide (e = 0)) then none
    else some ((es.filterMap id).map (fun e => 1 / (e * S.pi2 / period) ^ 2))

/-- `np.average(data, weights=weights, returned=True)`: the average and the sum of the weights (the number of points without
weights).  The average of an empty array is NaN; of an empty array with weights it raises. -/
def npAverage (data : List K) (weights : Option (List K)) : Except Err (K × K) :=
  match weights with
  | none => if data.isEmpty then .error .nonFinite else .ok (data.sum / (data.length : K), (data.length : K))
  | some w =>
    if w.length ≠ data.length then .error .typeError
    else if w.sum = 0 then .error .zeroDivision
    else .ok ((List.zipWith (· * ·) data w).sum / w.sum, w.sum)

/-- pySC/utils/stats.py:98-114 `weighted_mean` -/
def weightedMean (S : StatsEnv K) (data : List K) (errors : Option (List (Option K))) : Except Err K := do
  let a ← npAverage data (weightsFromErrors S errors S.pi2)
  .ok a.1

/-- The unmasked entries of `np.ma.array(v, mask=np.isnan(data))`.  numpy raises MaskError (not one of the exceptions of the
model, so `exception`) if the lengths differ. -/
def unmasked {α : Type} (data : List (Option K)) (v : List α) : Except Err (List α) :=
  if v.length ≠ data.length then .error .exception
  else .ok (((v.zip data).filter (fun p => p.2.isSome)).map Prod.fst)

/-- pySC/utils/stats.py:117-121 `weighted_nanmean`: masked entries take no part in sums, means and tests -/
def weightedNanmean (S : StatsEnv K) (data : List (Option K)) (errors : Option (List (Option K))) : Except Err K := do
  match errors with
  | none => weightedMean S (data.filterMap id) none
  | some es => do
    let es ← unmasked data es
    weightedMean S (data.filterMap id) (some es)

/-- pySC/utils/stats.py:258-292 `effective_sample_size` (of positive weights) -/
def effectiveSampleSize (n : Nat) (weights : Option (List K)) : K :=
  let size := match weights with
    | none => (n : K)
    | some w => w.sum ^ 2 / (w.map (fun x => x ^ 2)).sum
  if 2 < size then size else 2

/-- pySC/utils/stats.py:295-324 `unbias_variance` -/
def unbiasVariance (n : Nat) (weights : Option (List K)) : K :=
  let size := effectiveSampleSize n weights
  size / (size - 1)

/-- pySC/utils/stats.py:327-346 `t_value_correction` -/
def tValueCorrection (S : StatsEnv K) (size : K) : K := S.tppf ((if 2 < size then size else 2) - 1)

/-- pySC/utils/stats.py:133-171 `weighted_error`; `np.nan_to_num` makes zero of NaN -/
def weightedError (S : StatsEnv K) (data : List K) (errors : Option (List (Option K))) (tValueCorr : Bool) : Except Err K := do
  let weights := weightsFromErrors S errors S.pi2
  let a ← npAverage data weights
  let v ← npAverage (data.map (fun x => |x - a.1| ^ 2)) weights
  let var := if weights.isSome then v.1 + 1 / v.2 else v.1
  let e := (S.sqrt (var * unbiasVariance data.length weights)).getD 0
  .ok (if tValueCorr then e * tValueCorrection S (effectiveSampleSize data.length weights) else e)

/-- pySC/utils/stats.py:208-224 `weighted_rms` (NaN is an exception of the model) -/
def weightedRms (S : StatsEnv K) (data : List K) (errors : Option (List (Option K))) : Except Err K := do
  let a ← npAverage (data.map (fun x => x ^ 2)) (weightsFromErrors S errors S.pi2)
  match S.sqrt a.1 with
  | none => .error .nonFinite
  | some r => .ok r

/-- pySC/utils/stats.py:227-231 `weighted_nanrms` -/
def weightedNanrms (S : StatsEnv K) (data : List (Option K)) (errors : Option (List (Option K))) : Except Err K :=
  match errors with
  | none => weightedRms S (data.filterMap id) none
  | some es => do
    let es ← unmasked data es
    weightedRms S (data.filterMap id) (some es)

/-- pySC/utils/stats.py:192-205 `rms` -/
def rms (S : StatsEnv K) (data : List K) : Except Err K := weightedRms S data none

end PySC
