import Verif.Spec.Errors
import Verif.Spec.Setpoints
import Verif.Spec.Beam
import Verif.Model.Orbit
/-
Orbit and trajectory correction (C37-C40).
-/
namespace PySC.Spec
variable {K : Type} [Field K] [LinearOrder K]

/-- attributes which may change when the horizontal correctors `H`, the vertical correctors `V` and the frequency of the
cavities `F` are used for a correction -/
def correctorWrites (r : Ring K) (H V F : List Nat) (i : Nat) (a : String) : Prop :=
  (i ∈ H ∧ a = "SetPointB") ∨ (i ∈ V ∧ a = "SetPointA") ∨
  ((∃ c ∈ H ++ V, Affects r c i) ∧ a ∈ ["PolynomA", "PolynomB", "KickAngle", "MaxOrder"]) ∨
  (i ∈ F ∧ a ∈ ["FrequencySetPoint", "Voltage", "Frequency", "TimeLag"])

/-- nothing but set-points and fields of the given correctors (and cavities) changed; random numbers may have been drawn -/
structure OnlyCorrectors (H V F : List Nat) (s s' : SC K) : Prop where
  frame : DrawFrame (correctorWrites s.RING H V F) s s'
  rng : s.rng ≤ s'.rng

/-- the entry is the result of a BPM reading -/
def IsReading (E : Env K) (B : BeamEnv K) (bpms : List Nat) (l : Log K) : Prop :=
  ∃ r, bpmReading E B (some bpms) false l.before = .ok r l.after ∧ l.x = r.x ∧ l.y = r.y

/-- the beam reached every BPM in every turn -/
def Complete (l : Log K) : Prop := ∀ v ∈ l.x, v.isSome = true

/-- number of BPMs (and turns) with a reading -/
def seen (l : Log K) : Nat := (l.x.filter (fun v => v.isSome)).length

/-- the last `n` entries of a list -/
def tail {α : Type} (n : Nat) (l : List α) : List α := l.drop (l.length - n)

/-- the last `n` readings, and there are as many, saw the beam at the same number of BPMs -/
def SameReach (n : Nat) (logs : List (Log K)) : Prop :=
  n ≤ logs.length ∧ ∀ l ∈ tail n logs, ∀ l' ∈ tail n logs, seen l = seen l'

/-- A sequence of readings from the machine `s` on.  `step hist l l'` says what happened between the last reading `l` of
`hist` and the next reading `l'`. -/
structure Run (E : Env K) (B : BeamEnv K) (bpms : List Nat) (step : List (Log K) → Log K → Log K → Prop) (s : SC K)
    (logs : List (Log K)) : Prop where
  first : ∃ l, logs.head? = some l ∧ l.before = s
  genuine : ∀ l ∈ logs, IsReading E B bpms l
  steps : ∀ k l l', logs[k]? = some l → logs[k + 1]? = some l' → step (logs.take (k + 1)) l l'

/-- The correction: component `k` of the pseudo-inverse applied to the difference of measurement and reference, which
have `n` entries. -/
def correction (mplus : List (List K)) (m ref : Nat → K) (n k : Nat) : K :=
  ((List.range n).map (fun j => coef (mplus.getD k []) j * (m j - ref j))).sum

/-- The correctors with `used` (of those in `cms`) had the correction `d` subtracted from their kick, within their limits,
the others kept their
set-points, and so did all higher multipoles.  The horizontal correctors come first in `d`. -/
structure Steered (cms : CMs) (used : Nat → Prop) (d : Nat → K) (s s' : SC K) : Prop where
  hor : ∀ k i, cms.1[k]? = some i → used i →
    kick s'.RING i false = clip (kickLimit s.RING i false) (kick s.RING i false - d k)
  ver : ∀ k i, cms.2[k]? = some i → used i →
    kick s'.RING i true = clip (kickLimit s.RING i true) (kick s.RING i true - d (cms.1.length + k))
  rest : ∀ i, ¬ used i → ∀ sk n, setpoint s'.RING i sk n = setpoint s.RING i sk n
  higher : ∀ i sk n, n ≠ 0 → setpoint s'.RING i sk n = setpoint s.RING i sk n

/-- measurement of all BPMs and turns, horizontal ones first, 0 without reading -/
def allReadings (l : Log K) (j : Nat) : K := ((l.x ++ l.y).getD j none).getD 0

/-- corrector not after the last BPM which saw the beam; after a full turn every corrector -/
def Upstream (bpms : List Nat) (l : Log K) (i : Nat) : Prop :=
  bpms.length < seen l ∨ ∃ b, bpms[seen l - 1]? = some b ∧ i ≤ b

/-- One step of `first_turn`: the correctors upstream of the last BPM reached are steered by the pseudo-inverse applied to
the readings, possibly after a search for more transmission, which happens if the last 20 readings reached equally far. -/
def FirstTurnStep (E : Env K) (B : BeamEnv K) (bpms : List Nat) (cms : CMs) (mplus : List (List K)) (ref : List K)
    (hist : List (Log K)) (l l' : Log K) : Prop :=
  ∃ w, (w = l.after ∨ (SameReach 20 hist ∧ OnlyCorrectors cms.1 cms.2 [] l.after w ∧
      ∃ found, IsReading E B bpms found ∧ seen l < seen found ∧ found.after = w)) ∧
    0 < seen l ∧
    Steered cms (fun i => i ∈ cms.1 ++ cms.2 ∧ Upstream bpms l i)
      (correction mplus (allReadings l) (coef ref) ref.length) w l'.before ∧
    OnlyCorrectors cms.1 cms.2 [] w l'.before

/-- first turn and, for the first `n` BPMs, second minus first turn, in one plane; 0 without reading -/
def turnReading (nb n : Nat) (v : List (Option K)) (j : Nat) : K :=
  if j < nb then (v.getD j none).getD 0
  else if j < nb + n then
    match v.getD j none, v.getD (j - nb) none with
    | some second, some first => second - first
    | _, _ => 0
  else 0

/-- the same in both planes -/
def twoTurnReading (nb n : Nat) (l : Log K) (j : Nat) : K :=
  if j < 2 * nb then turnReading nb n l.x j else turnReading nb n l.y (j - 2 * nb)

/-- the reference of the first turn in both planes, zero in the second turn -/
def firstTurnReference (nb : Nat) (ref : List K) (j : Nat) : K := if j % (2 * nb) < nb then coef ref j else 0

/-- one step of `stitch` and `balance` with `n` BPMs of the second turn -/
def TwoTurnStep (bpms : List Nat) (cms : CMs) (mplus : List (List K)) (ref : List K) (n : Nat) (_ : List (Log K))
    (l l' : Log K) : Prop :=
  Steered cms (fun i => i ∈ cms.1 ++ cms.2)
    (correction mplus (twoTurnReading bpms.length n l) (firstTurnReference bpms.length ref) (4 * bpms.length))
    l.after l'.before ∧
  OnlyCorrectors cms.1 cms.2 [] l.after l'.before

/-- One step of `correct`.  With `scaleDisp` the last component of the correction changes the frequency of all cavities. -/
def CorrectStep (cms : CMs) (mplus : List (List K)) (ref : List K) (scaleDisp : K) (_ : List (Log K)) (l l' : Log K) : Prop :=
  let d := correction mplus (allReadings l) (coef ref) ref.length
  Steered cms (fun i => i ∈ cms.1 ++ cms.2) d l.after l'.before ∧
  OnlyCorrectors cms.1 cms.2 (if scaleDisp = 0 then [] else l.after.ORD.RF) l.after l'.before ∧
  (scaleDisp ≠ 0 → ∀ i ∈ l.after.ORD.RF, l'.before.RING.attr i "FrequencySetPoint" =
    some (.num (numAt l.after.RING i "FrequencySetPoint" - scaleDisp * d (cms.1.length + cms.2.length))))

/-- mean of numbers -/
def mean (v : List K) : K := v.sum / (v.length : K)

/-- variance of numbers -/
def variance (v : List K) : K := mean (v.map (fun x => (x - mean v) ^ 2))

/-- the root mean square readings of the BPMs which saw the beam -/
def IsRms (l : Log K) (p : K × K) : Prop :=
  ∃ v : List (K × K), v ≠ [] ∧ (l.x.zip l.y).filter (fun p => p.1.isSome) = v.map (fun q => (some q.1, some q.2)) ∧
    0 ≤ p.1 ∧ 0 ≤ p.2 ∧ p.1 ^ 2 = mean (v.map (fun q => q.1 ^ 2)) ∧ p.2 ^ 2 = mean (v.map (fun q => q.2 ^ 2))

/-- `sd` is the standard deviation of the root mean square readings of both planes -/
def RmsSpread (logs : List (Log K)) (sd : K) : Prop :=
  ∃ ps : List (K × K), List.Forall₂ IsRms logs ps ∧ 0 ≤ sd ∧ sd ^ 2 = variance (ps.flatMap (fun p => [p.1, p.2]))

/-- the root mean square readings vary, but by less than `eps` -/
def SpreadBelow (eps : K) (logs : List (Log K)) : Prop := ∃ sd, RmsSpread logs sd ∧ 0 < sd ∧ sd < eps

/-- the square root function is correct where it returns a number -/
def SqrtSound (f : K → Option K) : Prop := ∀ v r, f v = some r → 0 ≤ r ∧ r ^ 2 = v

/-- correctors, BPMs and reference used, with their defaults -/
def correctorsOf (s : SC K) (cms : Option CMs) : CMs := cms.getD (s.ORD.HCM, s.ORD.VCM)
def bpmsOf (s : SC K) (bpms : Option (List Nat)) : List Nat := bpms.getD s.ORD.BPM
def referenceOf (rm : List (List K)) (reference : Option (List K)) : List K := reference.getD (List.replicate rm.length 0)

/-- number of columns of a matrix given by its rows -/
def width (rm : List (List K)) : Nat := (rm.headD []).length

/-- the pseudo-inverse of the response matrix has a row for each of its columns -/
def PinvShape (O : OrbitEnv K) (rm : List (List K)) : Prop := ∀ p, O.pinv rm = .ok p → p.length = width rm

/-- the kick limits of the correctors are not negative -/
def SaneLimits (s : SC K) (cms : CMs) : Prop :=
  (∀ i ∈ cms.1, Lim.Nonneg (kickLimit s.RING i false)) ∧ (∀ i ∈ cms.2, Lim.Nonneg (kickLimit s.RING i true))

/-- Either the initial search for transmission in the second turn (before the first correction, if the first reading
reached too few BPMs), or a correction. -/
def StitchStep (bpms : List Nat) (cms : CMs) (mplus : List (List K)) (ref : List K) (n : Nat) (hist : List (Log K))
    (l l' : Log K) : Prop :=
  (hist.length = 1 ∧ seen l < bpms.length + n ∧ bpms.length + n ≤ seen l' ∧ OnlyCorrectors cms.1 cms.2 [] l.after l'.before) ∨
  TwoTurnStep bpms cms mplus ref n hist l l'

/-- the documented criterion: the coefficient of variation (standard deviation over mean) of the root mean square readings
is below `eps` -/
def VariationBelow (eps : K) (logs : List (Log K)) : Prop :=
  ∃ ps : List (K × K), List.Forall₂ IsRms logs ps ∧ ∃ sd, 0 ≤ sd ∧ sd ^ 2 = variance (ps.flatMap (fun p => [p.1, p.2])) ∧
    sd < eps * mean (ps.flatMap (fun p => [p.1, p.2]))

end PySC.Spec
