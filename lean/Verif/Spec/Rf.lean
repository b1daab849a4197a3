import Verif.Spec.Errors
import Verif.Spec.Setpoints
import Verif.Model.Rf
/-
RF corrections (C44, C45, C69) and straight line fits.
-/
namespace PySC.Spec
variable {K : Type} [Field K] [LinearOrder K]

/-- `x` and `y` differ by a whole number of periods -/
def SamePhase (period x y : K) : Prop := ∃ k : ℤ, x - y = k * period

/-- the cavity has set-point, calibration error and offset for voltage, frequency and time lag (as after registration) -/
def CavityReady (r : Ring K) (i : Nat) : Prop :=
  ∀ f ∈ ["Voltage", "Frequency", "TimeLag"], ∀ part ∈ ["SetPoint", "CalError", "Offset"], ∃ x, r.attr i (f ++ part) = some (.num x)

/-- the fields of the cavity are what its set-points and errors imply -/
def Realised (r : Ring K) (i : Nat) : Prop :=
  ∀ f ∈ ["Voltage", "Frequency", "TimeLag"], r.attr i f =
    some (.num (numAt r i (f ++ "SetPoint") * (1 + numAt r i (f ++ "CalError")) + numAt r i (f ++ "Offset")))

/-- The set-point `field` of the given cavities was shifted by `d`, their fields follow, nothing else changed.  Random
numbers may have been drawn. -/
structure Shifted (cavs : List Nat) (field : String) (d : K) (s s' : SC K) : Prop where
  setpoint : ∀ i ∈ cavs, numAt s'.RING i (field ++ "SetPoint") = numAt s.RING i (field ++ "SetPoint") + d
  realised : ∀ i ∈ cavs, Realised s.RING i → Realised s'.RING i
  rest : DrawFrame (fun i a => i ∈ cavs ∧ (a = field ++ "SetPoint" ∨ a ∈ ["Voltage", "Frequency", "TimeLag"])) s s'

/-- sum of the squared and weighted distances of points to the line with slope `p` and intercept `q` -/
def misfit (pts : List (Pt K)) (p q : K) : K := sumOf pts (fun t => (t.w * (t.y - (p * t.x + q))) ^ 2)

/-- the line is the best fit to the points -/
def BestLine (pts : List (Pt K)) (p q : K) : Prop := ∀ p' q', misfit pts p q ≤ misfit pts p' q'

/-- reading of BPM `b` of `nb` in turn `t` -/
def readingAt (v : List (Option K)) (nb t b : Nat) : Option K := v.getD (t * nb + b) none

/-- there are BPMs and all of them see the beam in turn `t` -/
def seenByAll (v : List (Option K)) (nb t : Nat) : Bool :=
  decide (0 < nb) && (List.range nb).all (fun b => (readingAt v nb t b).isSome)

/-- average over `n` BPMs -/
def average (n : Nat) (f : Nat → K) : K := ((List.range n).map f).sum / (n : K)

/-- the turns in which the distance to the first turn can be measured -/
def goodTurns (v : List (Option K)) (nb nTurns : Nat) : List Nat :=
  (List.range nTurns).filter (fun t => seenByAll v nb t && seenByAll v nb 0)

/-- distance of the reading in turn `t` to the one in the first turn, averaged over the BPMs -/
def driftAt (v : List (Option K)) (nb t : Nat) : K :=
  average nb (fun b => (readingAt v nb t b).getD 0 - (readingAt v nb 0 b).getD 0)

/-- variance of the readings in turn `t` -/
def spreadAt (v : List (Option K)) (nb t : Nat) : K :=
  average nb (fun b => ((readingAt v nb t b).getD 0 - average nb (fun b => (readingAt v nb t b).getD 0)) ^ 2)

section
variable [FloorRing K]

/-- the slope measured with the cavities shifted by `v` -/
def MeasuredAt (E : Env K) (B : BeamEnv K) (cavs bpms : List Nat) (field : String) (s : SC K) (v : K)
    (m : Option (K × K)) : Prop :=
  ∃ s1 s2, Shifted cavs field v s s1 ∧ tbtEnergyShift E B bpms s1 = .ok m s2

/-- the measurement at shift `v` fails, and the cavities stay shifted -/
def StoppedAt (E : Env K) (B : BeamEnv K) (cavs bpms : List Nat) (field : String) (s : SC K) (v : K) (e : Err) (s' : SC K) : Prop :=
  ∃ s1, Shifted cavs field v s s1 ∧ tbtEnergyShift E B bpms s1 = .error e s' ∧ Shifted cavs field v s s'

/-- the points of a scan with a measurement: shift, slope and its error -/
def scanData (vals : List K) (meas : List (Option (K × K))) : List (Pt K) :=
  (vals.zip meas).filterMap (fun p => p.2.map (fun m => ⟨p.1, m.1, m.2⟩))

/-- the shifts of a scan from `a` to `b` in `n` steps -/
def scanValues (a b : K) (n : Nat) : List K := (List.range n).map (fun (k : Nat) => a + (b - a) * (k : K) / ((n : K) - 1))
end

end PySC.Spec
