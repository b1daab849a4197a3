import Verif.Model.Random
import Mathlib.Probability.Distributions.Gaussian.Real
import Mathlib.Probability.ConditionalProbability
import Mathlib.Probability.Independence.Basic
/-
What the truncated random numbers of pySC are meant to be: independent, each distributed as a standard normal number
given that it lies within the cut-off.
-/
namespace PySC
namespace Spec
open MeasureTheory ProbabilityTheory

/-- the random numbers `X k` are independent, and `X k` has the law `μ k` -/
structure IndependentWithLaws {Ω ι : Type} [MeasurableSpace Ω] (P : Measure Ω) (X : ι → Ω → ℝ) (μ : ι → Measure ℝ) : Prop where
  measurable : ∀ k, Measurable (X k)
  independent : iIndepFun X P
  law : ∀ k, P.map (X k) = μ k

/-- the generator of random numbers keeps its promise: the numbers it produces one after another are independent and
standard normal -/
abbrev StandardNormal {Ω : Type} [MeasurableSpace Ω] (P : Measure Ω) (X : ℕ → Ω → ℝ) : Prop :=
  IndependentWithLaws P X (fun _ => gaussianReal 0 1)

/-- the law of a standard normal number given that its magnitude is at most `|cut|` -/
noncomputable def truncatedNormal (cut : ℝ) : Measure ℝ := (gaussianReal 0 1)[|{x | |x| ≤ |cut|}]

/-- given enough time, `randnc(cut, (n,))` returns `out` when the generator produces the numbers `x` and stands at
position `pos`; it leaves the generator at position `next` -/
def Returns (E : Env ℝ) (x : ℕ → ℝ) (cut : ℝ) (n pos : ℕ) (out : List ℝ) (next : ℕ) : Prop :=
  ∃ fuel, randncFrom { E with randn := x, fuel := fuel } cut n pos = .ok (out, next)

/-- calls `randnc(cut, (n,))` with the listed arguments, one after another -/
def ReturnsAll (E : Env ℝ) (x : ℕ → ℝ) : List (ℝ × ℕ) → ℕ → List (List ℝ) → ℕ → Prop
  | [], pos, outs, next => outs = [] ∧ next = pos
  | (cut, n) :: calls, pos, outs, next =>
    ∃ out mid rest, outs = out :: rest ∧ Returns E x cut n pos out mid ∧ ReturnsAll E x calls mid rest next

/-- the cut-offs of all numbers which the calls return, in order -/
def cutoffs (calls : List (ℝ × ℕ)) : List ℝ := calls.flatMap (fun c => List.replicate c.2 c.1)

end Spec
end PySC
