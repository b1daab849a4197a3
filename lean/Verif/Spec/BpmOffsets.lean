import Verif.Spec.Instruments
import Verif.Model.Response
/-
Machines which differ in the offsets of their BPMs (C128).
-/
namespace PySC.Spec
variable {K : Type} [Field K] [LinearOrder K]

/-- the attribute is a pair of numbers -/
def IsPair (r : Ring K) (i : Nat) (a : String) : Prop := ∃ x y : K, r.attr i a = some (.vec [x, y])

/-- The machines are the same, including the state of the random number generator, but not the offsets of the BPMs, neither their own nor
those of their supports. -/
structure SameButOffsets (s t : SC K) : Prop where
  same : t = { s with RING := t.RING }
  length : s.RING.length = t.RING.length
  attr : ∀ i a, a ≠ "Offset" → a ≠ "SupportOffset" → s.RING.attr i a = t.RING.attr i a
  pairs : ∀ i ∈ s.ORD.BPM, IsPair s.RING i "Offset" ∧ IsPair s.RING i "SupportOffset" ∧ IsPair t.RING i "Offset" ∧ IsPair t.RING i "SupportOffset"

/-- offset of a BPM in the horizontal (`k = 0`) or vertical (`k = 1`) plane, together with that of its support -/
def wholeOffset (r : Ring K) (i k : Nat) : K := coef (vecAt r i "Offset") k + coef (vecAt r i "SupportOffset") k

/-- by how much the BPM reads less in the second machine: the difference of the offsets, seen with the calibration of the BPM -/
def lessBy (r r' : Ring K) (i k : Nat) : K := (wholeOffset r' i k - wholeOffset r i k) * (1 + coef (vecAt r i "CalError") k)

/-- The readings of the BPMs `bpms` differ by constants `d` in every turn, sum signals and errors are the same, and the same BPMs see
no beam. -/
structure ReadsLess (bpms : List Nat) (nt : Nat) (d : Nat → Nat → K) (out out' : Reading K) : Prop where
  x : ∀ b i, bpms[b]? = some i → ∀ t < nt, ∃ v, out.x[t * bpms.length + b]? = some v ∧ out'.x[t * bpms.length + b]? = some (v.map (fun x => x - d i 0))
  y : ∀ b i, bpms[b]? = some i → ∀ t < nt, ∃ v, out.y[t * bpms.length + b]? = some v ∧ out'.y[t * bpms.length + b]? = some (v.map (fun y => y - d i 1))
  sizes : out.x.length = nt * bpms.length ∧ out.y.length = nt * bpms.length ∧ out'.x.length = nt * bpms.length ∧ out'.y.length = nt * bpms.length
  sums : out'.sums = out.sums
  errors : out'.errors = out.errors

end PySC.Spec
