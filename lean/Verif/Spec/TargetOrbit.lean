import Verif.Spec.BpmOffsets
import Verif.Model.Orbit
/-
Target orbits which are moved together with the BPMs (C129).
-/
namespace PySC.Spec
variable {K : Type} [Field K] [LinearOrder K]

/-- Target orbits for the BPMs `bpms` in `nt` turns, horizontal plane first, then vertical plane.  The second one is less by `d i 0`
horizontally and by `d i 1` vertically at the BPM `i`, in every turn. -/
structure TargetLess (bpms : List Nat) (nt : Nat) (d : Nat → Nat → K) (ref ref' : List K) : Prop where
  sizes : ref.length = nt * bpms.length + nt * bpms.length ∧ ref'.length = nt * bpms.length + nt * bpms.length
  x : ∀ b i, bpms[b]? = some i → ∀ t < nt, ∃ v, ref[t * bpms.length + b]? = some v ∧ ref'[t * bpms.length + b]? = some (v - d i 0)
  y : ∀ b i, bpms[b]? = some i → ∀ t < nt, ∃ v, ref[nt * bpms.length + (t * bpms.length + b)]? = some v ∧
    ref'[nt * bpms.length + (t * bpms.length + b)]? = some (v - d i 1)

end PySC.Spec
