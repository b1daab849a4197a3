import Verif.Spec.History

/-! # Failed registrations

What a user expects of a registration which raises an exception: that the call can be repeated with right arguments.  The
vocabulary for saying to what extent this is so. -/

namespace PySC.Spec
variable {K : Type} [Field K] [LinearOrder K] [FloorRing K]

/-- every BPM, magnet and cavity of the lists of registered elements exists -/
structure AllExist (s : SC K) : Prop where
  bpms : ∀ i ∈ s.ORD.BPM, i < s.RING.length
  magnets : ∀ i ∈ s.ORD.Magnet, i < s.RING.length
  cavities : ∀ i ∈ s.ORD.RF, i < s.RING.length

/-- the elements a registration names -/
def RegCall.given : RegCall K → List Nat
  | .bpms o _ => o
  | .cavities o _ => o
  | .magnets o _ => o
  | .supports r _ _ => r.flatten

/-- the call does not return normally -/
def Fails {σ α : Type} (r : Res σ α) : Prop := ∃ e t, r = .error e t

/-- nothing outside the given elements has changed, and the lists of elements have only grown by given ones -/
structure Contained (given : List Nat) (s t : SC K) : Prop where
  ideal : t.IDEALRING = s.IDEALRING
  inj : t.INJ = s.INJ
  rng : t.rng = s.rng
  length : t.RING.length = s.RING.length
  attrs : ∀ i ∉ given, ∀ a, t.RING.attr i a = s.RING.attr i a
  bpms : ∀ i, i ∈ t.ORD.BPM → i ∈ s.ORD.BPM ∨ i ∈ given
  magnets : ∀ i, i ∈ t.ORD.Magnet → i ∈ s.ORD.Magnet ∨ i ∈ given
  cavities : ∀ i, i ∈ t.ORD.RF → i ∈ s.ORD.RF ∨ i ∈ given

end PySC.Spec
