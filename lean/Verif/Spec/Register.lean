import Verif.Spec.Machine
import Verif.Model.Register
/-
Vocabulary for registrations (C01-C06).
-/
namespace PySC.Spec
variable {K : Type _}

/-- strictly increasing -/
def Increasing (l : List Nat) : Prop := l.Pairwise (· < ·)

/-- all index lists of elements are strictly increasing -/
structure Tidy (o : Ords) : Prop where
  BPM : Increasing o.BPM
  RF : Increasing o.RF
  Magnet : Increasing o.Magnet
  SkewQuad : Increasing o.SkewQuad
  HCM : Increasing o.HCM
  VCM : Increasing o.VCM

/-- `new` lists exactly the ordinates in `old` and `given` -/
def IsUnion (new old given : List Nat) : Prop := ∀ x, x ∈ new ↔ x ∈ old ∨ x ∈ given

/-- sorted by end ordinate, then by start ordinate, no column twice -/
def PairLt (a b : Nat × Nat) : Prop := a.2 < b.2 ∨ (a.2 = b.2 ∧ a.1 < b.1)
def SortedPairs (l : List (Nat × Nat)) : Prop := l.Pairwise PairLt

/-- the uncertainty registered under a name for an element -/
def sigma (d : Dict Nat (Dict String (Attr K))) (i : Nat) (name : String) : Option (Attr K) :=
  (d.get? i).bind (fun e => e.get? name)

/-- what is registered for an element is the new value of every name given now, and the previous value of the others -/
def Merged (new old : Dict Nat (Dict String (Attr K))) (ords : List Nat) (given : String → Option (Attr K)) : Prop :=
  (∀ i, i ∈ new.keys ↔ i ∈ old.keys ∨ i ∈ ords) ∧
  ∀ i name, sigma new i name = if i ∈ ords then (given name).or (sigma old i name) else sigma old i name

/-- one entry per element and one value per name -/
def SingleEntries (d : Dict Nat (Dict String (Attr K))) : Prop :=
  d.keys.Nodup ∧ ∀ i e, d.get? i = some e → e.keys.Nodup

/-- every registered uncertainty has one of the given names -/
def OnlyNames (d : Dict Nat (Dict String (Attr K))) (names : List String) : Prop :=
  ∀ i name v, sigma d i name = some v → name ∈ names

/-- the uncertainties as registration leaves them: one entry per element, one value per name, and only known names -/
structure WellRegistered (g : Sigs K) : Prop where
  bpmNames : OnlyNames g.BPM ["Noise", "NoiseCO", "Offset", "Roll", "CalError", "SumError"]
  magnetNames : OnlyNames g.Magnet ["MagnetOffset", "MagnetRoll", "CalErrorA", "CalErrorB", "BendingAngle"]
  rfNames : OnlyNames g.RF ["VoltageSetpoint", "VoltageOffset", "VoltageCalError", "FrequencySetpoint", "FrequencyOffset",
    "FrequencyCalError", "TimeLagSetpoint", "TimeLagOffset", "TimeLagCalError"]
  supportNames : OnlyNames g.Support ["SectionOffset", "SectionRoll", "PlinthOffset", "PlinthRoll", "GirderOffset",
    "GirderRoll"]
  bpmSingle : SingleEntries g.BPM
  magnetSingle : SingleEntries g.Magnet
  rfSingle : SingleEntries g.RF
  supportSingle : SingleEntries g.Support

/-- what is stored for the two end points of a support when the uncertainty `v` is given: a single row belongs to the
start, two rows to start and end, each with the common cut-off if there is one -/
def StoredAt (d : Dict Nat (Dict String (Attr K))) (a b : Nat) (name : String) : Attr K → Prop
  | .vec v => sigma d a name = some (.vec v)
  | .pair (.vec v) c => sigma d a name = some (.pair (.vec v) c)
  | .mat m => ∃ x y, m[0]? = some x ∧ m[1]? = some y ∧ sigma d a name = some (.vec x) ∧ sigma d b name = some (.vec y)
  | .pair (.mat m) c => ∃ x y, m[0]? = some x ∧ m[1]? = some y ∧ sigma d a name = some (.pair (.vec x) c) ∧
      sigma d b name = some (.pair (.vec y) c)
  | _ => False

/-- a call of one of the registration methods -/
inductive RegCall (K : Type _) where
  | bpms (ords : List Nat) (kw : Kwargs K)
  | cavities (ords : List Nat) (kw : Kwargs K)
  | magnets (ords : List Nat) (kw : Kwargs K)
  | supports (rows : List (List Nat)) (support_type : String) (kw : Kwargs K)

/-- run it -/
def RegCall.run [Field K] [LinearOrder K] : RegCall K → Py (SC K) Unit
  | .bpms o kw => registerBpms o kw
  | .cavities o kw => registerCavities o kw
  | .magnets o kw => registerMagnets o kw
  | .supports r t kw => registerSupports r t kw

/-- the state after a sequence of calls, the caller catching exceptions -/
def registrations [Field K] [LinearOrder K] (calls : List (RegCall K)) (s : SC K) : SC K :=
  calls.foldl (fun s c => (c.run s).state) s

end PySC.Spec
