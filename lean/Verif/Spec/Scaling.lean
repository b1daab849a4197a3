import Verif.Model.ApplyErrors
/-
Errors in proportion to the uncertainties (C103).
-/
namespace PySC.Spec
variable {K : Type} [Field K] [LinearOrder K] [FloorRing K]

/-- `c` times a number or an array; a cut-off given with it stays as it is -/
def scaleAttr (c : K) : Attr K → Attr K
  | .num x => .num (c * x)
  | .vec v => .vec (v.map (fun x => c * x))
  | .pair v k => .pair (scaleAttr c v) k
  | a => a

/-- The attributes which hold errors.  (An uncertainty of a cavity can also be given for its set-points: what is drawn then replaces the
set-point, and is no error.) -/
def errorNames : List String :=
  ["Noise", "NoiseCO", "Offset", "Roll", "CalError", "SumError",
   "MagnetOffset", "MagnetRoll", "CalErrorA", "CalErrorB", "BendingAngleError",
   "VoltageOffset", "VoltageCalError", "FrequencyOffset", "FrequencyCalError",
   "TimeLagOffset", "TimeLagCalError",
   "SectionOffset", "SectionRoll", "PlinthOffset", "PlinthRoll", "GirderOffset", "GirderRoll", "SupportOffset", "SupportRoll"]

/-- the errors of supports, and what they amount to at the magnets and BPMs -/
def supportErrorNames : List String :=
  ["SectionOffset", "SectionRoll", "PlinthOffset", "PlinthRoll", "GirderOffset", "GirderRoll", "SupportOffset", "SupportRoll"]

/-- every uncertainty in a table multiplied by the factor for the element and the name -/
def scaleTable (F : Nat → String → K) (d : Dict Nat (Dict String (Attr K))) : Dict Nat (Dict String (Attr K)) :=
  d.map (fun e => (e.1, e.2.map (fun kv => (kv.1, scaleAttr (F e.1 kv.1) kv.2))))

/-- the attribute which gets the error of a magnet -/
def magnetErrorName (name : String) : String := if name = "BendingAngle" then "BendingAngleError" else name

/-- The uncertainties multiplied by factors: `F i a` is the factor of the uncertainty of attribute `a` of element `i`, `c` that of the
injection errors.  The uncertainty of the circumference stays as it is. -/
def scaleSigmas (F : Nat → String → K) (c : K) (g : Sigs K) : Sigs K where
  BPM := scaleTable F g.BPM
  Magnet := scaleTable (fun i name => F i (magnetErrorName name)) g.Magnet
  RF := scaleTable F g.RF
  Support := scaleTable F g.Support
  randomInjectionZ := g.randomInjectionZ.map (fun x => c * x)
  staticInjectionZ := g.staticInjectionZ.map (fun x => c * x)
  Circumference := g.Circumference

/-- no element has an error -/
def WithoutErrors (s : SC K) : Prop :=
  ∀ i, ∀ a ∈ errorNames, ∀ v, s.RING.attr i a = some v → v = .num 0 ∨ ∃ n, v = .vec (List.replicate n 0)

/-- The errors of `t` are those of `s` multiplied by the factors: in every element, and at injection. -/
structure ScaledErrors (F : Nat → String → K) (c : K) (s t : SC K) : Prop where
  elements : ∀ i, ∀ a ∈ errorNames, t.RING.attr i a = (s.RING.attr i a).map (scaleAttr (F i a))
  ideal : t.INJ.Z0ideal = s.INJ.Z0ideal
  injection : t.INJ.Z0.length = s.INJ.Z0.length ∧ ∀ (k : Nat) x y i, s.INJ.Z0[k]? = some x → t.INJ.Z0[k]? = some y →
    s.INJ.Z0ideal[k]? = some i → y - i = c * (x - i)
  jitter : t.INJ.randomInjectionZ = s.INJ.randomInjectionZ.map (fun x => c * x)

end PySC.Spec
