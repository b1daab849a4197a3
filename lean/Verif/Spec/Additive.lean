import Verif.Spec.Restore
/-
Vocabulary for C109: requests which add to set-points.
-/
namespace PySC.Spec
variable {K : Type} [Field K] [LinearOrder K] [FloorRing K]

/-- a request (with method `add`) to change correctors or magnets by given amounts -/
inductive Increment (K : Type) where
  | correctors (ords : List Nat) (kicks : List K) (skew : Bool)
  | magnets (ords : List Nat) (amounts : List K) (skew : Bool) (order : Nat)

/-- the call it is made with -/
def Increment.call : Increment K → Trim K
  | .correctors o v sk => .cm o ⟨false, v⟩ sk "add"
  | .magnets o v sk k => .magnet o ⟨false, v⟩ sk k "add" false

/-- by how much it asks to change multipole `k` of element `i`: a corrector is asked for a kick, a magnet for a field -/
def Increment.amount (r : Ring K) : Increment K → Nat → Bool → Nat → K
  | .correctors o v skew, i, sk, k => if sk = skew ∧ k = 0 then (valuesFor o v i).sum / kickFactor r i skew else 0
  | .magnets o v skew order, i, sk, k => if sk = skew ∧ k = order then (valuesFor o v i).sum else 0

/-- none of the new values meets a limit -/
def Increment.Fits (r : Ring K) : Increment K → Prop
  | .correctors o v skew => ∀ n i, o[n]? = some i → Lim.Nonneg (kickLimit r i skew) ∧
      Within (kickLimit r i skew) (valueFor v n + kick r i skew)
  | .magnets o v skew order => ∀ n i, o[n]? = some i → skew = true ∧ order = 1 → Lim.Nonneg (skewLimit r i) ∧
      Within (skewLimit r i) (valueFor v n + setpoint r i skew order)

/-- a sequence of requests none of which meets a limit, each addressing registered magnets, every one of them once -/
def Unclipped : List (Increment K) → SC K → Prop
  | [], _ => True
  | c :: l, s => c.Fits s.RING ∧ c.call.ords.Nodup ∧ (∀ o ∈ c.call.ords, o ∈ s.ORD.Magnet) ∧
      ∀ s', c.call.run s = .ok () s' → Unclipped l s'

/-- what a sequence of requests asks for altogether -/
def totalAsked (r : Ring K) (l : List (Increment K)) (i : Nat) (skew : Bool) (k : Nat) : K :=
  (l.map (fun c => c.amount r i skew k)).sum

/-- make all requests, one after the other -/
def makeAll (l : List (Increment K)) : Py (SC K) Unit := runTrims (l.map Increment.call)

/-- a request (with method `add`) to change one of the settings of cavities -/
structure RfIncrement (K : Type) where
  ords : List Nat
  amounts : List K
  field : String

/-- the call it is made with -/
def RfIncrement.run (c : RfIncrement K) : Py (SC K) Unit := setCavitySetpoints c.ords ⟨false, c.amounts⟩ c.field "add"

/-- make all requests, one after the other -/
def makeAllRf (l : List (RfIncrement K)) : Py (SC K) Unit := Py.forEach l RfIncrement.run

/-- each addresses registered cavities, every one of them once, and a setting cavities have -/
def RfIncrement.Sound (s : SC K) (c : RfIncrement K) : Prop :=
  c.ords.Nodup ∧ (∀ o ∈ c.ords, o ∈ s.ORD.RF) ∧ c.field ∈ ["Voltage", "Frequency", "TimeLag"]

/-- what they ask for altogether -/
def totalRf (l : List (RfIncrement K)) (i : Nat) (field : String) : K :=
  (l.map (fun c => if c.field = field then (valuesFor c.ords c.amounts i).sum else 0)).sum

/-- the settings of all registered cavities are those implied by set-points and errors -/
def CavitiesUpToDate (s : SC K) : Prop :=
  ∀ o ∈ s.ORD.RF, ∀ f ∈ ["Voltage", "Frequency", "TimeLag"], ∃ sp cal off,
    s.RING.attr o (f ++ "SetPoint") = some (.num sp) ∧ s.RING.attr o (f ++ "CalError") = some (.num cal) ∧
    s.RING.attr o (f ++ "Offset") = some (.num off) ∧ s.RING.attr o f = some (.num (sp * (1 + cal) + off))

end PySC.Spec
