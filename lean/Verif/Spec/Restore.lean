import Verif.Spec.Setpoints
import Verif.Model.Setpoints
/-
Vocabulary for set-points that are changed and restored (C19, C43, C54).
-/
namespace PySC.Spec
variable {K : Type} [Field K] [LinearOrder K]

/-- the fields of these magnets (and of their children) are those implied by set-points and errors: updating them changes nothing -/
def Settled (s : SC K) (l : List Nat) : Prop := updateMagnets (some l) s = .ok () s

/-- attribute `a` of element `i` is a field set by the magnets `l` -/
def FieldOf (r : Ring K) (l : List Nat) (i : Nat) (a : String) : Prop :=
  ∃ src ∈ l, Affects r src i ∧ (a ∈ ["PolynomA", "PolynomB", "MaxOrder"] ∨
    (a = "KickAngle" ∧ r.attr src "PassMethod" = some (.str "CorrectorPass")))

/-- no element gets its field from two registered magnets -/
def Separate (s : SC K) : Prop :=
  ∀ o ∈ s.ORD.Magnet, ∀ o' ∈ s.ORD.Magnet, ∀ t, Affects s.RING o t → Affects s.RING o' t → o = o'

/-- the fields of all registered magnets are those implied by set-points and errors -/
def UpToDate (s : SC K) : Prop := ∀ o ∈ s.ORD.Magnet, Settled s [o]

section
variable [FloorRing K]

/-- a call that sets magnets -/
inductive Trim (K : Type) where
  | cm (ords : List Nat) (values : NpArr K) (skew : Bool) (method : String)
  | magnet (ords : List Nat) (values : NpArr K) (skew : Bool) (order : Nat) (method : String) (dipComp : Bool)
  | update (ords : List Nat)

/-- the magnets it addresses -/
def Trim.ords : Trim K → List Nat
  | .cm o _ _ _ => o
  | .magnet o _ _ _ _ _ => o
  | .update o => o

/-- run it -/
def Trim.run : Trim K → Py (SC K) Unit
  | .cm o v sk m => setCMSetpoints o v sk m
  | .magnet o v sk k m d => setMagnetSetpoints o v sk k m d
  | .update o => updateMagnets (some o)

/-- a sequence of calls, ending at the first exception -/
def runTrims (l : List (Trim K)) : Py (SC K) Unit := Py.forEach l Trim.run

end
end PySC.Spec
