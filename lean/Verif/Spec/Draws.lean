import Verif.Spec.Errors
/-
Where the random numbers behind the errors come from (C85).
-/
namespace PySC.Spec
variable {K : Type} [Field K] [LinearOrder K]

/-- the error is the uncertainty times the random numbers at the positions `qs` of the stream, component by component -/
def ScaledDraw (randn : Nat → K) (sig err : Attr K) (qs : List Nat) : Prop :=
  match sig, err with
  | .num x, .num e => ∃ q, qs = [q] ∧ e = x * randn q
  | .vec v, .vec e => qs.length = v.length ∧ e.length = v.length ∧ ∀ k, ∀ hk : k < qs.length, coef e k = coef v k * randn qs[k]
  | _, _ => False

/-- the same for an uncertainty which may bring its own cut-off -/
def DrawnAs (randn : Nat → K) (sig err : Attr K) (qs : List Nat) : Prop :=
  match sig with
  | .pair v _ => ScaledDraw randn v err qs
  | v => ScaledDraw randn v err qs

/-- what random numbers are used for by `apply_errors`: the error stored in an attribute of an element, the injected trajectory, the
circumference -/
inductive Source where
  | error (i : Nat) (a : String)
  | injection
  | circumference
deriving DecidableEq

/-- every registered uncertainty (except those named in `raw`) of the elements in `ords` has led to an error made from its own random numbers -/
def ErrorsDrawn (randn : Nat → K) (r : Ring K) (ords : List Nat) (d : Dict Nat (Dict String (Attr K))) (raw : List String)
    (attrOf : String → String) (draw : Source → List Nat) : Prop :=
  ∀ i ∈ ords, ∀ name sig, sigma d i name = some sig → name ∉ raw →
    ∃ err, r.attr i (attrOf name) = some err ∧ DrawnAs randn sig err (draw (.error i (attrOf name)))

/-- the injected trajectory differs from the ideal one by its uncertainties times random numbers of its own -/
def InjectionDrawn (randn : Nat → K) (ideal static z0 : List K) (qs : List Nat) : Prop :=
  qs.length = 6 ∧ ∀ k, ∀ hk : k < qs.length, coef z0 k = coef ideal k + coef static k * randn qs[k]

/-- no random number is used twice, and all of them are drawn between `lo` and `hi` -/
structure OwnNumbers (draw : Source → List Nat) (lo hi : Nat) : Prop where
  nodup : ∀ x, (draw x).Nodup
  disjoint : ∀ x y, x ≠ y → ∀ q ∈ draw x, q ∉ draw y
  range : ∀ x, ∀ q ∈ draw x, lo ≤ q ∧ q < hi

end PySC.Spec
