import Mathlib.Algebra.BigOperators.Group.Finset.Basic
import Verif.Spec.Orbit
/-
Vocabulary for the convergence of orbit corrections (C87).
-/
namespace PySC.Spec
open Finset
variable {K : Type} [Field K] [LinearOrder K]

/-- number of correctors -/
def numCMs (cms : CMs) : Nat := cms.1.length + cms.2.length

/-- the kick of corrector number `k`, horizontal ones first -/
def kickNo (cms : CMs) (t : SC K) (k : Nat) : K :=
  if k < cms.1.length then kick t.RING (cms.1.getD k 0) false else kick t.RING (cms.2.getD (k - cms.1.length) 0) true

/-- Over the readings of the run, the `n` measured values `m` depend linearly on the kicks, with the response matrix `R`. -/
def Responds (m : Log K → Nat → K) (R : Nat → Nat → K) (cms : CMs) (n : Nat) (logs : List (Log K)) : Prop :=
  ∀ l ∈ logs, ∀ l' ∈ logs, ∀ j < n,
    m l' j - m l j = ∑ k ∈ range (numCMs cms), R j k * (kickNo cms l'.before k - kickNo cms l.before k)

/-- magnitude less than the limit -/
def Inside (l : Lim K) (x : K) : Prop :=
  match l with
  | .inf => True
  | .fin l => |x| < l

/-- no corrector is at its limit -/
def Unsaturated (cms : CMs) (t : SC K) : Prop :=
  (∀ i ∈ cms.1, Inside (kickLimit t.RING i false) (kick t.RING i false)) ∧
  (∀ i ∈ cms.2, Inside (kickLimit t.RING i true) (kick t.RING i true))

/-- The matrix `M` by which corrections are computed inverts the response matrix `R` up to a relative error `q`: the magnitudes in each row
of `1 - R M` add up to at most `q`. -/
def Inverts (q : K) (R : Nat → Nat → K) (M : List (List K)) (cms : CMs) (n : Nat) : Prop :=
  ∀ i < n, ∑ j ∈ range n, |(if i = j then 1 else 0) - ∑ k ∈ range (numCMs cms), R i k * coef (M.getD k []) j| ≤ q

end PySC.Spec
