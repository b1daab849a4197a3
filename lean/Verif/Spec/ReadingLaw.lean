import Verif.Spec.CommonNumbers
import Verif.Spec.Machine
import Verif.Spec.Truncated
/-
The random numbers behind the readings of the BPMs as random variables (C98, C99).
-/
namespace PySC.Spec

/-- what a measurement uses random numbers for: the jitter of coordinate `coord` of the bunch injected in shot `shot`; the coordinate of
one of its particles; the noise of a BPM in a turn (both planes and sum signal) -/
inductive Number where
  | jitter (shot coord : Nat)
  | particle (shot index coord : Nat)
  | bpm (shot : Nat) (what : ZIx)
deriving DecidableEq

/-- the numbers which a measurement of machine `s` at `nb` BPMs uses: no bunches are injected in orbit mode, a single particle has no
spread -/
def Number.Used (s : SC ℝ) (nb : Nat) : Number → Prop
  | .jitter k i => s.INJ.trackMode ≠ "ORB" ∧ k < s.INJ.nShots ∧ i < 6
  | .particle k j i => s.INJ.trackMode ≠ "ORB" ∧ s.INJ.nParticles ≠ 1 ∧ k < s.INJ.nShots ∧ j < s.INJ.nParticles ∧ i < 6
  | .bpm k w => k < s.INJ.nShots ∧ w.2.1 < nb ∧ w.2.2 < turns s

/-- how many standard deviations are allowed -/
def Number.cutoff : Number → ℝ
  | .jitter _ _ => 2
  | .particle _ _ _ => 3
  | .bpm _ _ => 2

/-- the bunch `Z` made from the numbers `z` of the jitter and `w j` of the particles `j`: all particles share the centroid
`Z0 + randomInjectionZ * z`; unless there is a single particle each is displaced by the bunch matrix applied to its numbers; finally the
user's function is applied -/
def BunchFrom {K : Type} [Field K] [LinearOrder K] (B : BeamEnv K) (inj : Inj K) (z : Nat → K) (w : Nat → Nat → K) (Z : List (List K)) : Prop :=
  ∃ c : List K, c.length = 6 ∧ (∀ k < 6, coef c k = coef inj.Z0 k + coef inj.randomInjectionZ k * z k) ∧
    ((inj.nParticles = 1 ∧ Z = B.postFun [c]) ∨
     (inj.nParticles ≠ 1 ∧ ∃ m Zs, bunchMatrix B inj.beamSize = .ok m ∧ Z = B.postFun Zs ∧ Zs.length = inj.nParticles ∧
        ∀ j < inj.nParticles, Zs[j]? = some (List.zipWith (· + ·) c (matVec m ((List.range 6).map (w j))))))

/-- `out` is the reading of machine `s` at the BPMs `ords` made from the numbers `z` -/
def ReadFrom (B : BeamEnv ℝ) (s : SC ℝ) (ords : List Nat) (z : Number → ℝ) (out : Reading ℝ) : Prop :=
  ∃ Z : Nat → List (List ℝ),
    (s.INJ.trackMode ≠ "ORB" → ∀ k < s.INJ.nShots, BunchFrom B s.INJ (fun i => z (.jitter k i)) (fun j i => z (.particle k j i)) (Z k)) ∧
    MadeWith B s ords Z (fun i => z (.bpm i.1 i.2)) out

end PySC.Spec
