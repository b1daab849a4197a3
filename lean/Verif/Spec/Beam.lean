import Verif.Model.Beam
/-
Reading of a beam position monitor (C33, C34), bunches (C36).
-/
namespace PySC.Spec
variable {K : Type} [Field K] [LinearOrder K]

/-- the positions of the particles that are not lost -/
def survivors (P : List (Option K × Option K)) : List (K × K) :=
  P.filterMap (fun p => match p with | (some x, some y) => some (x, y) | _ => none)

/-- a particle with a horizontal position has a vertical one -/
def WholeLoss (P : List (Option K × Option K)) : Prop := ∀ p ∈ P, p.1.isSome = true → p.2.isSome = true

/-- centre of the surviving particles -/
def centre (P : List (Option K × Option K)) : K × K :=
  (((survivors P).map Prod.fst).sum / ((survivors P).length : K), ((survivors P).map Prod.snd).sum / ((survivors P).length : K))

/-- position seen by a BPM rolled by an angle with the given cosine and sine -/
def rolled (cs : K × K) (p : K × K) : K × K := (cs.1 * p.1 - cs.2 * p.2, cs.2 * p.1 + cs.1 * p.2)

/-- the errors of the BPM at position `i` of the ring; `noise` is the name of the noise attribute used -/
structure BpmAt (r : Ring K) (noise : String) (i : Nat) (e : BpmErr K) : Prop where
  noise : r.attr i noise = some (.vec [e.noise.1, e.noise.2])
  offset : ∃ ox oy sx sy, r.attr i "Offset" = some (.vec [ox, oy]) ∧ r.attr i "SupportOffset" = some (.vec [sx, sy]) ∧
    e.offset = (ox + sx, oy + sy)
  roll : ∃ a b, r.attr i "Roll" = some (.num a) ∧ r.attr i "SupportRoll" = some (.num b) ∧ e.roll = a + b
  cal : r.attr i "CalError" = some (.vec [e.cal.1, e.cal.2])
  sum : r.attr i "SumError" = some (.num e.sum)

/-- sum signal: the surviving fraction with its error -/
def signal (e : BpmErr K) (P : List (Option K × Option K)) (zs : K) : K :=
  ((survivors P).length : K) / (P.length : K) * (1 + e.sum * zs)

/-- the beam is seen: particles arrive and enough of them -/
def Seen (beamLostAt : K) (e : BpmErr K) (P : List (Option K × Option K)) (zs : K) : Prop :=
  survivors P ≠ [] ∧ 1 - beamLostAt ≤ signal e P zs

/-- (rotated position - offset) * (1 + calibration error) + noise / sum signal, in both planes -/
def shotReading (cosSin : K → K × K) (e : BpmErr K) (P : List (Option K × Option K)) (zx zy zs : K) : K × K :=
  (((rolled (cosSin e.roll) (centre P)).1 - e.offset.1) * (1 + e.cal.1) + e.noise.1 * zx / signal e P zs,
   ((rolled (cosSin e.roll) (centre P)).2 - e.offset.2) * (1 + e.cal.2) + e.noise.2 * zy / signal e P zs)

open Classical in
/-- reading of one shot with the sum signal as its weight, nothing if the beam is not seen -/
noncomputable def shot (cosSin : K → K × K) (beamLostAt : K) (e : BpmErr K) (P : List (Option K × Option K)) (zx zy zs : K) :
    Option ((K × K) × K) :=
  if Seen beamLostAt e P zs then some (shotReading cosSin e P zx zy zs, signal e P zs) else none

/-- weighted mean over the shots in which the beam was seen -/
def shotMean (l : List (Option ((K × K) × K))) : Option (K × K) :=
  let seen := l.filterMap id
  let W := (seen.map Prod.snd).sum
  if W = 0 then none
  else some ((seen.map (fun p => p.1.1 * p.2)).sum / W, (seen.map (fun p => p.1.2 * p.2)).sum / W)

/-- A family of random numbers, one for each valid index, all taken from different places of the random stream between
`lo` and `hi` and none larger than `cut`. -/
def Fresh {ι : Type} (randn : Nat → K) (lo hi : Nat) (cut : K) (valid : ι → Prop) (z : ι → K) : Prop :=
  ∃ p : ι → Nat, (∀ i j, valid i → valid j → p i = p j → i = j) ∧
    ∀ i, valid i → lo ≤ p i ∧ p i < hi ∧ z i = randn (p i) ∧ |z i| ≤ |cut|

/-- A bunch of `n` particles injected with random numbers from the stream between `lo` and `hi`: all particles share the
centroid `Z0 + randomInjectionZ * z` with `|z| ≤ 2`; unless there is a single particle each is displaced by the bunch
matrix applied to six numbers of its own not larger than 3; finally the user's function is applied. -/
def IsBunch (B : BeamEnv K) (randn : Nat → K) (lo hi : Nat) (inj : Inj K) (n : Nat) (Z : List (List K)) : Prop :=
  ∃ (mid : Nat) (c : List K) (z : Nat → K), Fresh randn lo mid 2 (· < 6) z ∧ mid ≤ hi ∧
    c.length = 6 ∧ (∀ k < 6, ∃ r z0, inj.randomInjectionZ[k]? = some r ∧ inj.Z0[k]? = some z0 ∧ c[k]? = some (r * z k + z0)) ∧
    ((n = 1 ∧ Z = B.postFun [c]) ∨
     (n ≠ 1 ∧ ∃ (m : List (List K)) (w : Nat × Nat → K) (Zs : List (List K)), bunchMatrix B inj.beamSize = .ok m ∧
        Fresh randn mid hi 3 (fun jk => jk.1 < n ∧ jk.2 < 6) w ∧ Z = B.postFun Zs ∧ Zs.length = n ∧
        ∀ j < n, Zs[j]? = some (List.zipWith (· + ·) c (matVec m ((List.range 6).map (fun k => w (j, k)))))))

/-- particles seen at the BPM `i` in turn `t` of a shot with the bunch `Z` -/
def seenAt (B : BeamEnv K) (s : SC K) (Z : List (List K)) (i t : Nat) : List (Option K × Option K) :=
  if s.INJ.trackMode = "ORB" then [B.orbit s.RING i] else B.track s.RING Z i t

/-- number of different turns -/
def turns (s : SC K) : Nat := if s.INJ.trackMode = "ORB" then 1 else s.INJ.nTurns

/-- the turn whose numbers are used -/
def turnIx (s : SC K) (t : Nat) : Nat := if s.INJ.trackMode = "ORB" then 0 else t

/-- The BPMs a request refers to: the registered ones among the requested ordinates (all of them without a request), in
the order in which they are registered, i.e. along the ring. -/
def Requested (bpms : List Nat) (req : Option (List Nat)) (ords : List Nat) : Prop :=
  ords.Sublist bpms ∧ ∀ i, i ∈ ords ↔ i ∈ bpms ∧ (∀ l, req = some l → i ∈ l)

/-- index of a random number within a shot: plane (or 2 for the sum signal), BPM, turn -/
abbrev ZIx := Fin 3 × Nat × Nat

/-- What happened during a reading: `e b` are the errors of the BPM number `b`, `Z k` the bunch injected in shot `k`, and
`z (k, p, b, t)` the random number used for shot `k`, plane `p` (2 for the sum signal), BPM `b` and turn `t`; all random
numbers are different draws. -/
structure Shots (E : Env K) (B : BeamEnv K) (s s' : SC K) (ords : List Nat) (e : Nat → BpmErr K) (Z : Nat → List (List K))
    (z : Nat × ZIx → K) : Prop where
  errors : ∀ b i, ords[b]? = some i → BpmAt s.RING (if s.INJ.trackMode = "ORB" then "NoiseCO" else "Noise") i (e b)
  bunches : s.INJ.trackMode ≠ "ORB" → ∃ q : Nat → Nat, q 0 = s.rng ∧ q s.INJ.nShots = s'.rng ∧ ∀ k < s.INJ.nShots,
    q k ≤ q (k + 1) ∧ IsBunch B E.randn (q k) (q (k + 1)) s.INJ s.INJ.nParticles (Z k)
  draws : Fresh E.randn s.rng s'.rng 2
    (fun i : Nat × ZIx => i.1 < s.INJ.nShots ∧ i.2.2.1 < ords.length ∧ i.2.2.2 < turns s) z

/-- the readings of the shots at the BPM number `b` (ordinate `i`) in turn `t` -/
noncomputable def shotsAt (B : BeamEnv K) (s : SC K) (e : Nat → BpmErr K) (Z : Nat → List (List K)) (z : Nat × ZIx → K)
    (b t i : Nat) : List (Option ((K × K) × K)) :=
  (List.range s.INJ.nShots).map (fun k => shot B.cosSin s.INJ.beamLostAt (e b) (seenAt B s (Z k) i t)
    (z (k, 0, b, turnIx s t)) (z (k, 1, b, turnIx s t)) (z (k, 2, b, turnIx s t)))

/-- weighted mean over the turns in which the beam was seen: readings and mean sum signals -/
def turnMean (l : List (Option K × K)) : Option K :=
  let seen := l.filterMap (fun p => p.1.map (fun x => (x, p.2)))
  if (seen.map Prod.snd).sum = 0 then none else some ((seen.map (fun p => p.1 * p.2)).sum / (seen.map Prod.snd).sum)

/-- no errors at all -/
def noBpmErr : BpmErr K := ⟨(0, 0), (0, 0), (0, 0), 0, 0⟩

/-- fraction of the particles that are not lost -/
def fraction (P : List (Option K × Option K)) : K := ((survivors P).length : K) / (P.length : K)

/-- particle by particle: who is lost in `P` is lost in `Q` as well -/
def StaysLost (P Q : List (Option K × Option K)) : Prop := List.Forall₂ (fun p q => p.1.isSome = false → q.1.isSome = false) P Q

/-- covariance of coordinates `i` and `j` of `m z` for independent `z` of unit variance: entry (i, j) of `m mᵀ` -/
def covariance (m : List (List K)) (i j : Nat) : K := dot (m.getD i []) (m.getD j [])

/-- rows `i` and `j` of a matrix are orthonormal -/
def OrthonormalRows (L : List (List K)) : Prop :=
  ∀ i j, i < L.length → j < L.length → dot (L.getD i []) (L.getD j []) = if i = j then 1 else 0

end PySC.Spec
