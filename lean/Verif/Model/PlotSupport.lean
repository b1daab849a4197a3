import Verif.Model.Supports
/-
pySC/plotting/plot_support.py: the lines drawn for single supports.  Everything else in the figure is left out.
-/
namespace PySC
variable {K : Type} [Field K] [LinearOrder K]

/-- a straight line drawn from one point to another -/
structure Seg (K : Type) where
  x0 : K
  y0 : K
  x1 : K
  y1 : K
deriving DecidableEq

/-- pySC/plotting/plot_support.py:119-126 `_plot_support` -/
def plotSupport1 (s0 s1 v0 v1 C : K) : Except Err (List (Seg K)) :=
  if s0 ≤ s1 then .ok [⟨s0, v0, s1, v1⟩]
  else do
    let q ← divE (s1 * (v1 - v0)) (s1 - s0 + C)
    .ok [⟨s0, v0, C, v1 - q⟩, ⟨0, v1 - q, s1, v1⟩]

/-- `SC.RING[i].__dict__[name][dim]` -/
def dictValue (r : Ring K) (i : Nat) (name : String) (dim : Nat) : Except Err K :=
  match r.getVecAt i name dim with
  | .error .attributeError => .error .keyError
  | x => x

/-- pySC/plotting/plot_support.py:49-52: offsets of the two ends and roll of one support (one dimension) -/
def supportData (r : Ring K) (t : String) (dim : Nat) (p : Nat × Nat) : Except Err (K × K × K) := do
  let a ← dictValue r p.1 (t ++ "Offset") dim
  let b ← dictValue r p.2 (t ++ "Offset") dim
  let c ← dictValue r p.1 (t ++ "Roll") dim
  .ok (a, b, c)

/-- pySC/plotting/plot_support.py:43-52: the data of the supports in range, for one type -/
def collectSupports (r : Ring K) (t : String) (dim : Nat) (lim : K × K) : List (Nat × Nat) → Except Err (List (K × K × K))
  | [] => .ok []
  | p :: ps => do
    let s0 ← idx (findspos r) p.1
    let s1 ← idx (findspos r) p.2
    if (lim.1 ≤ s0 ∧ s0 ≤ lim.2) ∨ (lim.1 ≤ s1 ∧ s1 ≤ lim.2) then do
      let d ← supportData r t dim p
      let ds ← collectSupports r t dim lim ps
      .ok (d :: ds)
    else collectSupports r t dim lim ps

/-- pySC/plotting/plot_support.py:86-96: the loop over all supports of one type from index `i` on; the lines for offsets and rolls -/
def drawSupports (r : Ring K) (data : List (K × K × K)) : Nat → List (Nat × Nat) → Except Err (List (List (Seg K) × List (Seg K)))
  | _, [] => .ok []
  | i, p :: ps => do
    let C := (findspos r).getLastD 0
    let s0 ← idx (findspos r) p.1
    let s1 ← idx (findspos r) p.2
    let d ← idx data i
    let off ← plotSupport1 s0 s1 (10 ^ 6 * d.1) (10 ^ 6 * d.2.1) C
    let roll ← plotSupport1 s0 s1 (10 ^ 6 * d.2.2) (10 ^ 6 * d.2.2) C
    let rest ← drawSupports r data (i + 1) ps
    .ok ((off, roll) :: rest)

/-- pySC/plotting/plot_support.py:10-116 `plot_support`, the supports of type `t` in the panels of dimension `dim`: for each support the
lines drawn for its offset and its roll -/
def plotSupports (r : Ring K) (o : Ords) (t : String) (dim : Nat) (lim : Option (K × K)) : Except Err (List (List (Seg K) × List (Seg K))) := do
  let lim := lim.getD (0, (findspos r).getLastD 0)
  let data ← collectSupports r t dim lim (o.pairs t)
  drawSupports r data 0 (o.pairs t)

end PySC
