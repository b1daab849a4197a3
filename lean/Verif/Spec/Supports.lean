import Verif.Spec.Machine
import Mathlib.Algebra.Order.Field.Basic
/-
Where supports put the elements standing on them (C25-C29).
-/
namespace PySC.Spec
variable {K : Type} [Field K] [LinearOrder K]

/-- position of element `k` along the ring (`k = r.length` is the end of the ring) -/
def sPos (r : Ring K) (k : Nat) : K := ((List.range k).map (fun i => numAt r i "Length")).sum

/-- circumference -/
def circumference (r : Ring K) : K := sPos r r.length

/-- element `i` is a drift -/
def DriftAt (r : Ring K) (i : Nat) : Prop := r.attr i "PassMethod" = some (.str "DriftPass")

instance (r : Ring K) (i : Nat) : Decidable (DriftAt r i) := by unfold DriftAt; infer_instance

/-- total length of the drifts -/
def driftLength (r : Ring K) : K := ((List.range r.length).map (fun i => if DriftAt r i then numAt r i "Length" else 0)).sum

/-- element `k` stands on the support from `p.1` to `p.2`, which crosses the origin if `p.2 < p.1` -/
def covers (p : Nat × Nat) (k : Nat) : Prop := if p.1 ≤ p.2 then p.1 ≤ k ∧ k ≤ p.2 else p.1 ≤ k ∨ k ≤ p.2

instance (p : Nat × Nat) (k : Nat) : Decidable (covers p k) := by unfold covers; infer_instance

/-- position along the support; beyond the origin the circumference is added -/
def along (r : Ring K) (p : Nat × Nat) (k : Nat) : K :=
  if p.2 < p.1 ∧ k < p.1 then sPos r k + circumference r else sPos r k

/-- value at `x` of the straight line through `(xa, fa)` and `(xb, fb)` -/
def line (xa fa xb fb x : K) : K := fa + (fb - fa) * ((x - xa) / (xb - xa))

/-- displacement of element `k` by supports with the given displacements `shift` of their ends, which themselves stand on
something displaced by `base` -/
def ride (r : Ring K) (supports : List (Nat × Nat)) (shift base : Nat → K) (k : Nat) : K :=
  match supports.find? (fun p => decide (covers p k)) with
  | none => base k
  | some p => line (along r p p.1) (base p.1 + shift p.1) (along r p p.2) (base p.2 + shift p.2) (along r p k)

/-- displacement of element `k` in dimension `dim`: girders stand on plinths, plinths on sections -/
def displacement (r : Ring K) (o : Ords) (dim : Nat) : Nat → K :=
  ride r o.Girder (fun i => coef (vecAt r i "GirderOffset") dim)
    (ride r o.Plinth (fun i => coef (vecAt r i "PlinthOffset") dim)
      (ride r o.Section (fun i => coef (vecAt r i "SectionOffset") dim) (fun _ => 0)))

/-- supports of one type: no element stands on two of them, and a support crossing the origin does not cover the whole
ring -/
structure Layout (r : Ring K) (supports : List (Nat × Nat)) : Prop where
  apart : supports.Pairwise (fun p q => ∀ k, ¬ (covers p k ∧ covers q k))
  open_ : ∀ p ∈ supports, p.1 ≤ p.2 ∨ sPos r p.2 < sPos r p.1

/-- all supports with the attribute holding their roll, the one standing on the others last -/
def supportList (o : Ords) : List (String × (Nat × Nat)) :=
  o.Section.map (fun p => ("SectionRoll", p)) ++ o.Plinth.map (fun p => ("PlinthRoll", p)) ++
    o.Girder.map (fun p => ("GirderRoll", p))

/-- roll about the beam axis of element `k`: the sum of the rolls of the supports it stands on -/
def rollAt (r : Ring K) (o : Ords) (k : Nat) : K :=
  (((supportList o).filter (fun p => decide (covers p.2 k))).map (fun p => coef (vecAt r p.2.1 p.1) 0)).sum

/-- slope of element `k` in dimension `dim`: that of the topmost support it stands on -/
def slopeAt (r : Ring K) (o : Ords) (dim k : Nat) : K :=
  match (supportList o).reverse.find? (fun p => decide (covers p.2 k)) with
  | none => 0
  | some p => (displacement r o dim p.2.2 - displacement r o dim p.2.1) / (along r p.2 p.2.2 - along r p.2 p.2.1)

/-- no support crosses the origin -/
def NoWrap (o : Ords) : Prop := ∀ p ∈ o.Section ++ o.Plinth ++ o.Girder, p.1 ≤ p.2

/-- the supports of the three types are laid out properly -/
structure Layouts (r : Ring K) (o : Ords) : Prop where
  girder : Layout r o.Girder
  plinth : Layout r o.Plinth
  section_ : Layout r o.Section

/-- no element has a negative length -/
def Forward (r : Ring K) : Prop := ∀ i, 0 ≤ numAt r i "Length"

/-- `j` is the first element at the position of element `i` -/
def FirstThere (r : Ring K) (i j : Nat) : Prop := j ≤ i ∧ sPos r j = sPos r i ∧ ∀ j' < j, sPos r j' ≠ sPos r i

/-- The element carries the coordinate transformation which belongs to its length and bending angle, to the sum of the
offsets of its support and of the magnet on it, and to the sum of the rolls of both, which are stored in the order (roll,
pitch, yaw) and enter the transformation as rotations about (x, y, z), that is as (pitch, yaw, roll). -/
def Placed (E : Env K) (r : Ring K) (i : Nat) : Prop :=
  ∃ ox oy oz mx my mz roll pitch yaw mroll mpitch myaw t,
    r.attr i "SupportOffset" = some (.vec [ox, oy, oz]) ∧ r.attr i "MagnetOffset" = some (.vec [mx, my, mz]) ∧
    r.attr i "SupportRoll" = some (.vec [roll, pitch, yaw]) ∧ r.attr i "MagnetRoll" = some (.vec [mroll, mpitch, myaw]) ∧
    E.transform (numAt r i "Length") (numAt r i "BendingAngle") [ox + mx, oy + my, oz + mz]
      [mpitch + pitch, myaw + yaw, mroll + roll] = .ok t ∧
    r.attr i "T1" = some (.vec t.1) ∧ r.attr i "T2" = some (.vec t.2.1) ∧
    r.attr i "R1" = some (.mat t.2.2.1) ∧ r.attr i "R2" = some (.mat t.2.2.2)

/-- the four attributes which hold the coordinate transformation of an element -/
def transformAttrs : List String := ["T1", "T2", "R1", "R2"]

/-- element `c` is a child of magnet `i` -/
def ChildOf (r : Ring K) (i c : Nat) : Prop := ∃ l, r.attr i "MasterOf" = some (.ords l) ∧ c ∈ l

/-- Magnets and BPMs are where their supports put them: the displacement, roll and slopes of the supports at the first
element at the same position are stored in the element, magnets carry the coordinate transformation which belongs to them,
and children that of their master. -/
structure OnSupports (E : Env K) (r : Ring K) (o : Ords) : Prop where
  magnet : ∀ i ∈ o.Magnet, i ∉ o.BPM → ∀ j, FirstThere r i j →
    r.attr i "SupportOffset" = some (.vec [displacement r o 0 j, displacement r o 1 j, displacement r o 2 j]) ∧
    (NoWrap o → r.attr i "SupportRoll" = some (.vec [rollAt r o j, slopeAt r o 1 j, slopeAt r o 0 j]))
  bpm : ∀ i ∈ o.BPM, ∀ j, FirstThere r i j →
    r.attr i "SupportOffset" = some (.vec [displacement r o 0 j, displacement r o 1 j]) ∧
    (NoWrap o → r.attr i "SupportRoll" = some (.num (rollAt r o j)))
  placed : ∀ i ∈ o.Magnet, i ∉ o.BPM → (∀ i' ∈ o.Magnet, i' ≠ i → ¬ ChildOf r i' i) → Placed E r i
  children : ∀ i ∈ o.Magnet, (∀ i' ∈ o.Magnet, i' ≠ i → ¬ ChildOf r i' i) → ∀ c, ChildOf r i c →
    (∀ i' ∈ o.Magnet, i' ≠ i → c ≠ i' ∧ ¬ ChildOf r i' c) → ∀ a ∈ transformAttrs, r.attr c a = r.attr i a

end PySC.Spec
