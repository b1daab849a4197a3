import Verif.Lemmas.ApplyErrors
import Verif.Lemmas.Supports
import Verif.Lemmas.Writes
import Verif.Lemmas.Fields
/-
`update_supports` assigns values which depend neither on earlier results of `update_supports` nor on fields.
-/
namespace PySC
open Py Spec
set_option linter.unusedSectionVars false
variable {K : Type} [Field K] [LinearOrder K]

/-- the attributes `update_supports` reads, apart from those it has written itself -/
def supportReads : List String :=
  ["Length", "BendingAngle", "MagnetOffset", "MagnetRoll", "MasterOf", "SectionOffset", "SectionRoll", "PlinthOffset", "PlinthRoll",
   "GirderOffset", "GirderRoll"]

/-- transformation of an element with the given displacement of its support -/
def transformWith (E : Env K) (i : Nat) (off roll : List K) (r : Ring K) :
    Except Err (List K × List K × List (List K) × List (List K)) := do
  let len ← numOr0 r i "Length"
  let theta ← numOr0 r i "BendingAngle"
  let mo ← r.getVec i "MagnetOffset"
  let offsets ← vadd off mo
  let mr ← r.getVec i "MagnetRoll"
  let rolls ← vadd mr roll
  E.transform len theta offsets (rollLeft rolls)

/-- assignments to a child of a master magnet -/
def childWrites (t : List K × List K × List (List K) × List (List K)) (c : Nat) (r : Ring K) : Except Err (Writes K) := do
  let _ ← r.valid c
  .ok [(c, "T1", .vec t.1), (c, "T2", .vec t.2.1), (c, "R1", .mat t.2.2.1), (c, "R2", .mat t.2.2.2)]

/-- assignments of the loop over magnets -/
def magnetSupportWrites (E : Env K) (offs rolls : List (List K)) (p : Nat × Nat) (r : Ring K) : Except Err (Writes K) := do
  let off ← column offs p.2
  let _ ← r.valid p.1
  let roll ← column rolls p.2
  let t ← transformWith E p.1 off roll r
  let ch ← masterChildren r p.1
  let W ← loopWrites (childWrites t) ch r
  .ok ([(p.1, "SupportOffset", .vec off), (p.1, "SupportRoll", .vec roll), (p.1, "R1", .mat t.2.2.1), (p.1, "T1", .vec t.1),
    (p.1, "T2", .vec t.2.1), (p.1, "R2", .mat t.2.2.2)] ++ W)

/-- assignments of the loop over BPMs -/
def bpmSupportWrites (offs rolls : List (List K)) (p : Nat × Nat) (r : Ring K) : Except Err (Writes K) := do
  let off ← column (offs.take 2) p.2
  let _ ← r.valid p.1
  let row ← idx rolls 0
  let x ← idx row p.2
  .ok [(p.1, "SupportOffset", .vec off), (p.1, "SupportRoll", .num x)]

/-- assignments of the first half of `update_supports` -/
def magnetsSupportWrites (E : Env K) (o : Ords) (m : Bool) (r : Ring K) : Except Err (Writes K) :=
  if m && !o.Magnet.isEmpty then do
    let or ← supportAt r o o.Magnet
    loopWrites (magnetSupportWrites E or.1 or.2) o.Magnet.zipIdx r
  else .ok []

/-- assignments of the second half of `update_supports` -/
def bpmsSupportWrites (o : Ords) (b : Bool) (r : Ring K) : Except Err (Writes K) :=
  if b && !o.BPM.isEmpty then do
    let or ← supportAt r o o.BPM
    loopWrites (bpmSupportWrites or.1 or.2) o.BPM.zipIdx r
  else .ok []

/-- all assignments of `update_supports` -/
def allSupportWrites (E : Env K) (o : Ords) (b m : Bool) (r : Ring K) : Except Err (Writes K) := do
  let W1 ← magnetsSupportWrites E o m r
  let W2 ← bpmsSupportWrites o b r
  .ok (W1 ++ W2)

section congr
variable {r r' : Ring K} (hl : r'.length = r.length) (h : ∀ i a, a ∈ supportReads → r'.attr i a = r.attr i a)
include hl h

theorem findspos_blind : findspos r' = findspos r := by
  unfold findspos
  congr 1
  refine List.ext_getElem (by simp [lengths, hl]) (fun i h1 h2 => ?_)
  have := h i "Length" (by decide +kernel)
  simp only [lengths, List.length_map] at h1 h2
  simp only [Ring.attr, List.getElem?_eq_getElem h1, List.getElem?_eq_getElem h2, Option.bind_some] at this
  simp only [lengths, List.getElem_map, this]

theorem loopWrites_blind {α : Type _} {g : α → Ring K → Except Err (Writes K)} (hg : ∀ x, g x r' = g x r) (l : List α) :
    loopWrites g l r' = loopWrites g l r := by
  induction l with
  | nil => rfl
  | cons x l ih => simp only [loopWrites, hg, ih]

theorem supportAt_blind (o : Ords) (l : List Nat) : supportAt r' o l = supportAt r o l := by
  have g : ∀ i a, a ∈ supportReads → r'.getA i a = r.getA i a := fun i a ha => Ring.getA_congr hl (h i a ha)
  simp (disch := decide +kernel) only [supportAt, positions, supportOffsetAndRoll, offsetRow, rollRows, typedPairs, supportTypes,
    List.flatMap_cons, List.flatMap_nil, List.append_nil, List.foldlM_append, List.foldlM_map, List.foldlM_cons, List.foldlM_nil,
    applySupportType, supportValue, addRoll, Ring.getVecAt, Ring.getVec, findspos_blind hl h, g]

theorem magnetSupportWrites_blind (E : Env K) (offs rolls : List (List K)) (p : Nat × Nat) :
    magnetSupportWrites E offs rolls p r' = magnetSupportWrites E offs rolls p r := by
  have g : ∀ i a, a ∈ supportReads → r'.getA i a = r.getA i a := fun i a ha => Ring.getA_congr hl (h i a ha)
  have k : ∀ i a, a ∈ supportReads → r'.hasA i a = r.hasA i a := fun i a ha => Ring.hasA_congr hl (h i a ha)
  have c : ∀ t (l : List Nat), loopWrites (childWrites t) l r' = loopWrites (childWrites t) l r := fun t l =>
    loopWrites_blind hl h (fun x => by simp only [childWrites, Ring.valid, hl]) l
  simp (disch := decide +kernel) only [magnetSupportWrites, transformWith, numOr0, masterChildren, Ring.getVec, Ring.getNum, Ring.valid,
    hl, g, k, c]

theorem allSupportWrites_blind (E : Env K) (o : Ords) (b m : Bool) :
    allSupportWrites E o b m r' = allSupportWrites E o b m r := by
  have h1 : ∀ or : List (List K) × List (List K), ∀ l, loopWrites (magnetSupportWrites E or.1 or.2) l r' =
      loopWrites (magnetSupportWrites E or.1 or.2) l r := fun or l =>
    loopWrites_blind hl h (magnetSupportWrites_blind hl h E or.1 or.2) l
  have h2 : ∀ or : List (List K) × List (List K), ∀ l, loopWrites (bpmSupportWrites or.1 or.2) l r' =
      loopWrites (bpmSupportWrites or.1 or.2) l r := fun or l =>
    loopWrites_blind hl h (fun p => by simp only [bpmSupportWrites, Ring.valid, hl]) l
  simp only [allSupportWrites, magnetsSupportWrites, bpmsSupportWrites, supportAt_blind hl h, h1, h2]

end congr

theorem blind_of_congr {α : Type _} {g : Ring K → Except Err α}
    (hg : ∀ r r' : Ring K, r'.length = r.length → (∀ i a, a ∈ supportReads → r'.attr i a = r.attr i a) → g r' = g r) :
    Blind supportWrites g := fun r W hW =>
  hg r _ (by simp) (fun i a ha => Ring.attr_write_of_not_mem (fun v hv =>
    (by decide +kernel : ∀ a ∈ supportReads, a ∉ supportWrites) a ha (hW _ hv)))

/-- the transformation stored in an element -/
structure Holds (r : Ring K) (i : Nat) (t : List K × List K × List (List K) × List (List K)) : Prop where
  T1 : r.attr i "T1" = some (.vec t.1)
  T2 : r.attr i "T2" = some (.vec t.2.1)
  R1 : r.attr i "R1" = some (.mat t.2.2.1)
  R2 : r.attr i "R2" = some (.mat t.2.2.2)

theorem Holds.setAttr {r : Ring K} {i : Nat} {t} (h : Holds r i t) {c : Nat} (hc : c < r.length) {f : String} {v : Attr K}
    (hv : r.attr i f = some v) : Holds (r.setAttr c f v) i t := by
  have key : ∀ a w, r.attr i a = some w → (r.setAttr c f v).attr i a = some w := by
    intro a w ha
    rw [Ring.attr_setAttr]
    split
    · rename_i hh
      obtain ⟨rfl, rfl⟩ := hh
      rw [hv] at ha
      simpa [hc] using ha
    · exact ha
  exact ⟨key _ _ h.T1, key _ _ h.T2, key _ _ h.R1, key _ _ h.R2⟩

theorem copyTransformation_writes {i c : Nat} {t : List K × List K × List (List K) × List (List K)} {s s' : SC K} (ht : Holds s.RING i t)
    {u : Unit} : copyTransformation i c s = .ok u s' ↔ ∃ W, childWrites t c s.RING = .ok W ∧ s' = s.write W := by
  unfold copyTransformation
  simp only [forEach_cons, forEach_nil, bind_eq_ok, rd_eq_ok, Ring.getA_eq_ok, setAttr_eq_ok, childWrites, Except.bind_eq_ok',
    Ring.valid_eq_ok]
  constructor
  · rintro ⟨-, s4, ⟨v1, _, ⟨h1, rfl⟩, hc, rfl⟩, -, s3, ⟨v2, _, ⟨h2, rfl⟩, -, rfl⟩, -, s2, ⟨v3, _, ⟨h3, rfl⟩, -, rfl⟩, -, s1,
      ⟨v4, _, ⟨h4, rfl⟩, -, rfl⟩, h5⟩
    have k1 := ht.setAttr hc h1
    have k2 := k1.setAttr (by simpa using hc) h2
    have k3 := k2.setAttr (by simpa using hc) h3
    simp only at h1 h2 h3 h4
    rw [ht.T1] at h1
    rw [k1.T2] at h2
    rw [k2.R1] at h3
    rw [k3.R2] at h4
    cases h1; cases h2; cases h3; cases h4
    cases h5
    exact ⟨_, ⟨(), hc, rfl⟩, rfl⟩
  · rintro ⟨W, ⟨-, hc, hW⟩, rfl⟩
    cases hW
    have k1 := ht.setAttr hc ht.T1
    have k2 := k1.setAttr (by simpa using hc) k1.T2
    have k3 := k2.setAttr (by simpa using hc) k2.R1
    exact ⟨(), _, ⟨_, _, ⟨ht.T1, rfl⟩, hc, rfl⟩, (), _, ⟨_, _, ⟨k1.T2, rfl⟩, by simpa using hc, rfl⟩, (), _,
      ⟨_, _, ⟨k2.R1, rfl⟩, by simpa using hc, rfl⟩, (), _, ⟨_, _, ⟨k3.R2, rfl⟩, by simpa using hc, rfl⟩, rfl⟩

theorem childWrites_holds {r : Ring K} {i c : Nat} {t : List K × List K × List (List K) × List (List K)} (ht : Holds r i t) {W : Writes K}
    (h : childWrites t c r = .ok W) : Holds (r.write W) i t := by
  simp only [childWrites, Except.bind_eq_ok', Ring.valid_eq_ok] at h
  obtain ⟨-, hc, hW⟩ := h
  cases hW
  have k1 := ht.setAttr hc ht.T1
  have k2 := k1.setAttr (by simpa using hc) k1.T2
  have k3 := k2.setAttr (by simpa using hc) k2.R1
  exact k3.setAttr (by simpa using hc) k3.R2

theorem childWrites_length {r r' : Ring K} (h : r'.length = r.length) (t : List K × List K × List (List K) × List (List K)) (l : List Nat) :
    loopWrites (childWrites t) l r' = loopWrites (childWrites t) l r := by
  induction l with
  | nil => rfl
  | cons c l ih => simp only [loopWrites, childWrites, Ring.valid, h] at ih ⊢; rw [ih]

theorem copyLoop_writes {i : Nat} {t : List K × List K × List (List K) × List (List K)} (l : List Nat) {s s' : SC K} (ht : Holds s.RING i t)
    {u : Unit} : forEach l (copyTransformation i) s = .ok u s' ↔
      ∃ W, loopWrites (childWrites t) l s.RING = .ok W ∧ s' = s.write W := by
  induction l generalizing s with
  | nil =>
    simp only [forEach_nil, loopWrites]
    constructor
    · intro h; cases h; exact ⟨[], rfl, rfl⟩
    · rintro ⟨W, h, rfl⟩; cases h; rfl
  | cons c l ih =>
    rw [forEach_cons, bind_eq_ok]
    simp only [loopWrites, Except.bind_eq_ok']
    constructor
    · rintro ⟨u1, s1, h1, h2⟩
      obtain ⟨W, hW, rfl⟩ := (copyTransformation_writes ht).1 h1
      obtain ⟨W', hW', rfl⟩ := (ih (childWrites_holds ht hW)).1 h2
      rw [SC.write_RING, childWrites_length (r := s.RING) (by simp)] at hW'
      exact ⟨_, ⟨W, hW, W', hW', rfl⟩, by rw [SC.write_append]⟩
    · rintro ⟨W0, ⟨W, hW, W', hW', hW0⟩, rfl⟩
      cases hW0
      refine ⟨(), _, (copyTransformation_writes ht).2 ⟨W, hW, rfl⟩, (ih (childWrites_holds ht hW)).2 ⟨W', ?_, by rw [SC.write_append]⟩⟩
      rw [SC.write_RING, childWrites_length (r := s.RING) (by simp)]
      exact hW'

theorem childLoop_within {t : List K × List K × List (List K) × List (List K)} {l : List Nat} {r : Ring K} {W : Writes K}
    (h : loopWrites (childWrites t) l r = .ok W) : Writes.Within W supportWrites := by
  induction l generalizing W with
  | nil => cases h; intro p hp; cases hp
  | cons c l ih =>
    simp only [loopWrites, Except.bind_eq_ok'] at h
    obtain ⟨W1, h1, W2, h2, hW⟩ := h
    cases hW
    refine Writes.Within.append ?_ (ih h2)
    simp only [childWrites, Except.bind_eq_ok'] at h1
    obtain ⟨-, -, hW⟩ := h1
    cases hW
    intro p hp
    simp only [List.mem_cons, List.not_mem_nil, or_false] at hp
    rcases hp with rfl | rfl | rfl | rfl <;> simp [supportWrites]

theorem transformInput_with (E : Env K) {r : Ring K} {i : Nat} (hi : i < r.length) (off roll : List K)
    {t : List K × List K × List (List K) × List (List K)} :
    (∃ x, transformInput ((r.setAttr i "SupportOffset" (.vec off)).setAttr i "SupportRoll" (.vec roll)) i = .ok x ∧
      E.transform x.1 x.2.1 x.2.2.1 x.2.2.2 = .ok t) ↔ transformWith E i off roll r = .ok t := by
  have g : ∀ a, a ≠ "SupportOffset" → a ≠ "SupportRoll" →
      ((r.setAttr i "SupportOffset" (.vec off)).setAttr i "SupportRoll" (.vec roll)).attr i a = r.attr i a := fun a h1 h2 => by
    rw [Ring.attr_setAttr_ne h2, Ring.attr_setAttr_ne h1]
  have ga : ∀ a, a ≠ "SupportOffset" → a ≠ "SupportRoll" →
      ((r.setAttr i "SupportOffset" (.vec off)).setAttr i "SupportRoll" (.vec roll)).getA i a = r.getA i a := fun a h1 h2 =>
    Ring.getA_congr (by simp) (g a h1 h2)
  have gh : ∀ a, a ≠ "SupportOffset" → a ≠ "SupportRoll" →
      ((r.setAttr i "SupportOffset" (.vec off)).setAttr i "SupportRoll" (.vec roll)).hasA i a = r.hasA i a := fun a h1 h2 =>
    Ring.hasA_congr (by simp) (g a h1 h2)
  have g1 : ((r.setAttr i "SupportOffset" (.vec off)).setAttr i "SupportRoll" (.vec roll)).getVec i "SupportOffset" = .ok off :=
    Ring.getVec_eq_ok.2 (by rw [Ring.attr_setAttr_ne (by decide), Ring.attr_setAttr_same hi])
  have g2 : ((r.setAttr i "SupportOffset" (.vec off)).setAttr i "SupportRoll" (.vec roll)).getVec i "SupportRoll" = .ok roll :=
    Ring.getVec_eq_ok.2 (by rw [Ring.attr_setAttr_same (by simpa using hi)])
  have g3 : ∀ a, a ≠ "SupportOffset" → a ≠ "SupportRoll" →
      ((r.setAttr i "SupportOffset" (.vec off)).setAttr i "SupportRoll" (.vec roll)).getVec i a = r.getVec i a := fun a h1 h2 => by
    unfold Ring.getVec; rw [ga a h1 h2]
  have g4 : ∀ a, a ≠ "SupportOffset" → a ≠ "SupportRoll" →
      numOr0 ((r.setAttr i "SupportOffset" (.vec off)).setAttr i "SupportRoll" (.vec roll)) i a = numOr0 r i a := fun a h1 h2 => by
    unfold numOr0 Ring.getNum; rw [gh a h1 h2, ga a h1 h2]
  unfold transformInput transformWith
  rw [g4 "Length" (by decide) (by decide), g4 "BendingAngle" (by decide) (by decide), g1, g2, g3 "MagnetOffset" (by decide) (by decide),
    g3 "MagnetRoll" (by decide) (by decide)]
  simp only [Except.bind_eq_ok']
  constructor
  · rintro ⟨x, ⟨len, h1, th, h2, so, h3, mo, h4, os, h5, mr, h6, sr, h7, ro, h8, h9⟩, h10⟩
    cases h3; cases h7; cases h9
    exact ⟨len, h1, th, h2, mo, h4, os, h5, mr, h6, ro, h8, h10⟩
  · rintro ⟨len, h1, th, h2, mo, h4, os, h5, mr, h6, ro, h8, h10⟩
    exact ⟨_, ⟨len, h1, th, h2, off, rfl, mo, h4, os, h5, mr, h6, roll, rfl, ro, h8, rfl⟩, h10⟩

theorem masterChildren_write {r : Ring K} {W : Writes K} (hW : W.Within supportWrites) (i : Nat) :
    masterChildren (r.write W) i = masterChildren r i := by
  have h : (r.write W).attr i "MasterOf" = r.attr i "MasterOf" :=
    Ring.attr_write_of_not_mem (fun v hv => absurd (hW _ hv) (by simp only; decide +kernel))
  unfold masterChildren
  rw [Ring.hasA_congr (by simp) h, Ring.getA_congr (by simp) h]

theorem updateMagnetSupport_writer (E : Env K) (offs rolls : List (List K)) (p : Nat × Nat) :
    Writer supportWrites (updateMagnetSupport E offs rolls p) (magnetSupportWrites E offs rolls p) := by
  refine ⟨fun s u s' => ?_, fun r W hW => ?_, blind_of_congr (fun r r' hl h => magnetSupportWrites_blind hl h E offs rolls p)⟩
  · have own : ∀ off roll (t : List K × List K × List (List K) × List (List K)),
        Writes.Within (K := K) [(p.1, "SupportOffset", .vec off), (p.1, "SupportRoll", .vec roll), (p.1, "R1", .mat t.2.2.1),
          (p.1, "T1", .vec t.1), (p.1, "T2", .vec t.2.1), (p.1, "R2", .mat t.2.2.2)] supportWrites := by
      intro off roll t q hq
      simp only [List.mem_cons, List.not_mem_nil, or_false] at hq
      rcases hq with rfl | rfl | rfl | rfl | rfl | rfl <;> simp [supportWrites]
    have holds : ∀ off roll (t : List K × List K × List (List K) × List (List K)), p.1 < s.RING.length →
        Holds (s.RING.write [(p.1, "SupportOffset", .vec off), (p.1, "SupportRoll", .vec roll), (p.1, "R1", .mat t.2.2.1),
          (p.1, "T1", .vec t.1), (p.1, "T2", .vec t.2.1), (p.1, "R2", .mat t.2.2.2)]) p.1 t := by
      intro off roll t hi
      constructor <;> (rw [Ring.attr_write]; simp [lastWrite, hi])
    unfold updateMagnetSupport updateTransformation
    simp only [bind_eq_ok, lift_eq_ok, rd_eq_ok, setAttr_eq_ok, magnetSupportWrites, Except.bind_eq_ok', Ring.valid_eq_ok]
    constructor
    · rintro ⟨off, s0, ⟨h1, rfl⟩, -, s1, ⟨hi, rfl⟩, roll, _, ⟨h2, rfl⟩, -, s2, ⟨-, rfl⟩, -, s6, ⟨x, _, ⟨h3, rfl⟩, t, _, ⟨h4, rfl⟩, -, s3,
        ⟨-, rfl⟩, -, s4, ⟨-, rfl⟩, -, s5, ⟨-, rfl⟩, -, rfl⟩, ch, _, ⟨h5, rfl⟩, h6⟩
      have ht := (transformInput_with E hi off roll).1 ⟨x, h3, h4⟩
      have h6 := (copyLoop_writes (t := t) ch (s := s0.write [(p.1, "SupportOffset", .vec off), (p.1, "SupportRoll", .vec roll),
        (p.1, "R1", .mat t.2.2.1), (p.1, "T1", .vec t.1), (p.1, "T2", .vec t.2.1), (p.1, "R2", .mat t.2.2.2)])
        (holds off roll t hi)).1 h6
      obtain ⟨W, hW, rfl⟩ := h6
      rw [SC.write_RING, childWrites_length (r := s0.RING) (by simp)] at hW
      have h5 : masterChildren (s0.RING.write [(p.1, "SupportOffset", .vec off), (p.1, "SupportRoll", .vec roll),
        (p.1, "R1", .mat t.2.2.1), (p.1, "T1", .vec t.1), (p.1, "T2", .vec t.2.1), (p.1, "R2", .mat t.2.2.2)]) p.1 = .ok ch := h5
      rw [masterChildren_write (own off roll t)] at h5
      exact ⟨_, ⟨off, h1, (), hi, roll, h2, t, ht, ch, h5, W, hW, rfl⟩, by rw [SC.write_append]⟩
    · rintro ⟨W0, ⟨off, h1, -, hi, roll, h2, t, ht, ch, h5, W, hW, hW0⟩, rfl⟩
      cases hW0
      obtain ⟨x, h3, h4⟩ := (transformInput_with E hi off roll).2 ht
      have h6 := (copyLoop_writes (t := t) ch (s := s.write [(p.1, "SupportOffset", .vec off), (p.1, "SupportRoll", .vec roll),
        (p.1, "R1", .mat t.2.2.1), (p.1, "T1", .vec t.1), (p.1, "T2", .vec t.2.1), (p.1, "R2", .mat t.2.2.2)])
        (holds off roll t hi) (u := u)).2 ⟨W, by rw [SC.write_RING, childWrites_length (r := s.RING) (by simp)]; exact hW, rfl⟩
      rw [← SC.write_append] at h6
      have h5' := masterChildren_write (r := s.RING) (own off roll t) p.1
      rw [h5] at h5'
      exact ⟨off, _, ⟨h1, rfl⟩, (), _, ⟨hi, rfl⟩, roll, _, ⟨h2, rfl⟩, (), _, ⟨by simpa using hi, rfl⟩, (), _, ⟨x, _, ⟨h3, rfl⟩, t, _,
        ⟨h4, rfl⟩, (), _, ⟨by simpa using hi, rfl⟩, (), _, ⟨by simpa using hi, rfl⟩, (), _, ⟨by simpa using hi, rfl⟩, by simpa using hi,
        rfl⟩, ch, _, ⟨h5', rfl⟩, h6⟩
  · simp only [magnetSupportWrites, Except.bind_eq_ok'] at hW
    obtain ⟨off, -, -, -, roll, -, t, -, ch, -, W', hW', hW⟩ := hW
    cases hW
    refine Writes.Within.append ?_ (childLoop_within hW')
    intro q hq
    simp only [List.mem_cons, List.not_mem_nil, or_false] at hq
    rcases hq with rfl | rfl | rfl | rfl | rfl | rfl <;> simp [supportWrites]

theorem updateBpmSupport_writer (offs rolls : List (List K)) (p : Nat × Nat) :
    Writer supportWrites (updateBpmSupport offs rolls p) (bpmSupportWrites offs rolls p) := by
  refine ⟨fun s u s' => ?_, fun r W hW => ?_, fun r W _ => by simp only [bpmSupportWrites, Ring.valid, Ring.length_write]⟩
  · unfold updateBpmSupport
    simp only [bind_eq_ok, lift_eq_ok, setAttr_eq_ok, bpmSupportWrites, Except.bind_eq_ok', Ring.valid_eq_ok]
    constructor
    · rintro ⟨off, _, ⟨h1, rfl⟩, -, s1, ⟨hi, rfl⟩, row, _, ⟨h2, rfl⟩, x, _, ⟨h3, rfl⟩, -, rfl⟩
      exact ⟨_, ⟨off, h1, (), hi, row, h2, x, h3, rfl⟩, rfl⟩
    · rintro ⟨W, ⟨off, h1, -, hi, row, h2, x, h3, hW⟩, rfl⟩
      cases hW
      exact ⟨off, _, ⟨h1, rfl⟩, (), _, ⟨hi, rfl⟩, row, _, ⟨h2, rfl⟩, x, _, ⟨h3, rfl⟩, by simpa using hi, rfl⟩
  · simp only [bpmSupportWrites, Except.bind_eq_ok'] at hW
    obtain ⟨off, -, -, -, row, -, x, -, hW⟩ := hW
    cases hW
    intro q hq
    simp only [List.mem_cons, List.not_mem_nil, or_false] at hq
    rcases hq with rfl | rfl <;> simp [supportWrites]

theorem Writer.when {A : List String} {m : Py (SC K) Unit} {g : Ring K → Except Err (Writes K)} (h : Writer A m g) (c : Bool) :
    Writer A (Py.when c m) (fun r => if c then g r else .ok []) := by
  cases c
  · exact Writer.pure A
  · simpa [Py.when] using h

/-- `update_supports` for given ordinates -/
theorem updateSupports_writer (E : Env K) (o : Ords) (b m : Bool) : Writer supportWrites
    (Py.when (m && !o.Magnet.isEmpty) (do
        let or ← rd (fun r => supportAt r o o.Magnet)
        forEach o.Magnet.zipIdx (updateMagnetSupport E or.1 or.2)) >>= fun _ =>
      Py.when (b && !o.BPM.isEmpty) (do
        let or ← rd (fun r => supportAt r o o.BPM)
        forEach o.BPM.zipIdx (updateBpmSupport or.1 or.2)))
    (allSupportWrites E o b m) := by
  have hb : ∀ l, Blind supportWrites (fun r : Ring K => supportAt r o l) := fun l =>
    blind_of_congr (fun r r' hl h => supportAt_blind hl h o l)
  exact Writer.seq
    (Writer.when (Writer.rd (hb o.Magnet) (fun or => Writer.forEach o.Magnet.zipIdx (fun p => updateMagnetSupport_writer E or.1 or.2 p)))
      (m && !o.Magnet.isEmpty))
    (Writer.when (Writer.rd (hb o.BPM) (fun or => Writer.forEach o.BPM.zipIdx (fun p => updateBpmSupport_writer or.1 or.2 p)))
      (b && !o.BPM.isEmpty))

theorem updateSupports_writes (E : Env K) (b m : Bool) (s s' : SC K) (u : Unit) :
    updateSupports E b m s = .ok u s' ↔ ∃ W, allSupportWrites E s.ORD b m s.RING = .ok W ∧ s' = s.write W :=
  (updateSupports_writer E s.ORD b m).ok s u s'

theorem updateSupports_idem {E : Env K} {b m : Bool} {s s' : SC K} (h : updateSupports E b m s = .ok () s') :
    updateSupports E b m s' = .ok () s' := by
  have ho : s'.ORD = s.ORD := ((updateSupports_frame E b m).ok h).ord
  have := (updateSupports_writer E s.ORD b m).idem (s := s) (s' := s') (u := ()) h
  rw [← ho] at this
  exact this

/-- nothing changes what `update_supports` has assigned, unless it changes what it reads or writes -/
theorem updateSupports_keep {E : Env K} {b m : Bool} {s s' : SC K} (h : updateSupports E b m s = .ok () s) (ho : s'.ORD = s.ORD)
    (hl : s'.RING.length = s.RING.length) (ha : ∀ i a, a ∈ supportReads ++ supportWrites → s'.RING.attr i a = s.RING.attr i a) :
    updateSupports E b m s' = .ok () s' := by
  obtain ⟨W, hW, he⟩ := (updateSupports_writes E b m _ _ _).1 h
  have hin := (updateSupports_writer E s.ORD b m).within _ _ hW
  have hW' : allSupportWrites E s'.ORD b m s'.RING = .ok W := by
    rw [ho, allSupportWrites_blind hl (fun i a h => ha i a (List.mem_append_left _ h)), hW]
  refine (updateSupports_writes E b m _ _ _).2 ⟨W, hW', ?_⟩
  have e : s.RING = s.RING.write W := congrArg SC.RING he
  have hr : s'.RING.write W = s'.RING := by
    refine Ring.ext_attr (by simp) (fun i a => ?_)
    rw [Ring.attr_write]
    cases hw : lastWrite W i a with
    | none => rfl
    | some v =>
      rw [ha i a (List.mem_append_right _ (hin _ (lastWrite_isSome_mem hw)))]
      conv_rhs => rw [e, Ring.attr_write, hw]
      simp only [hl]
  simp only [SC.write, hr]

/-! ### parts of `update_supports` -/

theorem magnetsSupportWrites_elem {E : Env K} {o : Ords} {m : Bool} {r : Ring K} {W : Writes K} (h : magnetsSupportWrites E o m r = .ok W)
    {p : Nat × String × Attr K} (hp : p ∈ W) : ∃ i ∈ o.Magnet, Affects r i p.1 := by
  unfold magnetsSupportWrites at h
  split at h
  · rw [Except.bind_eq_ok'] at h
    obtain ⟨or, -, h⟩ := h
    obtain ⟨q, hq, W', hW', hp'⟩ := (mem_loopWrites h p).1 hp
    have hq1 : q.1 ∈ o.Magnet := by
      have := List.mem_map_of_mem (f := Prod.fst) hq
      rwa [List.zipIdx_map_fst] at this
    refine ⟨q.1, hq1, ?_⟩
    simp only [magnetSupportWrites, Except.bind_eq_ok'] at hW'
    obtain ⟨off, -, -, -, roll, -, t, -, ch, hch, W2, hW2, he⟩ := hW'
    cases he
    rcases List.mem_append.1 hp' with hp' | hp'
    · simp only [List.mem_cons, List.not_mem_nil, or_false] at hp'
      rcases hp' with rfl | rfl | rfl | rfl | rfl | rfl <;> exact .inl rfl
    · obtain ⟨c, hc, W3, hW3, hp3⟩ := (mem_loopWrites hW2 p).1 hp'
      simp only [childWrites, Except.bind_eq_ok'] at hW3
      obtain ⟨-, -, he⟩ := hW3
      cases he
      have hpc : p.1 = c := by
        simp only [List.mem_cons, List.not_mem_nil, or_false] at hp3
        rcases hp3 with rfl | rfl | rfl | rfl <;> rfl
      right
      unfold masterChildren at hch
      rw [Except.bind_eq_ok'] at hch
      obtain ⟨b, hb, hch⟩ := hch
      cases b
      · cases hch; cases hc
      · simp only [if_true, Except.bind_eq_ok', Ring.getA_eq_ok] at hch
        obtain ⟨v, hv, hch⟩ := hch
        cases v <;> simp [Attr.toOrds] at hch
        subst hch
        exact ⟨_, hv, hpc ▸ hc⟩
  · cases h; cases hp

theorem bpmsSupportWrites_elem {o : Ords} {b : Bool} {r : Ring K} {W : Writes K} (h : bpmsSupportWrites o b r = .ok W)
    {p : Nat × String × Attr K} (hp : p ∈ W) : p.1 ∈ o.BPM := by
  unfold bpmsSupportWrites at h
  split at h
  · rw [Except.bind_eq_ok'] at h
    obtain ⟨or, -, h⟩ := h
    obtain ⟨q, hq, W', hW', hp'⟩ := (mem_loopWrites h p).1 hp
    have hq1 : q.1 ∈ o.BPM := by
      have := List.mem_map_of_mem (f := Prod.fst) hq
      rwa [List.zipIdx_map_fst] at this
    simp only [bpmSupportWrites, Except.bind_eq_ok'] at hW'
    obtain ⟨off, -, -, -, row, -, x, -, he⟩ := hW'
    cases he
    simp only [List.mem_cons, List.not_mem_nil, or_false] at hp'
    rcases hp' with rfl | rfl <;> exact hq1
  · cases h; cases hp

end PySC
