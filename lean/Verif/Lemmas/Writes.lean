import Verif.Lemmas.Magnets
import Mathlib.Data.List.Induction
/-
Methods that, when they succeed, perform a list of attribute assignments which is a function of the ring before the call.
-/
namespace PySC
set_option linter.unusedSectionVars false
variable {K : Type _} [Field K] [LinearOrder K]
open Py

/-- assignments `setattr(ring[i], a, v)` in order -/
abbrev Writes (K : Type _) := List (Nat × String × Attr K)

/-- perform all assignments -/
def Ring.write (r : Ring K) (W : Writes K) : Ring K := W.foldl (fun r p => r.setAttr p.1 p.2.1 p.2.2) r
/-- perform all assignments on `SC.RING` -/
def SC.write (s : SC K) (W : Writes K) : SC K := { s with RING := s.RING.write W }
/-- the value assigned last, if any -/
def lastWrite (W : Writes K) (j : Nat) (b : String) : Option (Attr K) :=
  W.foldl (fun acc p => if j = p.1 ∧ b = p.2.1 then some p.2.2 else acc) none

@[simp] theorem Ring.length_write (r : Ring K) (W : Writes K) : (r.write W).length = r.length := by
  induction W generalizing r with
  | nil => rfl
  | cons p W ih => simp only [Ring.write, List.foldl_cons] at ih ⊢; rw [ih]; simp

theorem Ring.write_append (r : Ring K) (W W' : Writes K) : r.write (W ++ W') = (r.write W).write W' := by
  simp [Ring.write]
theorem SC.write_append (s : SC K) (W W' : Writes K) : s.write (W ++ W') = (s.write W).write W' := by
  simp [SC.write, Ring.write_append]
@[simp] theorem SC.write_RING (s : SC K) (W : Writes K) : (s.write W).RING = s.RING.write W := rfl
@[simp] theorem SC.write_nil (s : SC K) : s.write [] = s := rfl

theorem lastWrite_append_single (W : Writes K) (p : Nat × String × Attr K) (j : Nat) (b : String) :
    lastWrite (W ++ [p]) j b = if j = p.1 ∧ b = p.2.1 then some p.2.2 else lastWrite W j b := by
  simp [lastWrite]

theorem Ring.attr_write (r : Ring K) (W : Writes K) (j : Nat) (b : String) :
    (r.write W).attr j b = match lastWrite W j b with
      | some v => if j < r.length then some v else none
      | none => r.attr j b := by
  induction W using List.reverseRecOn with
  | nil => rfl
  | append_singleton W p ih =>
    rw [Ring.write_append, lastWrite_append_single]
    show ((r.write W).setAttr p.1 p.2.1 p.2.2).attr j b = _
    rw [Ring.attr_setAttr, ih]
    by_cases h : j = p.1 ∧ b = p.2.1
    · simp [h]
    · simp [h]

theorem lastWrite_isSome_mem {W : Writes K} {j : Nat} {b : String} {v : Attr K} (h : lastWrite W j b = some v) :
    (j, b, v) ∈ W := by
  induction W using List.reverseRecOn with
  | nil => simp [lastWrite] at h
  | append_singleton W p ih =>
    rw [lastWrite_append_single] at h
    split at h
    · rename_i hh; simp at h
      obtain ⟨rfl, rfl⟩ := hh
      simp [← h]
    · simp [ih h]

theorem lastWrite_eq_none {W : Writes K} {j : Nat} {b : String} (h : ∀ v, (j, b, v) ∉ W) :
    lastWrite W j b = none := by
  cases hh : lastWrite W j b with
  | none => rfl
  | some v => exact absurd (lastWrite_isSome_mem hh) (h v)

theorem Ring.attr_write_of_not_mem {r : Ring K} {W : Writes K} {j : Nat} {b : String} (h : ∀ v, (j, b, v) ∉ W) :
    (r.write W).attr j b = r.attr j b := by
  rw [Ring.attr_write, lastWrite_eq_none h]

/-- performing the same assignments twice changes nothing more -/
theorem Ring.write_write (r : Ring K) (W : Writes K) : (r.write W).write W = r.write W := by
  refine Ring.ext_attr (by simp) (fun j b => ?_)
  rw [Ring.attr_write]
  cases h : lastWrite W j b with
  | none => simp
  | some v => simp [Ring.attr_write, h]

theorem SC.write_write (s : SC K) (W : Writes K) : (s.write W).write W = s.write W := by
  unfold SC.write; simp only; rw [Ring.write_write]

/-- only the attributes named in `A` -/
def Writes.Within (W : Writes K) (A : List String) : Prop := ∀ p ∈ W, p.2.1 ∈ A

theorem Writes.Within.append {W W' : Writes K} {A} (h : W.Within A) (h' : W'.Within A) :
    Writes.Within (W ++ W') A := by
  intro p hp; rcases List.mem_append.1 hp with hp | hp
  · exact h p hp
  · exact h' p hp

/-- a reader that does not look at the attributes in `A` -/
def Blind {α : Type _} (A : List String) (g : Ring K → Except Err α) : Prop :=
  ∀ r W, Writes.Within W A → g (r.write W) = g r

/-- `m` succeeds exactly when `g` does, and then performs the assignments `g` computes; they concern only attributes in
`A`, which `g` does not look at. -/
structure Writer (A : List String) (m : Py (SC K) Unit) (g : Ring K → Except Err (Writes K)) : Prop where
  ok : ∀ s u s', m s = .ok u s' ↔ ∃ W, g s.RING = .ok W ∧ s' = s.write W
  within : ∀ r W, g r = .ok W → Writes.Within W A
  blind : Blind A g

theorem Writer.pure (A : List String) : Writer (K := K) A (Py.pure ()) (fun _ => .ok []) := by
  refine ⟨fun s u s' => ?_, fun r W h => ?_, fun r W _ => rfl⟩
  · simp; exact eq_comm
  · simp at h; subst h; intro p hp; simp at hp

/-- sequential composition -/
theorem Writer.seq {A : List String} {m m' : Py (SC K) Unit} {g g' : Ring K → Except Err (Writes K)}
    (h : Writer A m g) (h' : Writer A m' g') :
    Writer A (m >>= fun _ => m') (fun r => do let W ← g r; let W' ← g' r; .ok (W ++ W')) := by
  refine ⟨fun s u s' => ?_, fun r W hW => ?_, fun r W hW => ?_⟩
  · rw [bind_eq_ok]
    simp only [Except.bind_eq_ok']
    constructor
    · rintro ⟨u1, s1, h1, h2⟩
      obtain ⟨W, hg, rfl⟩ := (h.ok _ _ _).1 h1
      obtain ⟨W', hg', rfl⟩ := (h'.ok _ _ _).1 h2
      rw [SC.write_RING, h'.blind _ _ (h.within _ _ hg)] at hg'
      exact ⟨_, ⟨W, hg, W', hg', rfl⟩, by rw [SC.write_append]⟩
    · rintro ⟨W0, ⟨W, hg, W', hg', hW0⟩, rfl⟩
      simp at hW0; subst hW0
      refine ⟨(), _, (h.ok _ _ _).2 ⟨W, hg, rfl⟩, (h'.ok _ _ _).2 ⟨W', ?_, by rw [SC.write_append]⟩⟩
      rw [SC.write_RING, h'.blind _ _ (h.within _ _ hg)]; exact hg'
  · simp only [Except.bind_eq_ok'] at hW
    obtain ⟨W1, h1, W2, h2, hW⟩ := hW
    simp at hW; subst hW
    exact (h.within _ _ h1).append (h'.within _ _ h2)
  · rw [h.blind _ _ hW, h'.blind _ _ hW]

/-- reading first, then acting -/
theorem Writer.rd {α : Type _} {A : List String} {f : Ring K → Except Err α} {m : α → Py (SC K) Unit}
    {g : α → Ring K → Except Err (Writes K)} (hf : Blind A f) (h : ∀ x, Writer A (m x) (g x)) :
    Writer A (PySC.rd f >>= m) (fun r => do let x ← f r; g x r) := by
  refine ⟨fun s u s' => ?_, fun r W hW => ?_, fun r W hW => ?_⟩
  · rw [bind_eq_ok]
    simp only [Except.bind_eq_ok', rd_eq_ok]
    constructor
    · rintro ⟨x, s1, ⟨h1, rfl⟩, h2⟩
      obtain ⟨W, hg, rfl⟩ := ((h x).ok _ _ _).1 h2
      exact ⟨W, ⟨x, h1, hg⟩, rfl⟩
    · rintro ⟨W, ⟨x, h1, hg⟩, rfl⟩
      exact ⟨x, s, ⟨h1, rfl⟩, ((h x).ok _ _ _).2 ⟨W, hg, rfl⟩⟩
  · simp only [Except.bind_eq_ok'] at hW
    obtain ⟨x, -, hW⟩ := hW
    exact (h x).within _ _ hW
  · rw [hf _ _ hW]
    congr 1; funext x; exact (h x).blind _ _ hW

/-- the assignments of a loop -/
def loopWrites {α : Type _} (g : α → Ring K → Except Err (Writes K)) : List α → Ring K → Except Err (Writes K)
  | [], _ => .ok []
  | x :: xs, r => do let W ← g x r; let W' ← loopWrites g xs r; .ok (W ++ W')

theorem Writer.forEach {α : Type _} {A : List String} {m : α → Py (SC K) Unit}
    {g : α → Ring K → Except Err (Writes K)} (l : List α) (h : ∀ x, Writer A (m x) (g x)) :
    Writer A (Py.forEach l m) (loopWrites g l) := by
  induction l with
  | nil => exact Writer.pure A
  | cons x xs ih => rw [forEach_cons]; exact (h x).seq ih

/-- successful repetition of a writer reaches the same state -/
theorem Writer.idem {A : List String} {m : Py (SC K) Unit} {g : Ring K → Except Err (Writes K)}
    (h : Writer A m g) {s s' : SC K} {u : Unit} (h1 : m s = .ok u s') : m s' = .ok u s' := by
  obtain ⟨W, hg, rfl⟩ := (h.ok _ _ _).1 h1
  refine (h.ok _ _ _).2 ⟨W, ?_, (SC.write_write _ _).symm⟩
  rw [SC.write_RING, h.blind _ _ (h.within _ _ hg)]; exact hg

/-! ### update_magnets -/

/-- does the element exist? -/
def Ring.valid (r : Ring K) (i : Nat) : Except Err Unit := if i < r.length then .ok () else .error .indexError

theorem Ring.valid_eq_ok {r : Ring K} {i : Nat} {u : Unit} : r.valid i = .ok u ↔ i < r.length := by
  unfold Ring.valid; split <;> simp [*]

/-- the assignments of `_update_magnets(src, tgt)` -/
def oneMagnetWrites (src tgt : Nat) (r : Ring K) : Except Err (Writes K) := do
  let _ ← r.valid tgt
  let L ← magnetValues r src tgt
  .ok (L.map (fun p => (tgt, p.1, p.2)))

theorem Agree.write {r : Ring K} {W : Writes K} (h : W.Within magnetWrites) : Agree (r.write W) r :=
  ⟨by simp, fun i a ha => Ring.attr_write_of_not_mem (fun v hv => ha (h _ hv))⟩

theorem Ring.assign_eq_write (r : Ring K) (i : Nat) (L : List (String × Attr K)) :
    r.assign i L = r.write (L.map (fun p => (i, p.1, p.2))) := by
  simp [Ring.assign, Ring.write, List.foldl_map]

theorem kickValues_keys {pass : String} {vA vB : List K} {l} (hl : kickValues pass vA vB = .ok l) :
    ∀ p ∈ l, p.1 = "KickAngle" := by
  unfold kickValues at hl
  split at hl
  · simp only [Except.bind_eq_ok'] at hl
    obtain ⟨_, _, _, _, hl⟩ := hl
    simp at hl; subst hl; simp
  · simp at hl; subst hl; simp

theorem magnetValues_within {r : Ring K} {src tgt : Nat} {L} (h : magnetValues r src tgt = .ok L) :
    ∀ p ∈ L, p.1 ∈ magnetWrites := by
  simp only [magnetValues, Except.bind_eq_ok'] at h
  obtain ⟨p, hp, vA, hA, vB, hB, x, hx, vB1, h4, y, hy, vB2, h5, pass, hpass, l, hl, hL⟩ := h
  simp at hL; subst hL
  intro q hq
  simp at hq
  rcases hq with rfl | rfl | hq | rfl
  · simp [magnetWrites]
  · simp [magnetWrites]
  · rw [kickValues_keys hl q hq]; simp [magnetWrites]
  · simp [magnetWrites]

theorem updateMagnet_writer (src tgt : Nat) :
    Writer (K := K) magnetWrites (updateMagnet src tgt) (oneMagnetWrites src tgt) := by
  refine ⟨fun s u s' => ?_, fun r W hW => ?_, fun r W hW => ?_⟩
  · rw [updateMagnet_eq_ok]
    simp only [oneMagnetWrites, Except.bind_eq_ok', Ring.valid_eq_ok]
    constructor
    · rintro ⟨hlt, L, hL, rfl⟩
      exact ⟨_, ⟨(), hlt, L, hL, rfl⟩, by simp [SC.write, Ring.assign_eq_write]⟩
    · rintro ⟨W, ⟨e, he, L, hL, hW⟩, rfl⟩
      simp at hW; subst hW
      exact ⟨he, L, hL, by simp [SC.write, Ring.assign_eq_write]⟩
  · simp only [oneMagnetWrites, Except.bind_eq_ok'] at hW
    obtain ⟨e, he, L, hL, hW⟩ := hW
    simp at hW; subst hW
    intro p hp
    simp at hp
    obtain ⟨a, b, hab, rfl⟩ := hp
    exact magnetValues_within hL _ hab
  · have ha := Agree.write (r := r) hW
    simp only [oneMagnetWrites, ha.magnetValues, Ring.valid, Ring.length_write]

/-- the assignments of one magnet and its children -/
def magnetFamilyWrites (ind : Nat) (r : Ring K) : Except Err (Writes K) := do
  let W ← oneMagnetWrites ind ind r
  let W' ← (do
    let ch ← childrenOf r ind
    loopWrites (fun child => oneMagnetWrites ind child) ch r)
  .ok (W ++ W')

theorem updateMagnetAndChildren_writer (ind : Nat) :
    Writer (K := K) magnetWrites (updateMagnetAndChildren ind) (magnetFamilyWrites ind) :=
  (updateMagnet_writer ind ind).seq
    (Writer.rd (fun _ _ hW => (Agree.write hW).childrenOf ind)
      (fun ch => Writer.forEach ch (fun c => updateMagnet_writer ind c)))

theorem updateMagnets_some (l : List Nat) :
    updateMagnets (K := K) (some l) = forEach l updateMagnetAndChildren := rfl
theorem updateMagnets_none (s : SC K) :
    updateMagnets none s = updateMagnets (some s.ORD.Magnet) s := rfl

theorem updateMagnets_writer (l : List Nat) :
    Writer (K := K) magnetWrites (updateMagnets (some l)) (loopWrites magnetFamilyWrites l) :=
  Writer.forEach l updateMagnetAndChildren_writer

/-! ### update_cavities -/
/-- a single assignment -/
theorem Writer.setAttr {A : List String} {i : Nat} {a : String} {v : Attr K} (ha : a ∈ A) :
    Writer A (PySC.setAttr i a v) (fun r => do let _ ← r.valid i; .ok [(i, a, v)]) := by
  refine ⟨fun s u s' => ?_, fun r W hW => ?_, fun r W hW => ?_⟩
  · rw [setAttr_eq_ok]
    simp only [Except.bind_eq_ok', Ring.valid_eq_ok]
    constructor
    · rintro ⟨h, rfl⟩
      exact ⟨_, ⟨(), h, rfl⟩, rfl⟩
    · rintro ⟨W, ⟨-, h, hW⟩, rfl⟩
      simp at hW; subst hW
      exact ⟨h, rfl⟩
  · simp only [Except.bind_eq_ok'] at hW
    obtain ⟨-, h, hW⟩ := hW
    simp at hW; subst hW
    intro p hp; simp at hp; subst hp; exact ha
  · simp [Ring.valid]

theorem Blind.getA {A : List String} {i : Nat} {a : String} (ha : a ∉ A) :
    Blind (K := K) A (fun r => r.getA i a) := fun r W hW =>
  Ring.getA_congr (by simp) (Ring.attr_write_of_not_mem (fun v hv => ha (hW _ hv)))

/-- the assignments of `update_cavities` for one field -/
def cavityFieldWrites (ind : Nat) (field : String) (r : Ring K) : Except Err (Writes K) := do
  let x ← cavityField r ind field
  let _ ← r.valid ind
  .ok [(ind, field, .num x)]

theorem cavityField_blind (ind : Nat) {field : String} (hf : field ∈ rfProperties) :
    Blind (K := K) rfProperties (fun r => cavityField r ind field) := by
  intro r W hW
  have h1 := Blind.getA (K := K) (A := rfProperties) (i := ind) (a := field ++ "SetPoint")
    (by simp [rfProperties] at hf ⊢; rcases hf with rfl | rfl | rfl <;> simp) r W hW
  have h2 := Blind.getA (K := K) (A := rfProperties) (i := ind) (a := field ++ "CalError")
    (by simp [rfProperties] at hf ⊢; rcases hf with rfl | rfl | rfl <;> simp) r W hW
  have h3 := Blind.getA (K := K) (A := rfProperties) (i := ind) (a := field ++ "Offset")
    (by simp [rfProperties] at hf ⊢; rcases hf with rfl | rfl | rfl <;> simp) r W hW
  simp only at h1 h2 h3
  simp only [cavityField, Ring.getNum, h1, h2, h3]

theorem updateCavityField_writer (ind : Nat) {field : String} (hf : field ∈ rfProperties) :
    Writer (K := K) rfProperties (updateCavityField ind field) (cavityFieldWrites ind field) :=
  Writer.rd (cavityField_blind ind hf) (fun _ => Writer.setAttr hf)

/-- the assignments of `update_cavities` for one cavity -/
def cavityWrites (ind : Nat) (r : Ring K) : Except Err (Writes K) := do
  let W1 ← cavityFieldWrites ind "Voltage" r
  let W ← (do
    let W2 ← cavityFieldWrites ind "Frequency" r
    let W' ← (do
      let W3 ← cavityFieldWrites ind "TimeLag" r
      let W4 ← .ok []
      .ok (W3 ++ W4))
    .ok (W2 ++ W'))
  .ok (W1 ++ W)

theorem updateCavity_writer (ind : Nat) :
    Writer (K := K) rfProperties (forEach rfProperties (updateCavityField ind)) (cavityWrites ind) := by
  have h : forEach rfProperties (updateCavityField (K := K) ind) =
      (updateCavityField ind "Voltage" >>= fun _ => updateCavityField ind "Frequency" >>= fun _ =>
        updateCavityField ind "TimeLag" >>= fun _ => Py.pure ()) := rfl
  rw [h]
  exact (updateCavityField_writer ind (by simp [rfProperties])).seq
    ((updateCavityField_writer ind (by simp [rfProperties])).seq
      ((updateCavityField_writer ind (by simp [rfProperties])).seq (Writer.pure _)))

theorem updateCavities_writer (l : List Nat) :
    Writer (K := K) rfProperties (updateCavities (some l)) (loopWrites cavityWrites l) :=
  Writer.forEach l updateCavity_writer

end PySC
