import Verif.Spec.Objects
import Verif.Spec.Example
import Verif.Lemmas.Py
/-
C104: elements are objects of their own.
-/
namespace PySC
set_option linter.unusedSectionVars false
open Py Spec

section general
variable {K : Type}

/-- memory `m'` has the objects of `m` unchanged -/
structure Extends (m m' : Memory K) : Prop where
  next : m.next ≤ m'.next
  cell : ∀ p < m.next, m'.cell p = m.cell p

theorem Extends.refl (m : Memory K) : Extends m m := ⟨le_rfl, fun _ _ => rfl⟩
theorem Extends.trans {a b c : Memory K} (h : Extends a b) (h' : Extends b c) : Extends a c :=
  ⟨h.next.trans h'.next, fun p hp => (h'.cell p (lt_of_lt_of_le hp h.next)).trans (h.cell p hp)⟩

theorem copyElement_extends (p : Nat) (m : Memory K) : ∃ m', copyElement p m = .ok m.next m' ∧ Extends m m' ∧ m'.next = m.next + 1 ∧
    m'.cell m.next = m.cell p := by
  refine ⟨_, rfl, ⟨Nat.le_succ _, fun q hq => ?_⟩, rfl, by simp⟩
  have : q ≠ m.next := by omega
  simp [this]

theorem copyLattice_extends (l : List Nat) : ∀ (memo : List (Nat × Nat)) (m : Memory K), ∃ r m', copyLattice l memo m = .ok r m' ∧ Extends m m' ∧
    r.length = l.length := by
  induction l with
  | nil => exact fun memo m => ⟨_, _, rfl, Extends.refl m, rfl⟩
  | cons p l ih =>
    intro memo m
    unfold copyLattice
    cases memo.lookup p with
    | some q =>
      obtain ⟨r, m', h1, h2, h3⟩ := ih memo m
      refine ⟨q :: r, m', ?_, h2, by simp [h3]⟩
      simp only [bind_apply]
      rw [h1]; rfl
    | none =>
      obtain ⟨m1, e1, e2, e3, -⟩ := copyElement_extends p m
      obtain ⟨r, m', h1, h2, h3⟩ := ih ((p, m.next) :: memo) m1
      refine ⟨m.next :: r, m', ?_, e2.trans h2, by simp [h3]⟩
      simp only [bind_apply]
      rw [e1]
      simp only [bind_apply]
      rw [h1]; rfl

/-- what the loop of `__init__` achieves: new addresses at positions `i`, ..., all different, with the contents of the given elements -/
theorem renewElements_spec (l : List Nat) : ∀ (i : Nat) (o : Machine) (m : Memory K), (∀ p ∈ l, p < m.next) → i + l.length ≤ o.ring.length →
    i + l.length ≤ o.ideal.length → ∃ o' m' nr ni, renewElements l i o m = .ok o' m' ∧ Extends m m' ∧
      o'.ring = o.ring.take i ++ nr ++ o.ring.drop (i + l.length) ∧ o'.ideal = o.ideal.take i ++ ni ++ o.ideal.drop (i + l.length) ∧
      (nr ++ ni).Nodup ∧ (∀ p ∈ nr ++ ni, m.next ≤ p ∧ p < m'.next) ∧ nr.map m'.cell = l.map m.cell ∧ ni.map m'.cell = l.map m.cell := by
  induction l with
  | nil =>
    intro i o m _ h1 h2
    refine ⟨o, m, [], [], rfl, Extends.refl m, ?_, ?_, by simp, by simp, by simp, by simp⟩ <;> simp
  | cons p l ih =>
    intro i o m hl h1 h2
    rw [List.length_cons] at h1 h2
    obtain ⟨m1, a1, a2, a3, a4⟩ := copyElement_extends p m
    obtain ⟨m2, b1, b2, b3, b4⟩ := copyElement_extends p m1
    have hp : p < m.next := hl p (by simp)
    obtain ⟨o', m', nr, ni, c1, c2, c3, c4, c5, c6, c7, c8⟩ := ih (i + 1) ⟨o.ring.set i m.next, o.ideal.set i m1.next⟩ m2
      (fun q hq => by have := hl q (by simp [hq]); omega) (by simp; omega) (by simp; omega)
    have e2 : m2.cell m1.next = m.cell p := b4.trans (a2.cell p hp)
    have e1 : m2.cell m.next = m.cell p := (b2.cell _ (by omega)).trans a4
    have e3 : l.map m2.cell = l.map m.cell := by
      apply List.map_congr_left
      intro q hq
      have := hl q (by simp [hq])
      exact (a2.trans b2).cell q this
    refine ⟨o', m', m.next :: nr, m1.next :: ni, ?_, (a2.trans b2).trans c2, ?_, ?_, ?_, ?_, ?_, ?_⟩
    · unfold renewElements
      simp only [bind_apply]
      rw [a1]
      simp only [bind_apply, lift, assignAt]
      rw [if_pos (by omega)]
      simp only
      rw [b1]
      simp only [bind_apply, lift]
      rw [if_pos (by omega)]
      exact c1
    · rw [c3]
      simp only
      rw [List.take_set, List.drop_set, if_pos (by omega), List.take_add_one, List.getElem?_eq_getElem (by omega), List.set_append]
      simp only [List.length_take, List.length_cons]
      rw [if_neg (by omega), show i - min i o.ring.length = 0 by omega]
      simp only [Option.toList_some, List.set_cons_zero, List.append_assoc, List.cons_append, List.nil_append]
      rw [show i + 1 + l.length = i + (l.length + 1) by omega]
    · rw [c4]
      simp only
      rw [List.take_set, List.drop_set, if_pos (by omega), List.take_add_one, List.getElem?_eq_getElem (by omega), List.set_append]
      simp only [List.length_take, List.length_cons]
      rw [if_neg (by omega), show i - min i o.ideal.length = 0 by omega]
      simp only [Option.toList_some, List.set_cons_zero, List.append_assoc, List.cons_append, List.nil_append]
      rw [show i + 1 + l.length = i + (l.length + 1) by omega]
    · have n1 : ∀ q ∈ nr ++ ni, q ≠ m.next ∧ q ≠ m1.next := by
        intro q hq
        have := (c6 q hq).1
        omega
      rw [List.cons_append, List.nodup_cons]
      have n2 : (nr ++ m1.next :: ni).Nodup := by
        rw [List.nodup_middle, List.nodup_cons]
        exact ⟨fun h => (n1 _ h).2 rfl, c5⟩
      refine ⟨fun h => ?_, n2⟩
      rw [List.mem_append, List.mem_cons] at h
      rcases h with h | h | h
      · exact (n1 _ (List.mem_append_left _ h)).1 rfl
      · omega
      · exact (n1 _ (List.mem_append_right _ h)).1 rfl
    · intro q hq
      have : q = m.next ∨ q = m1.next ∨ q ∈ nr ++ ni := by
        simp only [List.cons_append, List.mem_cons, List.mem_append] at hq ⊢
        tauto
      have hn := c2.next
      rcases this with rfl | rfl | h'
      · omega
      · omega
      · have := c6 q h'; omega
    · rw [List.map_cons, List.map_cons, c7, e3, c2.cell _ (by omega), e1]
    · rw [List.map_cons, List.map_cons, c8, e3, c2.cell _ (by omega), e2]

/-- **C104**: a new SC object consists of new element objects, all different from one another in both of its lattices and from all
objects there were before, whatever objects the given lattice is made of; they have the contents of the elements of the lattice, as in the
model without objects, and these are not touched. -/
theorem C104_new_object (lattice : List Nat) (m : Memory K) (h : ∀ p ∈ lattice, p < m.next) :
    ∃ o m', newMachine lattice m = .ok o m' ∧ (o.ring ++ o.ideal).Nodup ∧ (∀ p ∈ o.ring ++ o.ideal, m.next ≤ p ∧ p < m'.next) ∧
      o.ring.map m'.cell = lattice.map m.cell ∧ o.ideal.map m'.cell = lattice.map m.cell ∧ m.next ≤ m'.next ∧
      (∀ p < m.next, m'.cell p = m.cell p) := by
  obtain ⟨r, m1, a1, a2, a3⟩ := copyLattice_extends lattice [] m
  obtain ⟨d, m2, b1, b2, b3⟩ := copyLattice_extends lattice [] m1
  have e := a2.trans b2
  obtain ⟨o, m', nr, ni, c1, c2, c3, c4, c5, c6, c7, c8⟩ := renewElements_spec lattice 0 ⟨r, d⟩ m2
    (fun p hp => lt_of_lt_of_le (h p hp) e.next) (by simp [a3]) (by simp [b3])
  have hm : lattice.map m2.cell = lattice.map m.cell := List.map_congr_left (fun p hp => e.cell p (h p hp))
  have hr : o.ring = nr := by rw [c3]; simp [a3]
  have hi : o.ideal = ni := by rw [c4]; simp [b3]
  refine ⟨o, m', ?_, ?_, ?_, ?_, ?_, (e.trans c2).next, (e.trans c2).cell⟩
  · unfold newMachine
    simp only [bind_apply]
    rw [a1]
    simp only [bind_apply]
    rw [b1]
    exact c1
  · rw [hr, hi]; exact c5
  · rw [hr, hi]
    intro p hp
    have := c6 p hp
    have := e.next
    omega
  · rw [hr, c7, hm]
  · rw [hi, c8, hm]

/-- **C104**: so does a copy by `very_deep_copy` (of an SC object with equally long lattices). -/
theorem C104_copied_object (o : Machine) (m : Memory K) (hl : o.ring.length = o.ideal.length) (h : ∀ p ∈ o.ring ++ o.ideal, p < m.next) :
    ∃ o' m', copyMachine o m = .ok o' m' ∧ (o'.ring ++ o'.ideal).Nodup ∧ (∀ p ∈ o'.ring ++ o'.ideal, m.next ≤ p ∧ p < m'.next) ∧
      o'.ring.map m'.cell = o.ring.map m.cell ∧ o'.ideal.map m'.cell = o.ring.map m.cell ∧ m.next ≤ m'.next ∧
      (∀ p < m.next, m'.cell p = m.cell p) := by
  obtain ⟨r, m1, a1, a2, a3⟩ := copyLattice_extends o.ring [] m
  obtain ⟨d, m2, b1, b2, b3⟩ := copyLattice_extends o.ideal [] m1
  have e := a2.trans b2
  have h : ∀ p ∈ o.ring, p < m.next := fun p hp => h p (List.mem_append_left _ hp)
  obtain ⟨o', m', nr, ni, c1, c2, c3, c4, c5, c6, c7, c8⟩ := renewElements_spec o.ring 0 ⟨r, d⟩ m2
    (fun p hp => lt_of_lt_of_le (h p hp) e.next) (by simp [a3]) (by simp [b3, hl])
  have hm : o.ring.map m2.cell = o.ring.map m.cell := List.map_congr_left (fun p hp => e.cell p (h p hp))
  have hr : o'.ring = nr := by rw [c3]; simp [a3]
  have hi : o'.ideal = ni := by rw [c4]; simp [b3, hl]
  refine ⟨o', m', ?_, ?_, ?_, ?_, ?_, (e.trans c2).next, (e.trans c2).cell⟩
  · unfold copyMachine
    simp only [bind_apply]
    rw [a1]
    simp only [bind_apply]
    rw [b1]
    exact c1
  · rw [hr, hi]; exact c5
  · rw [hr, hi]
    intro p hp
    have := c6 p hp
    have := e.next
    omega
  · rw [hr, c7, hm]
  · rw [hi, c8, hm]

/-- all addresses used by SC objects -/
def Spec.Desk.used (d : Desk K) : List Nat := d.machines.flatMap (fun o => o.ring ++ o.ideal)

/-- on a desk no two positions of SC objects have the same object, and none of these is an element of the lattice of the user -/
structure Spec.Desk.Sound (d : Desk K) : Prop where
  own : ∀ p ∈ d.own, p < d.memory.next
  distinct : d.used.Nodup
  bound : ∀ p ∈ d.used, p < d.memory.next
  apart : ∀ p ∈ d.used, p ∉ d.own
  even : ∀ o ∈ d.machines, o.ring.length = o.ideal.length

theorem map_write_other {l : List Nat} {p : Nat} (h : p ∉ l) (m : Memory K) (a : String) (v : Attr K) :
    l.map (m.write p a v).cell = l.map m.cell := by
  apply List.map_congr_left
  intro q hq
  have : q ≠ p := by rintro rfl; exact h hq
  simp [Memory.write, this]

theorem map_write {l : List Nat} (hl : l.Nodup) {i p : Nat} (h : l[i]? = some p) (m : Memory K) (a : String) (v : Attr K) :
    l.map (m.write p a v).cell = Ring.setAttr (l.map m.cell) i a v := by
  unfold Ring.setAttr
  apply List.ext_getElem?
  intro j
  rw [List.getElem?_modify, List.getElem?_map, List.getElem?_map]
  obtain ⟨hi, rfl⟩ := List.getElem?_eq_some_iff.mp h
  cases hj : l[j]? with
  | none => simp
  | some q =>
    obtain ⟨hj', rfl⟩ := List.getElem?_eq_some_iff.mp hj
    simp only [Option.map_some, Memory.write]
    by_cases hij : i = j
    · subst hij; simp
    · have : l[j] ≠ l[i] := fun he => hij ((hl.getElem_inj_iff.mp he).symm)
      simp [hij, this]

theorem used_pair {d : Desk K} (h : d.used.Nodup) {j k : Nat} {o o' : Machine} (hj : d.machines[j]? = some o) (hk : d.machines[k]? = some o')
    (hjk : j ≠ k) {p : Nat} (hp : p ∈ o.ring ++ o.ideal) : p ∉ o'.ring ++ o'.ideal := by
  unfold Spec.Desk.used at h
  rw [List.nodup_flatMap] at h
  obtain ⟨hj1, rfl⟩ := List.getElem?_eq_some_iff.mp hj
  obtain ⟨hk1, rfl⟩ := List.getElem?_eq_some_iff.mp hk
  have h2 := List.pairwise_iff_getElem.mp h.2
  intro hp'
  rcases lt_or_gt_of_ne hjk with hlt | hlt
  · exact h2 j k hj1 hk1 hlt hp hp'
  · exact h2 k j hk1 hj1 hlt hp' hp

theorem used_own {d : Desk K} (h : d.used.Nodup) {k : Nat} {o : Machine} (hk : d.machines[k]? = some o) : (o.ring ++ o.ideal).Nodup := by
  unfold Spec.Desk.used at h
  rw [List.nodup_flatMap] at h
  exact h.1 o (List.mem_of_getElem? hk)

theorem mem_used {d : Desk K} {o : Machine} (ho : o ∈ d.machines) {p : Nat} (hp : p ∈ o.ring ++ o.ideal) : p ∈ d.used :=
  List.mem_flatMap.mpr ⟨o, ho, hp⟩

/-- a new SC object with new elements only -/
theorem sound_add {d : Desk K} (h : d.Sound) {o : Machine} {m' : Memory K} (h1 : (o.ring ++ o.ideal).Nodup)
    (h2 : ∀ p ∈ o.ring ++ o.ideal, d.memory.next ≤ p ∧ p < m'.next) (h3 : d.memory.next ≤ m'.next) (h4 : ∀ p < d.memory.next, m'.cell p = d.memory.cell p)
    (h5 : o.ring.length = o.ideal.length) :
    Desk.Sound { d with memory := m', machines := d.machines ++ [o] } ∧
    Desk.view { d with memory := m', machines := d.machines ++ [o] } =
      { d.view with machines := d.view.machines ++ [(o.ring.map m'.cell, o.ideal.map m'.cell)] } := by
  have hu : Spec.Desk.used { d with memory := m', machines := d.machines ++ [o] } = d.used ++ (o.ring ++ o.ideal) := by
    unfold Spec.Desk.used; simp
  have hcell : ∀ l : List Nat, (∀ p ∈ l, p < d.memory.next) → l.map m'.cell = l.map d.memory.cell :=
    fun l hl => List.map_congr_left (fun p hp => h4 p (hl p hp))
  refine ⟨⟨fun p hp => lt_of_lt_of_le (h.own p hp) h3, ?_, ?_, ?_, ?_⟩, ?_⟩
  · rw [hu, List.nodup_append]
    refine ⟨h.distinct, h1, fun a ha b hb => ?_⟩
    have := h.bound a ha
    have := (h2 b hb).1
    omega
  · rw [hu]
    intro p hp
    rcases List.mem_append.mp hp with hp | hp
    · exact lt_of_lt_of_le (h.bound p hp) h3
    · exact (h2 p hp).2
  · rw [hu]
    intro p hp
    rcases List.mem_append.mp hp with hp | hp
    · exact h.apart p hp
    · intro ho
      have := h.own p ho
      have := (h2 p hp).1
      omega
  · intro o' ho'
    rcases List.mem_append.mp ho' with ho' | ho'
    · exact h.even o' ho'
    · rw [List.mem_singleton.mp ho']; exact h5
  · unfold Desk.view
    simp only [List.map_append, List.map_cons, List.map_nil]
    congr 1
    · exact List.map_congr_left (fun p hp => by rw [h4 p (h.own p hp)])
    · congr 1
      refine List.map_congr_left (fun o' ho' => ?_)
      rw [hcell _ (fun p hp => h.bound p (mem_used ho' (List.mem_append_left _ hp))), hcell _ (fun p hp => h.bound p (mem_used ho' (List.mem_append_right _ hp)))]

theorem sound_write {d : Desk K} (h : d.Sound) (p : Nat) (a : String) (v : Attr K) : Desk.Sound { d with memory := d.memory.write p a v } :=
  ⟨h.own, h.distinct, h.bound, h.apart, h.even⟩

/-- one step -/
theorem step_view {d : Desk K} (h : d.Sound) (x : DeskStep K) : (d.step x).Sound ∧ (d.step x).view = d.view.step x := by
  cases x with
  | create =>
    obtain ⟨o, m', h1, h2, h3, h4, h5, h6, h7⟩ := C104_new_object d.own d.memory h.own
    have hl : o.ring.length = o.ideal.length := by
      have := congrArg List.length (h4.trans h5.symm)
      simpa using this
    obtain ⟨k1, k2⟩ := sound_add h h2 h3 h6 h7 hl
    have : d.step .create = { d with memory := m', machines := d.machines ++ [o] } := by
      simp only [Desk.step, h1]
    rw [this]
    refine ⟨k1, k2.trans ?_⟩
    simp only [Values.step]
    rw [h4, h5]
    simp [Desk.view]
  | copy k =>
    cases hk : d.machines[k]? with
    | none =>
      have : d.step (.copy k) = d := by simp only [Desk.step, hk]
      rw [this]
      refine ⟨h, ?_⟩
      have : d.view.machines[k]? = none := by simp [Desk.view, hk]
      simp only [Values.step, this]
    | some o =>
      have ho : o ∈ d.machines := List.mem_of_getElem? hk
      obtain ⟨o', m', h1, h2, h3, h4, h5, h6, h7⟩ := C104_copied_object o d.memory (h.even o ho) (fun p hp => h.bound p (mem_used ho hp))
      have hl : o'.ring.length = o'.ideal.length := by
        have := congrArg List.length (h4.trans h5.symm)
        simpa using this
      obtain ⟨k1, k2⟩ := sound_add h h2 h3 h6 h7 hl
      have : d.step (.copy k) = { d with memory := m', machines := d.machines ++ [o'] } := by
        simp only [Desk.step, hk, h1]
      rw [this]
      refine ⟨k1, k2.trans ?_⟩
      have hv : d.view.machines[k]? = some (o.ring.map d.memory.cell, o.ideal.map d.memory.cell) := by simp [Desk.view, hk]
      simp only [Values.step, hv]
      rw [h4, h5]
  | set k design i a v =>
    cases hp : (d.machines[k]?).bind (fun o => (Spec.Machine.lattice o design)[i]?) with
    | none =>
      have : d.step (.set k design i a v) = d := by simp only [Desk.step, hp]
      rw [this]
      refine ⟨h, ?_⟩
      simp only [Values.step]
      suffices d.view.machines.modify k (fun o => if design then (o.1, o.2.setAttr i a v) else (o.1.setAttr i a v, o.2)) = d.view.machines by
        rw [this]
      apply List.ext_getElem?
      intro j
      rw [List.getElem?_modify]
      split
      · rename_i hj
        subst hj
        unfold Desk.view
        rw [List.getElem?_map]
        cases hk : d.machines[k]? with
        | none => rfl
        | some o =>
          rw [hk] at hp
          simp only [Option.bind_some] at hp
          simp only [Option.map_some]
          unfold Spec.Machine.lattice at hp
          rw [List.getElem?_eq_none_iff] at hp
          unfold Ring.setAttr
          cases design with
          | true =>
            simp only [if_true] at hp ⊢
            rw [Option.map_eq_map, Option.map_some, List.modify_eq_self (by simpa using hp)]
          | false =>
            simp only [Bool.false_eq_true, if_false] at hp ⊢
            rw [Option.map_eq_map, Option.map_some, List.modify_eq_self (by simpa using hp)]
      · simp
    | some p =>
      have : d.step (.set k design i a v) = { d with memory := d.memory.write p a v } := by simp only [Desk.step, hp]
      rw [this]
      refine ⟨sound_write h p a v, ?_⟩
      obtain ⟨o, hk, hi⟩ := Option.bind_eq_some_iff.mp hp
      have ho := List.mem_of_getElem? hk
      have hpo : p ∈ o.ring ++ o.ideal := by
        have := List.mem_of_getElem? hi
        unfold Spec.Machine.lattice at this
        split at this
        · exact List.mem_append_right _ this
        · exact List.mem_append_left _ this
      have hnd := List.nodup_append.mp (used_own h.distinct hk)
      unfold Values.step Desk.view
      simp only
      congr 1
      · refine List.map_congr_left (fun q hq => ?_)
        have : q ≠ p := by rintro rfl; exact h.apart q (mem_used ho hpo) hq
        simp [Memory.write, this]
      · apply List.ext_getElem?
        intro j
        rw [List.getElem?_modify, List.getElem?_map, List.getElem?_map]
        cases hj : d.machines[j]? with
        | none => simp
        | some o' =>
          simp only [Option.map_some]
          by_cases hkj : k = j
          · subst hkj
            obtain rfl : o = o' := by rw [hk] at hj; exact Option.some.inj hj
            rw [Option.map_eq_map, Option.map_some, if_pos rfl]
            unfold Spec.Machine.lattice at hi
            cases design with
            | true =>
              simp only [if_true] at hi ⊢
              rw [map_write hnd.2.1 hi, map_write_other (fun hr => hnd.2.2 p hr p (List.mem_of_getElem? hi) rfl)]
            | false =>
              simp only [Bool.false_eq_true, if_false] at hi ⊢
              rw [map_write hnd.1 hi, map_write_other (fun hr => hnd.2.2 p (List.mem_of_getElem? hi) p hr rfl)]
          · have hn := used_pair h.distinct hk hj hkj hpo
            rw [Option.map_eq_map, Option.map_some, if_neg hkj, map_write_other (fun hr => hn (List.mem_append_left _ hr)), map_write_other (fun hr => hn (List.mem_append_right _ hr))]
  | own i a v =>
    cases hp : d.own[i]? with
    | none =>
      have : d.step (.own i a v) = d := by simp only [Desk.step, hp]
      rw [this]
      refine ⟨h, ?_⟩
      have : d.view.own[i]? = none := by simp [Desk.view, hp]
      simp only [Values.step, this]
    | some p =>
      have : d.step (.own i a v) = { d with memory := d.memory.write p a v } := by simp only [Desk.step, hp]
      rw [this]
      refine ⟨sound_write h p a v, ?_⟩
      have hv : d.view.own[i]? = some (p, d.memory.cell p) := by simp [Desk.view, hp]
      have hpo := List.mem_of_getElem? hp
      simp only [Values.step, hv]
      unfold Desk.view
      simp only [List.map_map]
      congr 1
      · refine List.map_congr_left (fun q _ => ?_)
        simp only [Memory.write, Function.comp]
        split <;> rfl
      · refine List.map_congr_left (fun o ho => ?_)
        have hn : ∀ q ∈ o.ring ++ o.ideal, q ≠ p := by
          rintro q hq rfl
          exact h.apart q (mem_used ho hq) hpo
        rw [map_write_other (fun hr => hn p (List.mem_append_left _ hr) rfl), map_write_other (fun hr => hn p (List.mem_append_right _ hr) rfl)]

theorem steps_view (steps : List (DeskStep K)) : ∀ (d : Desk K), d.Sound → (steps.foldl Desk.step d).Sound ∧
    (steps.foldl Desk.step d).view = steps.foldl Values.step d.view := by
  induction steps with
  | nil => exact fun d h => ⟨h, rfl⟩
  | cons x l ih =>
    intro d h
    obtain ⟨h1, h2⟩ := step_view h x
    obtain ⟨h3, h4⟩ := ih (d.step x) h1
    refine ⟨h3, ?_⟩
    rw [List.foldl_cons, List.foldl_cons, h4, h2]

theorem fresh_sound {d : Desk K} (h : d.Fresh) : d.Sound := by
  obtain ⟨h1, h2⟩ := h
  refine ⟨h2, ?_, ?_, ?_, ?_⟩ <;> simp [Spec.Desk.used, h1]

/-- **C104**: whatever SC objects are made from a lattice and copied, and whatever is set in them, in their design lattices and in the
lattice itself, in any order: what is seen is what one sees with lattices made of independent values. -/
theorem C104_as_values (d : Desk K) (h : d.Fresh) (steps : List (DeskStep K)) :
    (steps.foldl Desk.step d).view = steps.foldl Values.step d.view :=
  (steps_view steps d (fresh_sound h)).2

/-- **C104**: so an attribute set at one position appears there, and at no other position of the same SC object, its design lattice,
another SC object, or the lattice of the user. -/
theorem C104_only_there (d : Desk K) (h : d.Fresh) (steps : List (DeskStep K)) (k : Nat) (design : Bool) (i : Nat) (a : String) (v : Attr K) :
    let before := (steps.foldl Desk.step d).view
    let after := ((steps.foldl Desk.step d).step (.set k design i a v)).view
    after.own = before.own ∧
    (∀ k' ≠ k, after.machines[k']? = before.machines[k']?) ∧
    ∀ o, before.machines[k]? = some o →
      after.machines[k]? = some (if design then (o.1, o.2.setAttr i a v) else (o.1.setAttr i a v, o.2)) := by
  intro before after
  have hs := (step_view (steps_view steps d (fresh_sound h)).1 (.set k design i a v)).2
  have : after = before.step (.set k design i a v) := hs
  rw [this]
  unfold Values.step
  refine ⟨rfl, fun k' hk => ?_, fun o ho => ?_⟩
  · simp [List.getElem?_modify, Ne.symm hk]
  · simp [List.getElem?_modify, ho]

/-- **C104**: the values are those of the model without objects. -/
theorem C104_agrees_with_model [Field K] [LinearOrder K] (d : Values K) (rng : Nat) :
    (d.step .create).machines = d.machines ++ [((SC.init (d.own.map Prod.snd) rng).RING, (SC.init (d.own.map Prod.snd) rng).IDEALRING)] ∧
    ∀ k o, d.machines[k]? = some o → o.1.length = o.2.length → ∀ s : SC K, s.RING = o.1 → s.IDEALRING = o.2 →
      ∃ c, veryDeepCopy s = .ok c s ∧ (d.step (.copy k)).machines = d.machines ++ [(c.RING, c.IDEALRING)] := by
  refine ⟨rfl, fun k o hk hl s h1 h2 => ⟨{ s with IDEALRING := s.RING ++ s.IDEALRING.drop s.RING.length }, ?_, ?_⟩⟩
  · unfold veryDeepCopy
    rw [bind_apply]; simp only [get_apply]
    rw [if_neg (by rw [h1, h2]; omega)]; rfl
  · simp only [Values.step, hk]
    rw [h1, h2, hl, List.drop_length, List.append_nil]

end general

/-! ### examples -/

/-- a lattice with the same drift at positions 0 and 2 -/
def Example.desk : Desk ℚ :=
  ⟨⟨2, fun p a => if a = "FamName" then some (.str (if p = 0 then "D" else "Q")) else if a = "Length" then some (.num (p + 1)) else none⟩, [0, 1, 0], []⟩

example : Example.desk.Fresh := ⟨rfl, by decide⟩

-- two SC objects, a copy, attributes set in between: set at position 2 only, although the lattice has the same drift at position 0
example :
    let d := [DeskStep.create, .set 0 false 2 "Length" (.num 5), .create, .copy 0, .set 0 true 0 "Length" (.num 7), .own 0 "Length" (.num 9)].foldl
      Desk.step Example.desk
    (d.view.machines.map (fun o => (o.1.map (fun e => e "Length"), o.2.map (fun e => e "Length"))) =
      [([some (.num 1), some (.num 2), some (.num 5)], [some (.num 7), some (.num 2), some (.num 1)]),
       ([some (.num 1), some (.num 2), some (.num 1)], [some (.num 1), some (.num 2), some (.num 1)]),
       ([some (.num 1), some (.num 2), some (.num 5)], [some (.num 1), some (.num 2), some (.num 5)])]) ∧
    d.view.own.map (fun x => x.2 "Length") = [some (.num 9), some (.num 2), some (.num 9)] := by decide +kernel

-- `ring.deepcopy()` alone would not do: the copies at positions 0 and 2 would be the same object
example : (match copyLattice [0, 1, 0] [] Example.desk.memory with
    | .ok l _ => some l
    | .error _ _ => none) = some [2, 3, 2] := by decide +kernel

end PySC
