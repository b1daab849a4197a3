import Verif.Lemmas.SupportErrors
import Verif.Props.Register
/-
C25 (straight line between the ends of a support), C26 (supports across the origin), C27 (pitch and yaw), C28 (each end its
own uncertainty), C29 (elements move with their girder), C64 (rolls and slopes), C65 (children of a master magnet).
-/
namespace PySC
open Py Spec
set_option linter.unusedSectionVars false
variable {K : Type} [Field K] [LinearOrder K] [IsStrictOrderedRing K]

/-! ### examples -/

/-- a random stream with values beyond two sigmas, and a stand-in for the coordinate transformations -/
def Example.env : Env ℚ where
  randn := fun k => if k % 3 = 0 then 1/2 else if k % 3 = 1 then -1/3 else 3
  fuel := 100
  transform := fun _ _ o a => .ok (o.map Neg.neg, o, [a], [a])

/-- everything of `Example.rawRing` registered: two girders, standing partly on a section -/
def Example.lab : SC ℚ := registrations (Example.calls ++ [.supports [[1], [6]] "Section" [("Offset", .vec [1, 1, 1])]]) Example.raw

theorem forward_of_all {r : Ring K} (h : ∀ i < r.length, 0 ≤ numAt r i "Length") : Forward r := by
  intro i
  by_cases hi : i < r.length
  · exact h i hi
  · simp [numAt, Ring.attr, List.getElem?_eq_none (not_lt.1 hi)]

theorem Example.lab_layouts : Layouts Example.lab.RING Example.lab.ORD := by
  have h1 : Example.lab.ORD = ⟨[0], [4], [1, 2, 3], [1, 2], [1, 3], [1, 2], [(0, 4), (5, 7)], [], [(1, 6)]⟩ := by decide +kernel
  rw [h1]
  refine ⟨⟨?_, ?_⟩, ⟨?_, ?_⟩, ⟨?_, ?_⟩⟩
  · simp only [List.pairwise_cons, List.mem_singleton, List.Pairwise.nil, and_true]
    refine ⟨?_, by simp⟩
    rintro q rfl k
    simp only [covers, Nat.zero_le, true_and, if_true, Nat.reduceLeDiff]; omega
  · intro p hp; left; revert p; decide
  · simp
  · simp
  · simp
  · intro p hp; left; revert p; decide

theorem Example.lab_forward : Forward Example.lab.RING := forward_of_all (by decide +kernel)

/-! ### C25 -/

/-- displacement of what girders stand on, and of what plinths stand on -/
def underGirders (r : Ring K) (o : Ords) (dim : Nat) : Nat → K := displacement r { o with Girder := [] } dim
def underPlinths (r : Ring K) (o : Ords) (dim : Nat) : Nat → K := displacement r { o with Girder := [], Plinth := [] } dim

theorem ride_nil (r : Ring K) (shift base : Nat → K) : ride r [] shift base = base := by funext k; simp [ride]

theorem ride_on {r : Ring K} {l : List (Nat × Nat)} (hL : Layout r l) {shift base : Nat → K} {p : Nat × Nat} (hp : p ∈ l) {k : Nat}
    (hk : covers p k) : ride r l shift base k =
      line (along r p p.1) (base p.1 + shift p.1) (along r p p.2) (base p.2 + shift p.2) (along r p k) := by
  have hf : l.find? (fun p => decide (covers p k)) = some p := by
    cases h : l.find? (fun p => decide (covers p k)) with
    | none =>
      rw [List.find?_eq_none] at h
      exact absurd (decide_eq_true hk) (h p hp)
    | some q =>
      have hq := List.find?_some h
      have hm := List.mem_of_find?_eq_some h
      by_contra hne
      have hne' : p ≠ q := fun he => hne (by rw [he])
      have : Std.Symm (fun p q : Nat × Nat => ∀ k, ¬ (covers p k ∧ covers q k)) := ⟨fun a b h k hk => h k hk.symm⟩
      exact hL.apart.forall hp hm hne' k ⟨hk, by simpa using hq⟩
  unfold ride; rw [hf]

theorem ride_off {r : Ring K} {l : List (Nat × Nat)} {shift base : Nat → K} {k : Nat} (h : ∀ p ∈ l, ¬ covers p k) :
    ride r l shift base k = base k := by
  have hf : l.find? (fun p => decide (covers p k)) = none := by
    rw [List.find?_eq_none]; intro p hp; simpa using h p hp
  unfold ride; rw [hf]

theorem line_start (xa fa xb fb : K) : line xa fa xb fb xa = fa := by simp [line]
theorem line_end {xa fa xb fb : K} (h : xa ≠ xb) : line xa fa xb fb xb = fb := by
  have : xb - xa ≠ 0 := sub_ne_zero.2 (Ne.symm h)
  simp [line, div_self this]
theorem line_const (xa f xb x : K) : line xa f xb f x = f := by simp [line]

/-- **C25**: `support_offset_and_roll` evaluated at the positions of all elements gives for each element and dimension the
displacement by girders which stand on plinths which stand on sections. -/
theorem C25_offsets_are_displacements (r : Ring K) (o : Ords) (hf : Forward r) (hL : Layouts r o) (off roll : List (List K))
    (h : supportOffsetAndRoll r o (findspos r) = .ok (off, roll)) :
    off.length = 3 ∧ ∀ dim < 3, ∀ k ≤ r.length, coef (off.getD dim []) k = displacement r o dim k := by
  unfold supportOffsetAndRoll at h
  simp only [Except.bind_eq_ok', ne_eq, not_true_eq_false, if_false, Except.ok.injEq, Prod.mk.injEq] at h
  obtain ⟨x, hx, y, hy, z, hz, rolls, -, rfl, rfl⟩ := h
  refine ⟨rfl, fun dim hd k hk => ?_⟩
  have : dim = 0 ∨ dim = 1 ∨ dim = 2 := by omega
  rcases this with rfl | rfl | rfl
  · exact (offsetRow_eq hf hL hx).1.2 k hk
  · exact (offsetRow_eq hf hL hy).1.2 k hk
  · exact (offsetRow_eq hf hL hz).1.2 k hk

/-- **C25**, girders: on a girder the displacement is the straight line between the displacements of its ends, each of which
is the end's own offset plus the displacement of what the girder stands on. -/
theorem C25_straight_line (r : Ring K) (o : Ords) (hf : Forward r) (hL : Layouts r o) (off roll : List (List K))
    (h : supportOffsetAndRoll r o (findspos r) = .ok (off, roll)) (dim : Nat) (hd : dim < 3) (p : Nat × Nat) (hp : p ∈ o.Girder)
    (k : Nat) (hk : k ≤ r.length) (hc : covers p k) :
    coef (off.getD dim []) k =
      line (along r p p.1) (underGirders r o dim p.1 + coef (vecAt r p.1 "GirderOffset") dim)
        (along r p p.2) (underGirders r o dim p.2 + coef (vecAt r p.2 "GirderOffset") dim) (along r p k) := by
  rw [(C25_offsets_are_displacements r o hf hL off roll h).2 dim hd k hk]
  simp only [underGirders, displacement, ride_nil]
  exact ride_on hL.girder hp hc

/-- **C25**, plinths: elements on a plinth but on no girder -/
theorem C25_straight_line_plinth (r : Ring K) (o : Ords) (hf : Forward r) (hL : Layouts r o) (off roll : List (List K))
    (h : supportOffsetAndRoll r o (findspos r) = .ok (off, roll)) (dim : Nat) (hd : dim < 3) (p : Nat × Nat) (hp : p ∈ o.Plinth)
    (k : Nat) (hk : k ≤ r.length) (hg : ∀ q ∈ o.Girder, ¬ covers q k) (hc : covers p k) :
    coef (off.getD dim []) k =
      line (along r p p.1) (underPlinths r o dim p.1 + coef (vecAt r p.1 "PlinthOffset") dim)
        (along r p p.2) (underPlinths r o dim p.2 + coef (vecAt r p.2 "PlinthOffset") dim) (along r p k) := by
  rw [(C25_offsets_are_displacements r o hf hL off roll h).2 dim hd k hk]
  simp only [underPlinths, displacement, ride_nil]
  rw [ride_off hg]
  exact ride_on hL.plinth hp hc

/-- **C25**, sections: elements on a section but on no girder and no plinth -/
theorem C25_straight_line_section (r : Ring K) (o : Ords) (hf : Forward r) (hL : Layouts r o) (off roll : List (List K))
    (h : supportOffsetAndRoll r o (findspos r) = .ok (off, roll)) (dim : Nat) (hd : dim < 3) (p : Nat × Nat) (hp : p ∈ o.Section)
    (k : Nat) (hk : k ≤ r.length) (hg : ∀ q ∈ o.Girder ++ o.Plinth, ¬ covers q k) (hc : covers p k) :
    coef (off.getD dim []) k =
      line (along r p p.1) (coef (vecAt r p.1 "SectionOffset") dim)
        (along r p p.2) (coef (vecAt r p.2 "SectionOffset") dim) (along r p k) := by
  rw [(C25_offsets_are_displacements r o hf hL off roll h).2 dim hd k hk]
  simp only [displacement]
  rw [ride_off (fun q hq => hg q (List.mem_append_left _ hq)), ride_off (fun q hq => hg q (List.mem_append_right _ hq)),
    ride_on hL.section_ hp hc]
  simp

/-- **C25**: at its ends a girder is displaced by the end offsets, on top of what it stands on. -/
theorem C25_ends (r : Ring K) (o : Ords) (hf : Forward r) (hL : Layouts r o) (off roll : List (List K))
    (h : supportOffsetAndRoll r o (findspos r) = .ok (off, roll)) (dim : Nat) (hd : dim < 3) (p : Nat × Nat) (hp : p ∈ o.Girder)
    (h1 : p.1 ≤ r.length) (h2 : p.2 ≤ r.length) (hne : along r p p.1 ≠ along r p p.2) :
    coef (off.getD dim []) p.1 = underGirders r o dim p.1 + coef (vecAt r p.1 "GirderOffset") dim ∧
    coef (off.getD dim []) p.2 = underGirders r o dim p.2 + coef (vecAt r p.2 "GirderOffset") dim := by
  rw [C25_straight_line r o hf hL off roll h dim hd p hp _ h1 (covers_start p),
    C25_straight_line r o hf hL off roll h dim hd p hp _ h2 (covers_end p)]
  exact ⟨line_start _ _ _ _, line_end hne⟩

/-- **C25**: elements on no support are not displaced. -/
theorem C25_outside (r : Ring K) (o : Ords) (hf : Forward r) (hL : Layouts r o) (off roll : List (List K))
    (h : supportOffsetAndRoll r o (findspos r) = .ok (off, roll)) (dim : Nat) (hd : dim < 3) (k : Nat) (hk : k ≤ r.length)
    (hno : ∀ p ∈ o.Girder ++ o.Plinth ++ o.Section, ¬ covers p k) : coef (off.getD dim []) k = 0 := by
  rw [(C25_offsets_are_displacements r o hf hL off roll h).2 dim hd k hk]
  simp only [List.mem_append] at hno
  simp only [displacement]
  rw [ride_off (fun q hq => hno q (Or.inl (Or.inl hq))), ride_off (fun q hq => hno q (Or.inl (Or.inr hq))),
    ride_off (fun q hq => hno q (Or.inr hq))]

/-- **C25**: a girder whose two ends are displaced by the same amount shifts everything on it by that amount. -/
theorem C25_parallel_shift (r : Ring K) (o : Ords) (hf : Forward r) (hL : Layouts r o) (off roll : List (List K))
    (h : supportOffsetAndRoll r o (findspos r) = .ok (off, roll)) (dim : Nat) (hd : dim < 3) (p : Nat × Nat) (hp : p ∈ o.Girder)
    (x : K) (h1 : underGirders r o dim p.1 + coef (vecAt r p.1 "GirderOffset") dim = x)
    (h2 : underGirders r o dim p.2 + coef (vecAt r p.2 "GirderOffset") dim = x) (k : Nat) (hk : k ≤ r.length) (hc : covers p k) :
    coef (off.getD dim []) k = x := by
  rw [C25_straight_line r o hf hL off roll h dim hd p hp k hk hc, h1, h2, line_const]

/-- the machine after errors were applied -/
def Example.misaligned : SC ℚ := (applyErrors Example.env 2 Example.lab).state

theorem Example.misaligned_ok : applyErrors Example.env 2 Example.lab = .ok () Example.misaligned := ok_of_isOk (by decide +kernel)
theorem Example.misaligned_ord : Example.misaligned.ORD = Example.lab.ORD := by decide +kernel
theorem Example.misaligned_forward : Forward Example.misaligned.RING := forward_of_all (by decide +kernel)
theorem Example.misaligned_layouts : Layouts Example.misaligned.RING Example.lab.ORD := by
  have h := Example.lab_layouts
  refine ⟨⟨h.girder.apart, ?_⟩, ⟨h.plinth.apart, ?_⟩, ⟨h.section_.apart, ?_⟩⟩ <;> decide +kernel

-- the second quadrupole (element 3), a fifth of the way along the first girder, is displaced accordingly
example : ((supportOffsetAndRoll Example.misaligned.RING Example.lab.ORD (findspos Example.misaligned.RING)).toOption.map
    (fun x => x.1.map (fun row => (coef row 0, coef row 3, coef row 4)))) =
    some [(-1/3, -1/15, 1), (-2/3, -7/30, 3/2), (3/2, 14/15, -4/3)] := by decide +kernel

/-! ### C26 -/

/-- **C26**, offsets: a girder which starts before and ends after the origin is a straight line through the origin; elements
after its end and before its start which stand on no other girder are not moved by girders. -/
theorem C26_offsets_across_origin (r : Ring K) (o : Ords) (hf : Forward r) (hL : Layouts r o) (off roll : List (List K))
    (h : supportOffsetAndRoll r o (findspos r) = .ok (off, roll)) (dim : Nat) (hd : dim < 3) (a b : Nat) (hp : (a, b) ∈ o.Girder)
    (hab : b < a) (k : Nat) (hk : k ≤ r.length) (d1 d2 : K)
    (h1 : underGirders r o dim a + coef (vecAt r a "GirderOffset") dim = d1)
    (h2 : underGirders r o dim b + coef (vecAt r b "GirderOffset") dim = d2) :
    (a ≤ k → coef (off.getD dim []) k = line (sPos r a) d1 (sPos r b + circumference r) d2 (sPos r k)) ∧
    (k ≤ b → coef (off.getD dim []) k = line (sPos r a) d1 (sPos r b + circumference r) d2 (sPos r k + circumference r)) ∧
    (b < k → k < a → (∀ q ∈ o.Girder, q ≠ (a, b) → ¬ covers q k) → coef (off.getD dim []) k = underGirders r o dim k) := by
  have hc : covers (a, b) k ↔ a ≤ k ∨ k ≤ b := by simp [covers, not_le.2 hab]
  refine ⟨fun hak => ?_, fun hkb => ?_, fun hbk hka hno => ?_⟩
  · have := C25_straight_line r o hf hL off roll h dim hd (a, b) hp k hk (hc.2 (Or.inl hak))
    rw [this, ← h1, ← h2]
    simp [along, hab, not_lt.2 hak]
  · have := C25_straight_line r o hf hL off roll h dim hd (a, b) hp k hk (hc.2 (Or.inr hkb))
    rw [this, ← h1, ← h2]
    simp [along, hab, lt_of_le_of_lt hkb hab]
  · rw [(C25_offsets_are_displacements r o hf hL off roll h).2 dim hd k hk]
    simp only [underGirders, displacement, ride_nil]
    refine ride_off (fun q hq => ?_)
    by_cases hqe : q = (a, b)
    · rw [hqe, hc]; omega
    · exact hno q hq hqe

/-- **C26**, rolls as they are: the roll of a support across the origin is added to every element of the ring. -/
theorem C26_rolls_partial (r : Ring K) (o : Ords) (locs : List K) (hlocs : locs = findspos r) (off roll : List (List K))
    (h : supportOffsetAndRoll r o locs = .ok (off, roll)) (k : Nat) (hk : k ≤ r.length) :
    coef (roll.getD 0 []) k = (((typedPairs o).filter (fun tp => decide (tp.2.2 < tp.2.1 ∨ covers tp.2 k))).map
      (fun tp => coef (vecAt r tp.2.1 (tp.1 ++ "Roll")) 0)).sum := by
  subst hlocs
  unfold supportOffsetAndRoll rollRows at h
  simp only [Except.bind_eq_ok', ne_eq, not_true_eq_false, if_false, Except.ok.injEq, Prod.mk.injEq] at h
  obtain ⟨x, hx, y, hy, z, hz, rolls, ⟨row, hr, p, -, q, -, rfl⟩, rfl, rfl⟩ := h
  obtain ⟨hl, hv⟩ := addRolls_eq hr
  have := hv k (by simp [zeros, length_findspos]; omega)
  simp only [List.getD_cons_zero]
  rw [this]
  have hz : coef (zeros (findspos r).length : List K) k = 0 := by
    simp only [coef, zeros, List.getD_eq_getElem?_getD, List.getElem?_replicate]; split <;> rfl
  rw [hz, zero_add]
  congr 2
  refine List.filter_congr (fun tp _ => ?_)
  by_cases hw : tp.2.2 < tp.2.1
  · rw [supportMask_wrap hw]; simp [hw]
  · rw [supportMask_eq (not_lt.1 hw)]; simp [hw]

/-- **C26**, rolls: without a support across the origin each element is rolled by the supports it stands on. -/
theorem C26_rolls_without_wrap_partial (r : Ring K) (o : Ords) (hn : NoWrap o) (locs : List K) (hlocs : locs = findspos r)
    (off roll : List (List K)) (h : supportOffsetAndRoll r o locs = .ok (off, roll)) (hf : Forward r) (hL : Layouts r o) (k : Nat)
    (hk : k ≤ r.length) : coef (roll.getD 0 []) k = rollAt r o k := by
  subst hlocs
  unfold supportOffsetAndRoll at h
  simp only [Except.bind_eq_ok', ne_eq, not_true_eq_false, if_false, Except.ok.injEq, Prod.mk.injEq] at h
  obtain ⟨x, hx, y, hy, z, hz, rolls, hr, rfl, rfl⟩ := h
  obtain ⟨roll, pitch, yaw, rfl, -, -, -, hv⟩ := rollRows_eq hf hL hn hx hy hr
  exact (hv k hk).1

/-- a ring with one girder from element 3 across the origin to element 1, rolled by 1/10 -/
def Example.wrapped : SC ℚ :=
  let m (l : ℚ) : Elem ℚ := Elem.ofList [("FamName", .str "M"), ("PassMethod", .str "IdentityPass"), ("Length", .num l),
    ("GirderOffset", .vec [l, 2, 0]), ("GirderRoll", .vec [1/10, 0, 0])]
  { RING := [m 1, m 2, m 1, m 3], IDEALRING := [], INJ := Example.inj,
    SIG := Example.sc.SIG, ORD := ⟨[0, 2], [], [], [], [], [], [(3, 1)], [], []⟩, rng := 0 }

/-- **C26 is violated**: element 2 stands on no support, but gets the roll of the girder from element 3 across the origin to
element 1. -/
theorem C26_violated : ∃ (s s' : SC ℚ), updateSupports Example.env true true s = .ok () s' ∧ s.ORD.Girder = [(3, 1)] ∧
    s.ORD.Plinth = [] ∧ s.ORD.Section = [] ∧ ¬ covers (3, 1) 2 ∧ 2 ∈ s.ORD.BPM ∧
    s'.RING.attr 2 "SupportRoll" = some (.num (1/10)) := by
  refine ⟨Example.wrapped, _, ok_of_isOk (by decide +kernel), ?_⟩
  decide +kernel

example : Forward Example.wrapped.RING ∧ Layouts Example.wrapped.RING Example.wrapped.ORD ∧
    ((supportOffsetAndRoll Example.wrapped.RING Example.wrapped.ORD (findspos Example.wrapped.RING)).toOption.map
    (fun x => x.1.map (fun row => (coef row 0, coef row 2)))) = some [(9/4, 0), (2, 0), (0, 0)] := by
  refine ⟨forward_of_all (by decide +kernel), ⟨⟨by simp [Example.wrapped], by decide +kernel⟩,
    ⟨by simp [Example.wrapped], by decide +kernel⟩, ⟨by simp [Example.wrapped], by decide +kernel⟩⟩, by decide +kernel⟩

/-! ### C27 -/

section errors
variable [FloorRing K]

/-- **C27**: after `apply_errors` pitch and yaw of every support with registered uncertainties fit to the offsets of its ends,
provided an offset uncertainty is registered for its start, or both ends had the same offset before. -/
theorem C27_pitch_and_yaw_partial (E : Env K) (nsigmas : K) (s s' : SC K) (hw : WellRegistered s.SIG) (hf : Forward s'.RING)
    (hL : Layouts s'.RING s.ORD) (h : applyErrors E nsigmas s = .ok () s')
    (t : String) (ht : t ∈ ["Girder", "Plinth", "Section"]) (p : Nat × Nat) (hp : p ∈ s.ORD.pairs t) (hne : p.1 ≠ p.2)
    (hreg : p.1 ∈ s.SIG.Support.keys) (hshort : sPos s'.RING p.2 - sPos s'.RING p.1 < circumference s'.RING)
    (hoff : (sigma s.SIG.Support p.1 (t ++ "Offset")).isSome ∨
      vecAt s.RING p.1 (t ++ "Offset") = vecAt s.RING p.2 (t ++ "Offset")) :
    coef (vecAt s'.RING p.1 (t ++ "Roll")) 1 * (along s'.RING p p.2 - along s'.RING p p.1) =
      coef (vecAt s'.RING p.2 (t ++ "Offset")) 1 - coef (vecAt s'.RING p.1 (t ++ "Offset")) 1 ∧
    coef (vecAt s'.RING p.1 (t ++ "Roll")) 2 * (along s'.RING p p.2 - along s'.RING p p.1) =
      coef (vecAt s'.RING p.2 (t ++ "Offset")) 0 - coef (vecAt s'.RING p.1 (t ++ "Offset")) 0 := by
  have ht' : t ∈ supportTypes := by
    simp only [List.mem_cons, List.not_mem_nil, or_false] at ht
    rcases ht with rfl | rfl | rfl <;> decide
  have hm : (t, p) ∈ typedPairs s.ORD := by
    unfold typedPairs
    exact List.mem_flatMap.2 ⟨t, ht', List.mem_map_of_mem hp⟩
  exact supportDone_tilts (applyErrors_supports hw hL h (t, p) hm hne hreg) hf (layouts_pairs hL ht') hp hshort hoff

/-- three drifts on a girder registered with the given uncertainties -/
def Example.girder (kw : Kwargs ℚ) : SC ℚ :=
  let d (l : ℚ) : Elem ℚ := Elem.ofList [("FamName", .str "D"), ("PassMethod", .str "DriftPass"), ("Length", .num l)]
  registrations [.supports [[0], [2]] "Girder" kw] (SC.init [d 1, d 2, d 1] 0)

/-- **C27 is violated** when errors are applied a second time to a girder with a roll uncertainty only: pitch times length is
not the difference of the end offsets. -/
theorem C27_violated : ∃ (s s1 s2 : SC ℚ), WellRegistered s.SIG ∧ s.ORD.Girder = [(0, 2)] ∧
    applyErrors Example.env 2 s = .ok () s1 ∧ applyErrors Example.env 2 s1 = .ok () s2 ∧
    coef (vecAt s2.RING 0 "GirderRoll") 1 * (sPos s2.RING 2 - sPos s2.RING 0) ≠
      coef (vecAt s2.RING 2 "GirderOffset") 1 - coef (vecAt s2.RING 0 "GirderOffset") 1 :=
  ⟨Example.girder [("Roll", .vec [0, 1, 0])], _, _, C03_only_uncertainties_stored _ _ _, by decide +kernel,
    ok_of_isOk (by decide +kernel), ok_of_isOk (by decide +kernel), by decide +kernel⟩

example : (0, 4) ∈ Example.lab.ORD.pairs "Girder" ∧ 0 ∈ Example.lab.SIG.Support.keys ∧
    sPos Example.misaligned.RING 4 - sPos Example.misaligned.RING 0 < circumference Example.misaligned.RING ∧
    (sigma Example.lab.SIG.Support 0 "GirderOffset").isSome ∧
    coef (vecAt Example.misaligned.RING 0 "GirderRoll") 1 = 2/3 := by decide +kernel

/-! ### C28 -/

/-- **C28 is violated**: an offset uncertainty of 1 for the start and 0 for the end of a girder displaces the end. -/
theorem C28_violated : ∃ (s s' : SC ℚ), WellRegistered s.SIG ∧ s.ORD.Girder = [(0, 2)] ∧
    sigma s.SIG.Support 0 "GirderOffset" = some (.vec [1, 1, 1]) ∧ sigma s.SIG.Support 2 "GirderOffset" = some (.vec [0, 0, 0]) ∧
    applyErrors Example.env 2 s = .ok () s' ∧ ¬ ErrorFor 2 (.vec [0, 0, 0]) (.vec (vecAt s'.RING 2 "GirderOffset")) := by
  refine ⟨Example.girder [("Offset", .mat [[1, 1, 1], [0, 0, 0]])], _, C03_only_uncertainties_stored _ _ _, by decide +kernel,
    by decide +kernel, by decide +kernel, ok_of_isOk (by decide +kernel), fun h => ?_⟩
  exact absurd (h.2 0) (by decide +kernel)

/-- **C28**, what holds: if both ends have an offset uncertainty, the offsets of both are bounded by the uncertainty of the
start; so they obey their own ones if these are equal. -/
theorem C28_end_offsets_partial (E : Env K) (nsigmas : K) (s s' : SC K) (r : Ring K) (hw : WellRegistered s.SIG)
    (hL : Layouts r s.ORD) (h : applyErrors E nsigmas s = .ok () s')
    (t : String) (ht : t ∈ ["Girder", "Plinth", "Section"]) (p : Nat × Nat) (hp : p ∈ s.ORD.pairs t) (hne : p.1 ≠ p.2)
    (v w : Attr K) (hv : sigma s.SIG.Support p.1 (t ++ "Offset") = some v) (hw' : sigma s.SIG.Support p.2 (t ++ "Offset") = some w) :
    ∃ o0 o1, s'.RING.attr p.1 (t ++ "Offset") = some (.vec o0) ∧ s'.RING.attr p.2 (t ++ "Offset") = some (.vec o1) ∧
      ErrorFor nsigmas v (.vec o0) ∧ ErrorFor nsigmas v (.vec o1) ∧
      (v = w → ErrorFor nsigmas w (.vec o1)) := by
  have ht' : t ∈ supportTypes := by
    simp only [List.mem_cons, List.not_mem_nil, or_false] at ht
    rcases ht with rfl | rfl | rfl <;> decide
  have hm : (t, p) ∈ typedPairs s.ORD := by
    unfold typedPairs
    exact List.mem_flatMap.2 ⟨t, ht', List.mem_map_of_mem hp⟩
  have hreg : p.1 ∈ s.SIG.Support.keys := by
    rw [← Dict.get?_isSome_iff]
    unfold sigma at hv
    cases hg : s.SIG.Support.get? p.1 with
    | none => rw [hg] at hv; cases hv
    | some e => rfl
  obtain ⟨o0, o1, g1, g2, g3, g4⟩ := supportDone_offsets (applyErrors_supports hw hL h (t, p) hm hne hreg) hv hw'
  exact ⟨o0, o1, g1, g2, g3, g4, fun he => he ▸ g4⟩

/-- **C20** for supports: the roll about the beam axis is bounded by the uncertainty of the start. -/
theorem C20_support_rolls (E : Env K) (nsigmas : K) (s s' : SC K) (r : Ring K) (hw : WellRegistered s.SIG)
    (hL : Layouts r s.ORD) (h : applyErrors E nsigmas s = .ok () s')
    (t : String) (ht : t ∈ ["Girder", "Plinth", "Section"]) (p : Nat × Nat) (hp : p ∈ s.ORD.pairs t) (hne : p.1 ≠ p.2)
    (v : Attr K) (hv : sigma s.SIG.Support p.1 (t ++ "Roll") = some v) :
    ∃ e, ErrorFor nsigmas v (.vec e) ∧ coef (vecAt s'.RING p.1 (t ++ "Roll")) 0 = coef e 0 := by
  have ht' : t ∈ supportTypes := by
    simp only [List.mem_cons, List.not_mem_nil, or_false] at ht
    rcases ht with rfl | rfl | rfl <;> decide
  have hm : (t, p) ∈ typedPairs s.ORD := by
    unfold typedPairs
    exact List.mem_flatMap.2 ⟨t, ht', List.mem_map_of_mem hp⟩
  have hreg : p.1 ∈ s.SIG.Support.keys := by
    rw [← Dict.get?_isSome_iff]
    unfold sigma at hv
    cases hg : s.SIG.Support.get? p.1 with
    | none => rw [hg] at hv; cases hv
    | some e => rfl
  exact supportDone_roll (applyErrors_supports hw hL h (t, p) hm hne hreg) hv

example : (0, 4) ∈ Example.lab.ORD.pairs "Girder" ∧ sigma Example.lab.SIG.Support 0 "GirderOffset" = some (.vec [1, 2, 3]) ∧
    sigma Example.lab.SIG.Support 4 "GirderOffset" = some (.vec [4, 5, 6]) ∧
    sigma Example.lab.SIG.Support 0 "GirderRoll" = some (.vec [1, 0, 0]) := by decide +kernel

/-! ### C29, C64, C65 -/

/-- **C29, C64, C65**: `update_supports` puts all magnets and BPMs where their supports put them. -/
theorem C29_update_supports (E : Env K) (s s' : SC K) (ht : Tidy s.ORD) (hf : Forward s.RING) (hL : Layouts s.RING s.ORD)
    (h : updateSupports E true true s = .ok () s') : OnSupports E s'.RING s.ORD :=
  updateSupports_onSupports ht hf hL h

/-- **C29**: the two flags of `update_supports` are independent.  With none of them nothing happens; with `offset_bpms` alone
only the support offsets and rolls of registered BPMs change; with `offset_magnets` alone only those of registered magnets,
their coordinate transformations and those of their children; both together are the magnets followed by the BPMs. -/
theorem C29_flags (E : Env K) (s : SC K) (ht : Tidy s.ORD) :
    updateSupports E false false s = .ok () s ∧
    (∀ s', updateSupports E true false s = .ok () s' →
      Frame (fun i a => i ∈ s.ORD.BPM ∧ a ∈ ["SupportOffset", "SupportRoll"]) s s') ∧
    (∀ s', updateSupports E false true s = .ok () s' → Frame (fun i a =>
      (i ∈ s.ORD.Magnet ∧ a ∈ ["SupportOffset", "SupportRoll", "R1", "T1", "T2", "R2"]) ∨
      (a ∈ transformAttrs ∧ ∃ m ∈ s.ORD.Magnet, ChildOf s.RING m i)) s s') ∧
    (∀ s', updateSupports E true true s = .ok () s' ↔
      ∃ s1, updateSupports E false true s = .ok () s1 ∧ updateSupports E true false s1 = .ok () s') :=
  ⟨updateSupports_none E s, fun _ h => updateSupports_bpms ht h, fun _ h => updateSupports_magnets h,
    fun _ => updateSupports_split⟩

example : (updateSupports Example.env true true Example.lab).isOk = true ∧ (updateSupports Example.env true false Example.lab).isOk = true ∧
    Tidy Example.lab.ORD := ⟨by decide +kernel, by decide +kernel, C01_lists_of_new_object _ _ _⟩

/-- **C29, C64, C65**: so does `apply_errors`. -/
theorem C29_apply_errors (E : Env K) (nsigmas : K) (s s' : SC K) (ht : Tidy s.ORD) (hw : WellRegistered s.SIG)
    (hf : Forward s'.RING) (hL : Layouts s'.RING s.ORD) (h : applyErrors E nsigmas s = .ok () s') : OnSupports E s'.RING s.ORD :=
  applyErrors_onSupports ht hw hf hL h

/-- **C29**, what holds: an element on a girder receives the offset of the girder at its position, if the first element at
the same position is on the girder as well. -/
theorem C29_moves_with_girder_partial (E : Env K) (r : Ring K) (o : Ords) (hf : Forward r) (hL : Layouts r o)
    (h : OnSupports E r o) (i j : Nat) (hi : i ∈ o.Magnet ∨ i ∈ o.BPM) (hj : FirstThere r i j) (p : Nat × Nat)
    (hp : p ∈ o.Girder) (_hpi : covers p i) (hpj : covers p j) :
    ∀ dim < 2, coef (vecAt r i "SupportOffset") dim =
      line (along r p p.1) (underGirders r o dim p.1 + coef (vecAt r p.1 "GirderOffset") dim)
        (along r p p.2) (underGirders r o dim p.2 + coef (vecAt r p.2 "GirderOffset") dim) (along r p i) := by
  have hal : along r p i = along r p j := by
    unfold along
    rw [hj.2.1]
    by_cases hw : p.2 < p.1
    · have hji := hj.1
      by_cases hjp : j < p.1
      · by_cases hip : i < p.1
        · simp [hw, hjp, hip]
        · exfalso
          have hjc : j ≤ p.2 := by
            unfold covers at hpj; rw [if_neg (by omega)] at hpj; omega
          have h1 := sPos_mono hf hjc
          have h2 := sPos_mono hf (not_lt.1 hip)
          rcases hL.girder.open_ p hp with h3 | h3
          · omega
          · have := hj.2.1
            exact absurd (lt_of_le_of_lt h1 (lt_of_lt_of_le h3 h2)) (by rw [this]; exact lt_irrefl _)
      · have : ¬ i < p.1 := by omega
        simp [hjp, this]
    · simp [hw]
  have hdisp : ∀ dim, displacement r o dim j =
      line (along r p p.1) (underGirders r o dim p.1 + coef (vecAt r p.1 "GirderOffset") dim)
        (along r p p.2) (underGirders r o dim p.2 + coef (vecAt r p.2 "GirderOffset") dim) (along r p i) := by
    intro dim
    rw [hal]
    simp only [underGirders, displacement, ride_nil]
    exact ride_on hL.girder hp hpj
  intro dim hd
  rw [← hdisp]
  have h2 : dim = 0 ∨ dim = 1 := by omega
  by_cases hb : i ∈ o.BPM
  · rw [vecAt_of (h.bpm i hb j hj).1]
    rcases h2 with rfl | rfl <;> rfl
  · rw [vecAt_of (h.magnet i (hi.resolve_right hb) hb j hj).1]
    rcases h2 with rfl | rfl <;> rfl

/-- elements 0, 1 and 2 share a position; a girder from element 1 to element 4 is shifted, element 2 is a BPM -/
def Example.crowded : SC ℚ :=
  let e (l : ℚ) : Elem ℚ := Elem.ofList [("FamName", .str "M"), ("PassMethod", .str "IdentityPass"), ("Length", .num l),
    ("GirderOffset", .vec [1, 1, 1]), ("GirderRoll", .vec [0, 0, 0])]
  { RING := [e 0, e 0, e 0, e 1, e 0], IDEALRING := [], INJ := Example.inj, SIG := Example.sc.SIG,
    ORD := ⟨[2], [], [], [], [], [], [(1, 4)], [], []⟩, rng := 0 }

/-- **C29 is violated**: a BPM at the start of a girder is not moved with it if another element before the girder has the same
position. -/
theorem C29_violated : ∃ (s s' : SC ℚ), updateSupports Example.env true true s = .ok () s' ∧ s.ORD.Girder = [(1, 4)] ∧
    2 ∈ s.ORD.BPM ∧ covers (1, 4) 2 ∧ vecAt s.RING 1 "GirderOffset" = [1, 1, 1] ∧ vecAt s.RING 4 "GirderOffset" = [1, 1, 1] ∧
    s'.RING.attr 2 "SupportOffset" = some (.vec [0, 0]) := by
  refine ⟨Example.crowded, _, ok_of_isOk (by decide +kernel), ?_⟩
  decide +kernel

/-- **C64**: without supports across the origin, a magnet is rolled by the sum of the rolls of the supports it stands on (taken
at the first element at its position), and is pitched and yawed like the topmost of them. -/
theorem C64_rolls_and_slopes_partial (E : Env K) (nsigmas : K) (s s' : SC K) (ht : Tidy s.ORD) (hw : WellRegistered s.SIG)
    (hf : Forward s'.RING) (hL : Layouts s'.RING s.ORD) (hn : NoWrap s.ORD) (h : applyErrors E nsigmas s = .ok () s') :
    (∀ i ∈ s.ORD.Magnet, i ∉ s.ORD.BPM → ∀ j, FirstThere s'.RING i j → s'.RING.attr i "SupportRoll" =
      some (.vec [rollAt s'.RING s.ORD j, slopeAt s'.RING s.ORD 1 j, slopeAt s'.RING s.ORD 0 j])) ∧
    ∀ i ∈ s.ORD.BPM, ∀ j, FirstThere s'.RING i j → s'.RING.attr i "SupportRoll" = some (.num (rollAt s'.RING s.ORD j)) :=
  have H := applyErrors_onSupports ht hw hf hL h
  ⟨fun i hi hb j hj => (H.magnet i hi hb j hj).2 hn, fun i hi j hj => (H.bpm i hi j hj).2 hn⟩

/-- the example machine with a plinth from element 6 across the origin to element 0 -/
def Example.bridged : SC ℚ :=
  registrations (Example.calls ++ [.supports [[6], [0]] "Plinth" [("Roll", .vec [1, 0, 0])]]) Example.raw

/-- **C64 is violated** with a support across the origin: a registered magnet far away from the plinth between elements 6 and 0
gets its roll in addition to those of the supports it stands on. -/
theorem C64_violated_across_origin : ∃ s s' : SC ℚ, applyErrors Example.env 2 s = .ok () s' ∧ s.ORD.Plinth = [(6, 0)] ∧
    s.ORD.Section = [] ∧ 3 ∈ s.ORD.Magnet ∧ 3 ∉ s.ORD.BPM ∧ FirstThere s'.RING 3 3 ∧ ¬ covers (6, 0) 3 ∧
    rollAt s'.RING s.ORD 3 = 0 ∧ coef (vecAt s'.RING 3 "SupportRoll") 0 = 1/2 := by
  refine ⟨Example.bridged, _, ok_of_isOk (by decide +kernel), by decide +kernel, by decide +kernel, by decide +kernel,
    by decide +kernel, ⟨le_refl _, rfl, by decide +kernel⟩, by decide +kernel, by decide +kernel, by decide +kernel⟩

/-- **C65**: a magnet which is not the child of another one carries the transformation which belongs to its offsets and rolls,
and its children which have no other master carry the same one. -/
theorem C65_children_placed_like_master (E : Env K) (nsigmas : K) (s s' : SC K) (ht : Tidy s.ORD) (hw : WellRegistered s.SIG)
    (hf : Forward s'.RING) (hL : Layouts s'.RING s.ORD) (h : applyErrors E nsigmas s = .ok () s') (i : Nat)
    (hi : i ∈ s.ORD.Magnet) (hb : i ∉ s.ORD.BPM) (hno : ∀ i' ∈ s.ORD.Magnet, i' ≠ i → ¬ ChildOf s'.RING i' i) :
    Placed E s'.RING i ∧ ∀ c, ChildOf s'.RING i c → (∀ i' ∈ s.ORD.Magnet, i' ≠ i → c ≠ i' ∧ ¬ ChildOf s'.RING i' c) →
      ∀ a ∈ ["T1", "T2", "R1", "R2"], s'.RING.attr c a = s'.RING.attr i a :=
  have H := applyErrors_onSupports ht hw hf hL h
  ⟨H.placed i hi hb hno, fun c hc hcc a ha => H.children i hi hno c hc hcc a ha⟩

-- the hypotheses hold for the example machine, whose magnets 2 and 3 stand on the first girder and on a section
example : OnSupports Example.env Example.misaligned.RING Example.lab.ORD ∧ NoWrap Example.lab.ORD ∧
    FirstThere Example.misaligned.RING 3 3 ∧ covers (0, 4) 3 ∧ covers (1, 6) 3 :=
  ⟨C29_apply_errors _ 2 _ _ (C01_lists_of_new_object _ _ _) (C03_only_uncertainties_stored _ _ _) Example.misaligned_forward
    Example.misaligned_layouts Example.misaligned_ok,
    (by decide +kernel : ∀ p ∈ _, _), ⟨le_refl _, rfl, by decide +kernel⟩, by decide +kernel, by decide +kernel⟩

end errors
end PySC
