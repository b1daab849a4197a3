import Verif.Lemmas.Origin
import Mathlib.Tactic.IntervalCases
/-
C118: for the supports it does not matter from which element the ring is counted.
-/
namespace PySC
set_option linter.unusedSectionVars false
variable {K : Type} [Field K] [LinearOrder K] [IsStrictOrderedRing K]
open Py Spec

theorem Spec.Restarted.forward {n : Nat} {r r' : Ring K} {o o' : Ords} (h : Restarted n r o r' o') (hf : Forward r) : Forward r' := by
  refine forward_of_all (fun j hj => ?_)
  rw [h.length] at hj
  obtain ⟨k, hk, rfl⟩ := recount_surj h.start hj
  rw [h.numAt hk]
  exact hf k

/-- **C118**: an element is offset by the same amount, whichever element the ring is counted from.  Supports may lie across either origin. -/
theorem C118_offsets_partial (n : Nat) (r r' : Ring K) (o o' : Ords) (h : Restarted n r o r' o') (hf : Forward r) (hL : Layouts r o) (hL' : Layouts r' o')
    (off roll off' roll' : List (List K)) (h1 : supportOffsetAndRoll r o (findspos r) = .ok (off, roll))
    (h2 : supportOffsetAndRoll r' o' (findspos r') = .ok (off', roll')) (k : Nat) (hk : k < r.length) (dim : Nat) (hd : dim < 3) :
    coef (off'.getD dim []) (recount r.length n k) = coef (off.getD dim []) k := by
  rw [(C25_offsets_are_displacements r o hf hL off roll h1).2 dim hd k hk.le,
    (C25_offsets_are_displacements r' o' (h.forward hf) hL' off' roll' h2).2 dim hd _ (by rw [h.length]; exact (recount_lt h.start hk).le)]
  exact h.displacement hL hL' dim hk

/-- **C118**: so are its roll, pitch and yaw, if no support lies across the one or the other origin. -/
theorem C118_rolls_partial (n : Nat) (r r' : Ring K) (o o' : Ords) (h : Restarted n r o r' o') (hf : Forward r) (hL : Layouts r o) (hL' : Layouts r' o')
    (hn : NoWrap o) (hn' : NoWrap o') (off roll off' roll' : List (List K)) (h1 : supportOffsetAndRoll r o (findspos r) = .ok (off, roll))
    (h2 : supportOffsetAndRoll r' o' (findspos r') = .ok (off', roll')) (k : Nat) (hk : k < r.length) (axis : Nat) (ha : axis < 3) :
    coef (roll'.getD axis []) (recount r.length n k) = coef (roll.getD axis []) k := by
  unfold supportOffsetAndRoll at h1 h2
  simp only [Except.bind_eq_ok', ne_eq, not_true_eq_false, if_false, Except.ok.injEq, Prod.mk.injEq] at h1 h2
  obtain ⟨x, hx, y, hy, z, hz, rolls, hr, rfl, rfl⟩ := h1
  obtain ⟨x', hx', y', hy', z', hz', rolls', hr', rfl, rfl⟩ := h2
  obtain ⟨a, b, c, rfl, -, -, -, hv⟩ := rollRows_eq hf hL hn hx hy hr
  obtain ⟨a', b', c', rfl, -, -, -, hv'⟩ := rollRows_eq (h.forward hf) hL' hn' hx' hy' hr'
  obtain ⟨v1, v2, v3⟩ := hv k hk.le
  obtain ⟨v1', v2', v3'⟩ := hv' (recount r.length n k) (by rw [h.length]; exact (recount_lt h.start hk).le)
  have : axis = 0 ∨ axis = 1 ∨ axis = 2 := by omega
  rcases this with rfl | rfl | rfl
  · simp only [List.getD_cons_zero]; rw [v1, v1', h.rollAt hk]
  · simp only [List.getD_cons_succ, List.getD_cons_zero]; rw [v2, v2', h.slopeAt hL hL' _ hk]
  · simp only [List.getD_cons_succ, List.getD_cons_zero]; rw [v3, v3', h.slopeAt hL hL' _ hk]

/-- **C118**: `update_supports` moves every registered magnet and BPM by the same amount, whichever element the ring is counted from, if the elements
before both origins have a length; and turns them by the same angles if no support lies across the one or the other origin. -/
theorem C118_elements_partial (E : Env K) (n : Nat) (s t s' t' : SC K) (h : Restarted n s.RING s.ORD t.RING t.ORD) (hts : Tidy s.ORD) (htt : Tidy t.ORD)
    (hf : Forward s.RING) (hL : Layouts s.RING s.ORD) (hL' : Layouts t.RING t.ORD) (hn : 0 < n) (hcut : 0 < numAt s.RING (n - 1) "Length")
    (hend : 0 < numAt s.RING (s.RING.length - 1) "Length") (h1 : updateSupports E true true s = .ok () s') (h2 : updateSupports E true true t = .ok () t')
    (i : Nat) (hi : i < s.RING.length) (hr : i ∈ s.ORD.Magnet ∨ i ∈ s.ORD.BPM) :
    t'.RING.attr (recount s.RING.length n i) "SupportOffset" = s'.RING.attr i "SupportOffset" ∧
    (NoWrap s.ORD → NoWrap t.ORD → t'.RING.attr (recount s.RING.length n i) "SupportRoll" = s'.RING.attr i "SupportRoll") := by
  obtain ⟨m1, b1, -, -⟩ := updateSupports_ok hts hf hL h1
  obtain ⟨m2, b2, -, -⟩ := updateSupports_ok htt (h.forward hf) hL' h2
  obtain ⟨j, hj⟩ := firstThere_exists s.RING i
  have hj' := h.firstThere hf hn hcut hend hi hj
  have hjl : j < s.RING.length := lt_of_le_of_lt hj.1 hi
  by_cases hb : i ∈ s.ORD.BPM
  · obtain ⟨a, b⟩ := b1 i hb j hj
    obtain ⟨a', b'⟩ := b2 _ ((h.bpm i hi).2 hb) _ hj'
    refine ⟨?_, fun w w' => ?_⟩
    · rw [a, a', h.displacement hL hL' _ hjl, h.displacement hL hL' _ hjl]
    · rw [b w, b' w', h.rollAt hjl]
  · have hm : i ∈ s.ORD.Magnet := hr.resolve_right hb
    obtain ⟨a, b⟩ := m1 i hm hb j hj
    obtain ⟨a', b'⟩ := m2 _ ((h.magnet i hi).2 hm) (fun hc => hb ((h.bpm i hi).1 hc)) _ hj'
    refine ⟨?_, fun w w' => ?_⟩
    · rw [a, a', h.displacement hL hL' _ hjl, h.displacement hL hL' _ hjl, h.displacement hL hL' _ hjl]
    · rw [b w, b' w', h.rollAt hjl, h.slopeAt hL hL' _ hjl, h.slopeAt hL hL' _ hjl]

/-- an element with the data of a girder -/
def Example.seat (l x y : ℚ) : Elem ℚ := Elem.ofList [("FamName", .str "M"), ("PassMethod", .str "IdentityPass"), ("Length", .num l),
    ("GirderOffset", .vec [x, y, 0]), ("GirderRoll", .vec [1/10, 0, 0])]

/-- one girder and BPMs on and off it, the girder lying across the origin or not, depending on where the counting starts -/
def Example.outward : SC ℚ :=
  { Example.wrapped with RING := [seat 1 0 2, seat 2 1 0, seat 1 0 0, seat 3 5 2], ORD := ⟨[0, 2], [], [], [], [], [], [(3, 1)], [], []⟩ }
def Example.restarted : SC ℚ :=
  { Example.wrapped with RING := [seat 3 5 2, seat 1 0 2, seat 2 1 0, seat 1 0 0], ORD := ⟨[1, 3], [], [], [], [], [], [(0, 2)], [], []⟩ }

theorem Example.outward_restarted : Restarted 3 Example.outward.RING Example.outward.ORD Example.restarted.RING Example.restarted.ORD where
  start := by decide
  length := rfl
  attr := by
    intro k hk a
    have hk : k < 4 := hk
    interval_cases k <;> rfl
  inside := by decide
  section_ := by decide
  plinth := by decide
  girder := by decide
  magnet := by decide
  bpm := by
    intro k hk
    have hk : k < 4 := hk
    interval_cases k <;> decide

theorem layouts_of_one {r : Ring K} {p : Nat × Nat} (h : p.1 ≤ p.2 ∨ sPos r p.2 < sPos r p.1) (o : Ords) (hg : o.Girder = [p]) (hp : o.Plinth = [])
    (hs : o.Section = []) : Layouts r o := by
  refine ⟨⟨?_, ?_⟩, ⟨?_, ?_⟩, ⟨?_, ?_⟩⟩ <;> simp [hg, hp, hs, h]

example : Layouts Example.outward.RING Example.outward.ORD ∧ Layouts Example.restarted.RING Example.restarted.ORD ∧ Forward Example.outward.RING ∧
    0 < numAt Example.outward.RING 2 "Length" ∧ 0 < numAt Example.outward.RING 3 "Length" ∧ 0 ∈ Example.outward.ORD.BPM ∧
    ¬ NoWrap Example.outward.ORD ∧ (updateSupports Example.env true true Example.outward).isOk = true ∧
    (updateSupports Example.env true true Example.restarted).isOk = true ∧
    (updateSupports Example.env true true Example.outward).state.RING.attr 0 "SupportOffset" = some (.vec [2, 1/2]) :=
  ⟨layouts_of_one (p := (3, 1)) (by decide +kernel) _ rfl rfl rfl, layouts_of_one (p := (0, 2)) (by decide +kernel) _ rfl rfl rfl,
    forward_of_all (by decide +kernel), by decide +kernel, by decide +kernel, by decide +kernel, by unfold NoWrap; decide +kernel, by decide +kernel,
    by decide +kernel, by decide +kernel⟩

/-- the same ring with a girder across neither origin -/
def Example.inner : SC ℚ := { Example.outward with ORD := ⟨[0, 2], [], [], [], [], [], [(1, 2)], [], []⟩ }
def Example.innerRestarted : SC ℚ := { Example.restarted with ORD := ⟨[1, 3], [], [], [], [], [], [(2, 3)], [], []⟩ }

theorem Example.inner_restarted : Restarted 3 Example.inner.RING Example.inner.ORD Example.innerRestarted.RING Example.innerRestarted.ORD where
  start := by decide
  length := rfl
  attr := Example.outward_restarted.attr
  inside := by decide
  section_ := by decide
  plinth := by decide
  girder := by decide
  magnet := by decide
  bpm := Example.outward_restarted.bpm

example : Layouts Example.inner.RING Example.inner.ORD ∧ Layouts Example.innerRestarted.RING Example.innerRestarted.ORD ∧
    NoWrap Example.inner.ORD ∧ NoWrap Example.innerRestarted.ORD ∧
    (supportOffsetAndRoll Example.innerRestarted.RING Example.innerRestarted.ORD (findspos Example.innerRestarted.RING)).isOk = true ∧
    ((supportOffsetAndRoll Example.inner.RING Example.inner.ORD (findspos Example.inner.RING)).toOption.map
    (fun x => x.2.map (fun row => coef row 2))) = some [1/10, 0, -1/2] :=
  ⟨layouts_of_one (p := (1, 2)) (by decide +kernel) _ rfl rfl rfl, layouts_of_one (p := (2, 3)) (by decide +kernel) _ rfl rfl rfl,
    by unfold NoWrap; decide +kernel, by unfold NoWrap; decide +kernel, by decide +kernel, by decide +kernel⟩

/-- **C118 is violated** for rolls: the BPM on no support is rolled or not, depending on where the counting starts. -/
theorem C118_violated_roll : ∃ (s t s' t' : SC ℚ), Restarted 3 s.RING s.ORD t.RING t.ORD ∧ updateSupports Example.env true true s = .ok () s' ∧
    updateSupports Example.env true true t = .ok () t' ∧ 2 ∈ s.ORD.BPM ∧ (∀ p ∈ s.ORD.Girder, ¬ covers p 2) ∧
    s'.RING.attr 2 "SupportRoll" = some (.num (1/10)) ∧ t'.RING.attr (recount 4 3 2) "SupportRoll" = some (.num 0) :=
  ⟨Example.outward, Example.restarted, _, _, Example.outward_restarted, ok_of_isOk (by decide +kernel), ok_of_isOk (by decide +kernel),
    by decide +kernel, by decide +kernel, by decide +kernel, by decide +kernel⟩

/-- a girder below the whole ring, which ends with an element without length -/
def Example.platform : SC ℚ :=
  { Example.wrapped with RING := [seat 1 1 2, seat 1 0 0, seat 1 0 0, seat 0 1 2], ORD := ⟨[0, 2], [], [], [], [], [], [(0, 3)], [], []⟩ }
def Example.platformRestarted : SC ℚ :=
  { Example.wrapped with RING := [seat 1 0 0, seat 0 1 2, seat 1 1 2, seat 1 0 0], ORD := ⟨[0, 2], [], [], [], [], [], [(2, 1)], [], []⟩ }

/-- **C118 is violated** for offsets: a girder below the whole ring offsets a BPM or not, depending on where the counting starts. -/
theorem C118_violated_offset : ∃ (s t s' t' : SC ℚ), Restarted 2 s.RING s.ORD t.RING t.ORD ∧ updateSupports Example.env true true s = .ok () s' ∧
    updateSupports Example.env true true t = .ok () t' ∧ 0 ∈ s.ORD.BPM ∧ s.ORD.Girder = [(0, 3)] ∧
    s'.RING.attr 0 "SupportOffset" = some (.vec [1, 2]) ∧ t'.RING.attr (recount 4 2 0) "SupportOffset" = some (.vec [0, 0]) :=
  ⟨Example.platform, Example.platformRestarted, _, _,
    { start := by decide, length := rfl,
      attr := by
        intro k hk a
        have hk : k < 4 := hk
        interval_cases k <;> rfl
      inside := by decide, section_ := by decide, plinth := by decide, girder := by decide, magnet := by decide,
      bpm := by
        intro k hk
        have hk : k < 4 := hk
        interval_cases k <;> decide },
    ok_of_isOk (by decide +kernel), ok_of_isOk (by decide +kernel), by decide +kernel, by decide +kernel, by decide +kernel, by decide +kernel⟩

end PySC
