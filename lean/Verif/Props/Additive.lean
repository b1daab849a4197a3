import Verif.Lemmas.Additive
import Verif.Props.Restore
/-
C109: changes of set-points add up.
-/
namespace PySC
open Py Spec
set_option linter.unusedSectionVars false
variable {K : Type} [Field K] [LinearOrder K] [FloorRing K] [IsStrictOrderedRing K]

/-- **C109**: after any sequence of `add` requests none of which meets a limit, every set-point is the one before plus the sum of all
amounts asked for. -/
theorem C109_totals (l : List (Increment K)) (s s' : SC K) (hu : Unclipped l s) (h : makeAll l s = .ok () s') (i : Nat) (skew : Bool) (k : Nat) :
    setpoint s'.RING i skew k = setpoint s.RING i skew k + totalAsked s.RING l i skew k :=
  makeAll_total hu h i skew k

theorem same_state {W : Nat → String → Prop} {s s1 s2 : SC K} (f1 : Frame W s s1) (f2 : Frame W s s2) (h : s1.RING = s2.RING) : s1 = s2 := by
  obtain ⟨r1, i1, j1, g1, o1, n1⟩ := s1
  obtain ⟨r2, i2, j2, g2, o2, n2⟩ := s2
  obtain ⟨a1, a2, a3, a4, a5, -, -⟩ := f1
  obtain ⟨b1, b2, b3, b4, b5, -, -⟩ := f2
  simp only at h a1 a2 a3 a4 a5 b1 b2 b3 b4 b5
  subst h a1 a2 a3 a4 a5 b1 b2 b3 b4 b5
  rfl

/-- **C109**: two sequences of requests which ask for the same totals lead to the same machine, in every attribute of every element. -/
theorem C109_same_totals (l l' : List (Increment K)) (s s1 s2 : SC K) (hsep : Separate s) (hup : UpToDate s)
    (hu : Unclipped l s) (hu' : Unclipped l' s) (h1 : makeAll l s = .ok () s1) (h2 : makeAll l' s = .ok () s2)
    (ht : ∀ i skew k, totalAsked s.RING l i skew k = totalAsked s.RING l' i skew k) : s1 = s2 := by
  refine same_state (runTrims_frame h1) (runTrims_frame h2) ?_
  exact C72_no_hysteresis _ _ s s1 s2 hsep hup (hu.registered h1) (hu'.registered h2) h1 h2
    (fun i sk k => by rw [C109_totals l s s1 hu h1, C109_totals l' s s2 hu' h2, ht])

/-- **C109**: the order of the requests does not matter. -/
theorem C109_any_order (l l' : List (Increment K)) (hp : l.Perm l') (s s1 s2 : SC K) (hsep : Separate s) (hup : UpToDate s)
    (hu : Unclipped l s) (hu' : Unclipped l' s) (h1 : makeAll l s = .ok () s1) (h2 : makeAll l' s = .ok () s2) : s1 = s2 :=
  C109_same_totals l l' s s1 s2 hsep hup hu hu' h1 h2 (fun _ _ _ => (hp.map _).sum_eq)

/-- **C109**: changes which add up to nothing leave no trace. -/
theorem C109_undone (l : List (Increment K)) (s s' : SC K) (hsep : Separate s) (hup : UpToDate s) (hu : Unclipped l s)
    (h : makeAll l s = .ok () s') (ht : ∀ i skew k, totalAsked s.RING l i skew k = 0) : s' = s :=
  C109_same_totals l [] s s' s hsep hup hu trivial h rfl (fun i sk k => by rw [ht]; simp [totalAsked])

theorem valueFor_add {v w : List K} {n : Nat} (hl : v.length = w.length) : valueFor (List.zipWith (· + ·) v w) n = valueFor v n + valueFor w n := by
  have key : ∀ n, coef (List.zipWith (· + ·) v w) n = coef v n + coef w n := by
    intro n
    simp only [coef, List.getD_eq_getElem?_getD]
    by_cases h : n < v.length
    · have h' : n < w.length := by omega
      simp [List.getElem?_zipWith, h, h']
    · have h' : ¬ n < w.length := by omega
      simp [List.getElem?_zipWith, List.getElem?_eq_none (by omega : v.length ≤ n), List.getElem?_eq_none (by omega : w.length ≤ n)]
  simp only [valueFor, List.length_zipWith, hl, min_self, key]
  split <;> rfl

theorem valuesFor_add {ords : List Nat} {v w : List K} (hnd : ords.Nodup) (hl : v.length = w.length) (i : Nat) :
    (valuesFor ords (List.zipWith (· + ·) v w) i).sum = (valuesFor ords v i).sum + (valuesFor ords w i).sum := by
  by_cases hi : i ∈ ords
  · obtain ⟨n, hn⟩ := List.mem_iff_getElem?.1 hi
    rw [valuesFor_one hnd hn, valuesFor_one hnd hn, valuesFor_one hnd hn]
    simp [valueFor_add hl]
  · simp [valuesFor_none hi]

/-- **C109**: two changes of the same correctors, or of the same multipole of the same magnets, are as good as one change by their sum. -/
theorem C109_two_as_one (c c1 c2 : Increment K) (v w : List K) (hl : v.length = w.length)
    (hc : (∃ ords skew, c1 = .correctors ords v skew ∧ c2 = .correctors ords w skew ∧ c = .correctors ords (List.zipWith (· + ·) v w) skew) ∨
      ∃ ords skew order, c1 = .magnets ords v skew order ∧ c2 = .magnets ords w skew order ∧ c = .magnets ords (List.zipWith (· + ·) v w) skew order)
    (s s1 s2 : SC K) (hsep : Separate s) (hup : UpToDate s) (hu : Unclipped [c1, c2] s) (hu' : Unclipped [c] s)
    (h1 : makeAll [c1, c2] s = .ok () s1) (h2 : makeAll [c] s = .ok () s2) : s1 = s2 := by
  refine C109_same_totals _ _ s s1 s2 hsep hup hu hu' h1 h2 (fun i sk k => ?_)
  have hnd := hu.2.1
  rcases hc with ⟨o, skew, rfl, rfl, rfl⟩ | ⟨o, skew, order, rfl, rfl, rfl⟩
  · simp only [totalAsked, List.map_cons, List.map_nil, List.sum_cons, List.sum_nil, add_zero, Increment.amount]
    rw [valuesFor_add (show o.Nodup from hnd) hl]
    split <;> ring
  · simp only [totalAsked, List.map_cons, List.map_nil, List.sum_cons, List.sum_nil, add_zero, Increment.amount]
    rw [valuesFor_add (show o.Nodup from hnd) hl]
    split <;> ring

/-- **C109**, cavities: two sequences of `add` requests which ask for the same totals lead to the same machine. -/
theorem C109_cavities (l l' : List (RfIncrement K)) (s s1 s2 : SC K) (hup : CavitiesUpToDate s) (hs : ∀ c ∈ l, c.Sound s) (hs' : ∀ c ∈ l', c.Sound s)
    (h1 : makeAllRf l s = .ok () s1) (h2 : makeAllRf l' s = .ok () s2)
    (ht : ∀ i f, totalRf l i f = totalRf l' i f) : s1 = s2 := by
  obtain ⟨u1, f1, t1⟩ := makeAllRf_spec hs hup h1
  obtain ⟨u2, f2, t2⟩ := makeAllRf_spec hs' hup h2
  refine same_state f1 f2 (Ring.ext_attr (f1.len.trans f2.len.symm) (fun i a => ?_))
  by_cases hw : IsRfValue s i a
  · obtain ⟨hi, f, hf, ha⟩ := hw
    obtain ⟨sp, cal, off, e1, e2, e3, -⟩ := hup i hi f hf
    have k1 := t1 i hi f hf sp e1
    have k2 := t2 i hi f hf sp e1
    rw [← ht] at k2
    rcases ha with rfl | rfl
    · obtain ⟨sp1, cal1, off1, a1, a2, a3, a4⟩ := u1 i (by rwa [f1.ord]) a hf
      obtain ⟨sp2, cal2, off2, b1, b2, b3, b4⟩ := u2 i (by rwa [f2.ord]) a hf
      have keep : ∀ x, (∀ f ∈ rfProperties, x ≠ f ∧ x ≠ f ++ "SetPoint") → ¬ IsRfValue s i x := by
        rintro x hx ⟨-, f, hf, h | h⟩
        exacts [(hx f hf).1 h, (hx f hf).2 h]
      have c1 := keep (a ++ "CalError") ((by decide : ∀ a ∈ rfProperties, ∀ f ∈ rfProperties, a ++ "CalError" ≠ f ∧ a ++ "CalError" ≠ f ++ "SetPoint") a hf)
      have c2 := keep (a ++ "Offset") ((by decide : ∀ a ∈ rfProperties, ∀ f ∈ rfProperties, a ++ "Offset" ≠ f ∧ a ++ "Offset" ≠ f ++ "SetPoint") a hf)
      rw [f1.attr _ _ c1, e2] at a2
      rw [f1.attr _ _ c2, e3] at a3
      rw [f2.attr _ _ c1, e2] at b2
      rw [f2.attr _ _ c2, e3] at b3
      rw [k1] at a1; rw [k2] at b1
      cases a1; cases b1; cases a2; cases a3; cases b2; cases b3
      rw [a4, b4]
    · rw [k1, k2]
  · rw [f1.attr _ _ hw, f2.attr _ _ hw]

theorem unclipped_nil (s : SC K) : Unclipped ([] : List (Increment K)) s := trivial

theorem unclipped_correctors {o : List Nat} {v : List K} {skew : Bool} {l : List (Increment K)} {s : SC K}
    (hf : ∀ p ∈ o.zipIdx, Lim.Nonneg (kickLimit s.RING p.1 skew) ∧ Within (kickLimit s.RING p.1 skew) (valueFor v p.2 + kick s.RING p.1 skew))
    (hnd : o.Nodup) (hr : ∀ i ∈ o, i ∈ s.ORD.Magnet) (h : Unclipped l (setCMSetpoints o ⟨false, v⟩ skew "add" s).state) :
    Unclipped (.correctors o v skew :: l) s :=
  ⟨fun n i hn => hf (i, n) (List.mem_zipIdx_iff_getElem?.2 hn), hnd, hr, fun s' h' => by
    have h' : setCMSetpoints o ⟨false, v⟩ skew "add" s = .ok () s' := h'
    rw [h'] at h; exact h⟩

theorem unclipped_magnets {o : List Nat} {v : List K} {skew : Bool} {order : Nat} {l : List (Increment K)} {s : SC K}
    (hf : ∀ p ∈ o.zipIdx, skew = true ∧ order = 1 → Lim.Nonneg (skewLimit s.RING p.1) ∧
      Within (skewLimit s.RING p.1) (valueFor v p.2 + setpoint s.RING p.1 skew order))
    (hnd : o.Nodup) (hr : ∀ i ∈ o, i ∈ s.ORD.Magnet) (h : Unclipped l (setMagnetSetpoints o ⟨false, v⟩ skew order "add" false s).state) :
    Unclipped (.magnets o v skew order :: l) s :=
  ⟨fun n i hn => hf (i, n) (List.mem_zipIdx_iff_getElem?.2 hn), hnd, hr, fun s' h' => by
    have h' : setMagnetSetpoints o ⟨false, v⟩ skew order "add" false s = .ok () s' := h'
    rw [h'] at h; exact h⟩

/-- a corrector, the trim coils of a quadrupole with a child, its skew coil with a limit, and a combined function magnet -/
def Example.knobs : List (Increment ℚ) :=
  [.correctors [2, 1] [1/200, -1/1000] false, .magnets [2, 4] [1/10, -1/5] false 1, .magnets [2] [1/20] true 1, .correctors [4, 2] [1/500] false]

theorem Example.knobs_unclipped : Unclipped Example.knobs Example.upToDate :=
  unclipped_correctors (by decide +kernel) (by decide +kernel) (by decide +kernel)
    (unclipped_magnets (by decide +kernel) (by decide +kernel) (by decide +kernel)
      (unclipped_magnets (by decide +kernel) (by decide +kernel) (by decide +kernel)
        (unclipped_correctors (by decide +kernel) (by decide +kernel) (by decide +kernel) trivial)))

theorem Example.knobs_reversed : Unclipped Example.knobs.reverse Example.upToDate :=
  unclipped_correctors (by decide +kernel) (by decide +kernel) (by decide +kernel)
    (unclipped_magnets (by decide +kernel) (by decide +kernel) (by decide +kernel)
      (unclipped_magnets (by decide +kernel) (by decide +kernel) (by decide +kernel)
        (unclipped_correctors (by decide +kernel) (by decide +kernel) (by decide +kernel) trivial)))

/-- the same machine, whether the requests are made forwards or backwards -/
example : (makeAll Example.knobs Example.upToDate).state = (makeAll Example.knobs.reverse Example.upToDate).state :=
  C109_any_order Example.knobs Example.knobs.reverse (List.reverse_perm _).symm Example.upToDate _ _ Example.upToDate_separate
    Example.upToDate_upToDate Example.knobs_unclipped Example.knobs_reversed (ok_of_isOk (by decide +kernel)) (ok_of_isOk (by decide +kernel))

example : totalAsked Example.upToDate.RING Example.knobs 2 false 0 = -1/100 - 1/250 ∧
    setpoint (makeAll Example.knobs Example.upToDate).state.RING 2 false 1 = 21/10 := by decide +kernel

/-- the cavity of the example with its settings up to date -/
def Example.tuned : SC ℚ := (updateCavities none Example.sc).state

theorem Example.tuned_upToDate : CavitiesUpToDate Example.tuned := by
  intro o ho f hf
  have ho : o ∈ [5] := ho
  simp only [List.mem_cons, List.not_mem_nil, or_false] at ho hf
  subst ho
  rcases hf with rfl | rfl | rfl
  · exact ⟨1000, 1/100, 0, by decide +kernel⟩
  · exact ⟨500, 0, 3, by decide +kernel⟩
  · exact ⟨0, 0, 7, by decide +kernel⟩

example : (makeAllRf [⟨[5], [10], "Voltage"⟩, ⟨[5], [1/2], "Frequency"⟩, ⟨[5], [-4], "Voltage"⟩] Example.tuned).state =
    (makeAllRf [⟨[5], [1/2], "Frequency"⟩, ⟨[5], [6], "Voltage"⟩] Example.tuned).state := by
  refine C109_cavities [⟨[5], [10], "Voltage"⟩, ⟨[5], [1/2], "Frequency"⟩, ⟨[5], [-4], "Voltage"⟩] [⟨[5], [1/2], "Frequency"⟩, ⟨[5], [6], "Voltage"⟩]
    Example.tuned _ _ Example.tuned_upToDate ?_ ?_ (ok_of_isOk (by decide +kernel)) (ok_of_isOk (by decide +kernel)) ?_
  · intro c hc
    simp only [List.mem_cons, List.not_mem_nil, or_false] at hc
    rcases hc with rfl | rfl | rfl <;> exact ⟨by decide, by decide +kernel, by decide⟩
  · intro c hc
    simp only [List.mem_cons, List.not_mem_nil, or_false] at hc
    rcases hc with rfl | rfl <;> exact ⟨by decide, by decide +kernel, by decide⟩
  · intro i f
    by_cases hi : i = 5
    · subst hi
      simp only [totalRf, List.map_cons, List.map_nil, List.sum_cons, List.sum_nil,
        show valuesFor [5] [(10 : ℚ)] 5 = [10] by decide +kernel, show valuesFor [5] [(1/2 : ℚ)] 5 = [1/2] by decide +kernel,
        show valuesFor [5] [(-4 : ℚ)] 5 = [-4] by decide +kernel, show valuesFor [5] [(6 : ℚ)] 5 = [6] by decide +kernel]
      by_cases h1 : "Voltage" = f
      · subst h1; simp only [String.reduceEq, if_true, if_false]; norm_num
      · by_cases h2 : "Frequency" = f
        · subst h2; simp only [String.reduceEq, if_true, if_false]; norm_num
        · simp [h1, h2]
    · have h : ∀ v : List ℚ, valuesFor [5] v i = [] := fun v => valuesFor_none (by simpa using hi)
      simp [totalRf, h]

example : (makeAllRf [⟨[5], [10], "Voltage"⟩, ⟨[5], [1/2], "Frequency"⟩, ⟨[5], [-4], "Voltage"⟩] Example.tuned).state.RING.attr 5 "Voltage" =
    some (.num (1006 * (101/100))) := by decide +kernel

/-- **C109**: limits make the difference: a change that is cut off is not made up for later. -/
theorem C109_limits_matter : ∃ (l l' : List (Increment ℚ)) (s s1 s2 : SC ℚ), l.Perm l' ∧ Separate s ∧ UpToDate s ∧ Unclipped l s ∧
    makeAll l s = .ok () s1 ∧ makeAll l' s = .ok () s2 ∧ kick s1.RING 1 false = kick s.RING 1 false ∧ kick s2.RING 1 false ≠ kick s.RING 1 false := by
  refine ⟨[.correctors [1] [-3/1000] false, .correctors [1] [3/1000] false], [.correctors [1] [3/1000] false, .correctors [1] [-3/1000] false],
    Example.upToDate, (makeAll [.correctors [1] [-3/1000] false, .correctors [1] [3/1000] false] Example.upToDate).state,
    (makeAll [.correctors [1] [3/1000] false, .correctors [1] [-3/1000] false] Example.upToDate).state, List.Perm.swap _ _ _,
    Example.upToDate_separate, Example.upToDate_upToDate, ?_, ok_of_isOk (by decide +kernel), ok_of_isOk (by decide +kernel), by decide +kernel, by decide +kernel⟩
  exact unclipped_correctors (by decide +kernel) (by decide +kernel) (by decide +kernel)
    (unclipped_correctors (by decide +kernel) (by decide +kernel) (by decide +kernel) trivial)

end PySC
