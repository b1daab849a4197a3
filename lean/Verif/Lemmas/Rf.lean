import Verif.Lemmas.Fit
import Verif.Lemmas.Orbit
import Verif.Lemmas.Register
/-
RF corrections.
-/
namespace PySC
open Py Spec
set_option linter.unusedSectionVars false
variable {K : Type} [Field K] [LinearOrder K] [FloorRing K]

/-! ### phases -/

theorem foldPhase_eq_ok {x lam y : K} (h : foldPhase x lam = .ok y) :
    lam ≠ 0 ∧ y = (if lam / 2 < |x - lam * (⌊x / lam⌋ : K)| then x - lam * (⌊x / lam⌋ : K) - lam * npSign (x - lam * (⌊x / lam⌋ : K))
      else x - lam * (⌊x / lam⌋ : K)) := by
  unfold foldPhase npRemainder at h
  by_cases h0 : lam = 0
  · rw [if_pos h0] at h; cases h
  · rw [if_neg h0] at h
    simp only [Except.bind_eq_ok', Except.ok.injEq] at h
    obtain ⟨d, rfl, rfl⟩ := h
    exact ⟨h0, rfl⟩

theorem foldPhase_ok {x lam : K} (h : lam ≠ 0) : ∃ y, foldPhase x lam = .ok y := by
  unfold foldPhase npRemainder
  rw [if_neg h]
  exact ⟨_, rfl⟩

theorem foldPhase_range [IsStrictOrderedRing K] {x lam y : K} (hl : 0 < lam) (h : foldPhase x lam = .ok y) :
    -(lam / 2) < y ∧ y ≤ lam / 2 ∧ SamePhase lam x y := by
  obtain ⟨-, rfl⟩ := foldPhase_eq_ok h
  have h1 : lam * (⌊x / lam⌋ : K) ≤ x := by
    have := Int.floor_le (x / lam)
    rw [le_div_iff₀ hl] at this; linarith
  have h2 : x < lam * (⌊x / lam⌋ : K) + lam := by
    have := Int.lt_floor_add_one (x / lam)
    rw [div_lt_iff₀ hl] at this; linarith
  have hd : |x - lam * (⌊x / lam⌋ : K)| = x - lam * (⌊x / lam⌋ : K) := abs_of_nonneg (by linarith)
  rw [hd]
  split
  · rename_i hgt
    have hpos : 0 < x - lam * (⌊x / lam⌋ : K) := lt_trans (by linarith) hgt
    have hs : npSign (x - lam * (⌊x / lam⌋ : K)) = 1 := by
      unfold npSign; rw [if_neg (by linarith), if_pos hpos]
    rw [hs]
    exact ⟨by linarith, by linarith, ⌊x / lam⌋ + 1, by push_cast; ring⟩
  · rename_i hgt
    exact ⟨by linarith, by linarith, ⌊x / lam⌋, by ring⟩

/-- there is only one representative of a phase in the interval -/
theorem SamePhase.eq [IsStrictOrderedRing K] {lam x y : K} (hl : 0 < lam) (h : SamePhase lam x y) (hx : -(lam / 2) < x ∧ x ≤ lam / 2)
    (hy : -(lam / 2) < y ∧ y ≤ lam / 2) : x = y := by
  obtain ⟨k, hk⟩ := h
  have h1 : (k : K) * lam < 1 * lam := by rw [← hk]; linarith
  have h2 : (-1 : K) * lam < (k : K) * lam := by rw [← hk]; linarith
  have h3 := lt_of_mul_lt_mul_right h1 hl.le
  have h4 := lt_of_mul_lt_mul_right h2 hl.le
  have h5 : k < 1 := by exact_mod_cast h3
  have h6 : -1 < k := by exact_mod_cast h4
  have : k = 0 := by omega
  subst this
  simp at hk
  linarith

/-! ### shifting the set-points of cavities -/

theorem linspace_eq [IsStrictOrderedRing K] (a b : K) (n : Nat) (hn : 0 < n) : linspace a b n = scanValues a b n := by
  unfold linspace scanValues
  refine List.map_congr_left (fun k _ => ?_)
  have : ((n - 1 : Nat) : K) = (n : K) - 1 := by
    rw [Nat.cast_sub (by omega)]; simp
  rw [this]; ring

theorem rfField_mem {f : String} : f ∈ rfProperties ↔ f ∈ ["Voltage", "Frequency", "TimeLag"] := by simp [rfProperties]

theorem field_append_ne {f g part part' : String} (hf : f ∈ ["Voltage", "Frequency", "TimeLag"])
    (hg : g ∈ ["Voltage", "Frequency", "TimeLag"]) (hp : part ∈ ["CalError", "Offset"]) : f ++ part ≠ g ++ "SetPoint" := by
  simp only [List.mem_cons, List.not_mem_nil, or_false] at hf hg hp
  rcases hf with rfl | rfl | rfl <;> rcases hg with rfl | rfl | rfl <;> rcases hp with rfl | rfl <;> decide

theorem field_part_not_mem {f part : String} (hf : f ∈ ["Voltage", "Frequency", "TimeLag"])
    (hp : part ∈ ["SetPoint", "CalError", "Offset"]) : f ++ part ∉ ["Voltage", "Frequency", "TimeLag"] := by
  simp only [List.mem_cons, List.not_mem_nil, or_false] at hf hp
  rcases hf with rfl | rfl | rfl <;> rcases hp with rfl | rfl | rfl <;> decide

theorem Spec.CavityReady.numAt {r : Ring K} {i : Nat} (h : CavityReady r i) {f part : String}
    (hf : f ∈ ["Voltage", "Frequency", "TimeLag"]) (hp : part ∈ ["SetPoint", "CalError", "Offset"]) :
    r.attr i (f ++ part) = some (.num (numAt r i (f ++ part))) := by
  obtain ⟨x, hx⟩ := h f hf part hp
  rw [hx, numAt_of_attr hx]

theorem updateCavities_total {l : List Nat} {s : SC K} (h : ∀ i ∈ l, CavityReady s.RING i) :
    ∃ s', updateCavities (some l) s = .ok () s' := by
  have hW : ∃ W, loopWrites cavityWrites l s.RING = .ok W := by
    refine loopWrites_progress (fun i hi => ?_)
    have hr := h i hi
    have hlt : i < s.RING.length := Ring.attr_some_lt (hr.numAt (f := "Voltage") (part := "SetPoint") (by simp) (by simp))
    have hx : ∀ f ∈ ["Voltage", "Frequency", "TimeLag"], ∃ x, cavityField s.RING i f = .ok x := by
      intro f hf
      unfold cavityField
      rw [Ring.getNum_eq_ok.2 (hr.numAt hf (part := "SetPoint") (by simp)), Ring.getNum_eq_ok.2 (hr.numAt hf (part := "CalError") (by simp)),
        Ring.getNum_eq_ok.2 (hr.numAt hf (part := "Offset") (by simp))]
      exact ⟨_, rfl⟩
    obtain ⟨x1, h1⟩ := hx "Voltage" (by simp)
    obtain ⟨x2, h2⟩ := hx "Frequency" (by simp)
    obtain ⟨x3, h3⟩ := hx "TimeLag" (by simp)
    exact ⟨[(i, "Voltage", .num x1), (i, "Frequency", .num x2), (i, "TimeLag", .num x3)], by
      simp [cavityWrites, cavityFieldWrites, h1, h2, h3, Ring.valid, hlt]⟩
  obtain ⟨W, hW⟩ := hW
  exact ⟨_, ((updateCavities_writer l).ok _ _ _).2 ⟨W, hW, rfl⟩⟩

theorem setCavity_total {l : List Nat} {s : SC K} (h : ∀ i ∈ l, CavityReady s.RING i) {field : String}
    (hf : field ∈ ["Voltage", "Frequency", "TimeLag"]) (d : K) :
    ∃ s', setCavitySetpoints l ⟨false, [d]⟩ field "add" s = .ok () s' := by
  have hreq : ∃ v, cavityRequest s.RING l ⟨false, [d]⟩ field "add" = .ok ⟨false, v⟩ := by
    unfold cavityRequest checkInput
    simp only [settingMethods]
    rw [if_neg (by simp), if_neg (by simp), if_pos (by simp)]
    have : l.mapM (fun o => s.RING.getNum o (field ++ "SetPoint")) = .ok (l.map (fun o => numAt s.RING o (field ++ "SetPoint"))) :=
      mapM_except_ok (fun i hi => Ring.getNum_eq_ok.2 ((h i hi).numAt hf (by simp)))
    simp only [String.reduceEq, if_false, if_true]
    show ∃ v, ((l.mapM (fun o => s.RING.getNum o (field ++ "SetPoint"))) >>= _) = _
    rw [this]
    exact ⟨_, rfl⟩
  obtain ⟨v, hv⟩ := hreq
  have hloop : ∃ s1, forEach (l.zip v) (fun p => setAttr p.1 (field ++ "SetPoint") (.num p.2)) s = .ok () s1 ∧
      ∀ i ∈ l, CavityReady s1.RING i := by
    refine forEach_progress (I := fun (t : SC K) => ∀ i ∈ l, CavityReady t.RING i) (fun p hp t ht => ?_) h
    have hmem : p.1 ∈ l := (List.of_mem_zip (a := p.1) (b := p.2) hp).1
    have hlt : p.1 < t.RING.length := Ring.attr_some_lt ((ht _ hmem).numAt (f := "Voltage") (part := "SetPoint") (by simp) (by simp))
    refine ⟨_, setAttr_eq_ok.2 ⟨hlt, rfl⟩, fun i hi g hg part hpart => ?_⟩
    simp only
    by_cases hip : i = p.1
    · subst hip
      by_cases ha : g ++ part = field ++ "SetPoint"
      · rw [ha, Ring.attr_setAttr_same hlt]; exact ⟨_, rfl⟩
      · rw [Ring.attr_setAttr_ne ha]; exact ht p.1 hi g hg part hpart
    · rw [Ring.attr_setAttr_ne' hip]; exact ht i hi g hg part hpart
  obtain ⟨s1, h1, hr⟩ := hloop
  obtain ⟨s2, h2⟩ := updateCavities_total hr
  refine ⟨s2, ?_⟩
  simp only [setCavitySetpoints, bind_eq_ok, rd_eq_ok]
  exact ⟨_, _, ⟨hv, rfl⟩, _, _, h1, h2⟩


theorem Spec.Shifted.refl (cavs : List Nat) (field : String) (s : SC K) : Shifted cavs field 0 s s :=
  ⟨fun _ _ => by simp, fun _ _ h => h, DrawFrame.refl s⟩

theorem Spec.Shifted.trans {cavs : List Nat} {field : String} {c d : K} {s s1 s2 : SC K} (h1 : Shifted cavs field c s s1)
    (h2 : Shifted cavs field d s1 s2) : Shifted cavs field (c + d) s s2 :=
  ⟨fun i hi => by rw [h2.setpoint i hi, h1.setpoint i hi]; ring, fun i hi h => h2.realised i hi (h1.realised i hi h),
    DrawFrame.trans _ _ _ h1.rest h2.rest⟩

theorem OnlyRng.shifted {s s' : SC K} (h : OnlyRng s s') (cavs : List Nat) (field : String) : Shifted cavs field 0 s s' := by
  have e : s'.RING = s.RING := by rw [h.1]
  refine ⟨fun _ _ => by rw [e]; simp, fun _ _ h => by rw [e]; exact h, ?_⟩
  rw [h.1]
  exact ⟨rfl, rfl, rfl, rfl, rfl, fun _ _ _ => rfl⟩

theorem setCavity_shifted {l : List Nat} {s s' : SC K} {field : String} {u : Unit}
    (hf : field ∈ ["Voltage", "Frequency", "TimeLag"]) {d : K} {isInt : Bool}
    (h : setCavitySetpoints l ⟨isInt, [d]⟩ field "add" s = .ok u s') (hr : ∀ i ∈ l, CavityReady s.RING i) :
    Shifted l field d s s' ∧ ∀ i ∈ l, CavityReady s'.RING i := by
  have hfr := (setCavitySetpoints_modifies l ⟨isInt, [d]⟩ field "add").ok h
  have hset : ∀ i ∈ l, s'.RING.attr i (field ++ "SetPoint") = some (.num (numAt s.RING i (field ++ "SetPoint") + d)) := by
    intro i hi
    obtain ⟨k, hk⟩ := exists_lastAt l hi
    have := setCavitySetpoints_value h hk
    rw [this]
    simp [asked, valueFor, coef, add_comm]
  have hkeep : ∀ i, ∀ a, a ≠ field ++ "SetPoint" → a ∉ ["Voltage", "Frequency", "TimeLag"] → s'.RING.attr i a = s.RING.attr i a := by
    intro i a h1 h2
    refine hfr.attr i a (fun hh => ?_)
    rcases hh.2 with h3 | h3
    · exact h1 h3
    · exact h2 (rfField_mem.1 h3)
  have hready : ∀ i ∈ l, CavityReady s'.RING i := by
    intro i hi g hg part hp
    by_cases ha : g ++ part = field ++ "SetPoint"
    · rw [ha, hset i hi]; exact ⟨_, rfl⟩
    · rw [hkeep i _ ha (field_part_not_mem hg hp)]; exact hr i hi g hg part hp
  refine ⟨⟨fun i hi => numAt_of_attr (hset i hi), fun i hi _ g hg => ?_, ⟨hfr.ideal, hfr.inj, hfr.sig, hfr.ord, hfr.len, fun i a hh => hfr.attr i a hh⟩⟩, hready⟩
  obtain ⟨sps, s1, -, -, h3⟩ := setCavitySetpoints_eq_ok h
  obtain ⟨x, hx, hs'⟩ := updateCavities_field h3 hi (rfField_mem.2 hg)
  have hframe := (updateCavities_modifies _).ok h3
  simp only [cavityField, Except.bind_eq_ok', Ring.getNum_eq_ok, Except.ok.injEq] at hx
  obtain ⟨a, ha, b, hb, c, hc, rfl⟩ := hx
  have keep : ∀ part ∈ ["SetPoint", "CalError", "Offset"], s'.RING.attr i (g ++ part) = s1.RING.attr i (g ++ part) := by
    intro part hp
    exact hframe.attr _ _ (fun hh => field_part_not_mem hg hp (rfField_mem.1 hh.2))
  rw [hs', numAt_of_attr ((keep _ (by simp)).trans ha), numAt_of_attr ((keep _ (by simp)).trans hb),
    numAt_of_attr ((keep _ (by simp)).trans hc)]

theorem Spec.CavityReady.onlyRng {l : List Nat} {s s' : SC K} (h : OnlyRng s s') (hr : ∀ i ∈ l, CavityReady s.RING i) :
    ∀ i ∈ l, CavityReady s'.RING i := by
  have e : s'.RING = s.RING := by rw [h.1]
  rw [e]; exact hr

theorem tbtEnergyShift_onlyRng (E : Env K) (B : BeamEnv K) (bpms : List Nat) : Rel OnlyRng (tbtEnergyShift E B bpms) := by
  unfold tbtEnergyShift
  refine Rels.bind Rels.get (fun s => Rels.bind (bpmReading_onlyRng E B _ _) (fun r => ?_))
  refine Rels.ite (Rels.throw _) (Rels.ite (Rels.pure' _) ?_)
  refine Rels.bind (Rels.lift _) (fun pts => Rels.bind (Rels.lift _) (fun f => ?_))
  split
  · exact Rels.throw _
  · exact Rels.pure' _

/-! ### scans -/

theorem scanStep_cases (E : Env K) (B : BeamEnv K) {cavs : List Nat} (bpms : List Nat) {field : String} (v : K) {s0 s : SC K}
    (hf : field ∈ ["Voltage", "Frequency", "TimeLag"]) (h0 : Shifted cavs field 0 s0 s) (hr : ∀ i ∈ cavs, CavityReady s.RING i) :
    (∃ m s', scanStep E B cavs bpms field v s = .ok m s' ∧ Shifted cavs field 0 s0 s' ∧ (∀ i ∈ cavs, CavityReady s'.RING i) ∧
      MeasuredAt E B cavs bpms field s0 v m) ∨
    ∃ e s', scanStep E B cavs bpms field v s = .error e s' ∧ StoppedAt E B cavs bpms field s0 v e s' := by
  obtain ⟨s1, h1⟩ := setCavity_total hr hf v
  obtain ⟨hs1, hr1⟩ := setCavity_shifted hf h1 hr
  have h01 : Shifted cavs field v s0 s1 := by simpa using h0.trans hs1
  have hstep : scanStep E B cavs bpms field v s = (tbtEnergyShift E B bpms >>= fun m =>
      setCavitySetpoints cavs ⟨false, [-v]⟩ field "add" >>= fun _ => Py.pure m) s1 := by
    unfold scanStep
    rw [bind_apply, h1]
  rw [hstep]
  cases hm : tbtEnergyShift E B bpms s1 with
  | error e s2 =>
    refine Or.inr ⟨e, s2, ?_, s1, h01, hm, ?_⟩
    · rw [bind_apply, hm]
    · simpa using h01.trans (((tbtEnergyShift_onlyRng E B bpms).error hm).shifted cavs field)
  | ok m s2 =>
    have hrng := (tbtEnergyShift_onlyRng E B bpms).ok hm
    have hr2 := Spec.CavityReady.onlyRng hrng hr1
    obtain ⟨s3, h3⟩ := setCavity_total hr2 hf (-v)
    obtain ⟨hs3, hr3⟩ := setCavity_shifted hf h3 hr2
    refine Or.inl ⟨m, s3, ?_, ?_, hr3, s1, s2, h01, hm⟩
    · rw [bind_apply, hm]
      simp only
      rw [bind_apply, h3]; rfl
    · simpa using (h01.trans (hrng.shifted cavs field)).trans hs3

theorem scan_cases (E : Env K) (B : BeamEnv K) {cavs : List Nat} (bpms : List Nat) {field : String} (vals : List K) {s0 s : SC K}
    (hf : field ∈ ["Voltage", "Frequency", "TimeLag"]) (h0 : Shifted cavs field 0 s0 s) (hr : ∀ i ∈ cavs, CavityReady s.RING i) :
    (∃ meas s', mapEach vals (scanStep E B cavs bpms field) s = .ok meas s' ∧ Shifted cavs field 0 s0 s' ∧
      (∀ i ∈ cavs, CavityReady s'.RING i) ∧ List.Forall₂ (MeasuredAt E B cavs bpms field s0) vals meas) ∨
    ∃ e s', mapEach vals (scanStep E B cavs bpms field) s = .error e s' ∧ ∃ v ∈ vals, StoppedAt E B cavs bpms field s0 v e s' := by
  induction vals generalizing s with
  | nil => exact Or.inl ⟨[], s, rfl, h0, hr, List.Forall₂.nil⟩
  | cons v vs ih =>
    rw [mapEach_cons, bind_apply]
    rcases scanStep_cases E B bpms v hf h0 hr with ⟨m, s1, h1, hs1, hr1, hm⟩ | ⟨e, s1, h1, hst⟩
    · rw [h1]
      simp only
      rw [bind_apply]
      rcases ih hs1 hr1 with ⟨meas, s2, h2, hs2, hr2, hms⟩ | ⟨e, s2, h2, w, hw, hst⟩
      · rw [h2]
        exact Or.inl ⟨m :: meas, s2, rfl, hs2, hr2, List.Forall₂.cons hm hms⟩
      · rw [h2]
        exact Or.inr ⟨e, s2, rfl, w, by simp [hw], hst⟩
    · rw [h1]
      exact Or.inr ⟨e, s1, rfl, v, by simp, hst⟩


section TbT
variable {K : Type} [Field K] [LinearOrder K]

theorem filterMap_id_map {α : Type} [Zero α] {l : List (Option α)} (h : ∀ x ∈ l, x.isSome = true) :
    l.filterMap id = l.map (fun x => x.getD 0) := by
  induction l with
  | nil => rfl
  | cons a l ih =>
    cases a with
    | none => have := h none (by simp); simp at this
    | some a =>
      rw [List.map_cons, ← ih (fun x hx => h x (by simp [hx]))]; rfl

theorem npMean_range (n : Nat) (f : Nat → Option K) :
    npMean ((List.range n).map f) =
      if decide (0 < n) && (List.range n).all (fun b => (f b).isSome) then some (average n (fun b => (f b).getD 0)) else none := by
  unfold npMean
  by_cases h : (decide (0 < n) && (List.range n).all (fun b => (f b).isSome)) = true
  · rw [if_pos h]
    simp only [Bool.and_eq_true, decide_eq_true_eq, List.all_eq_true, List.mem_range] at h
    have hs : ∀ x ∈ (List.range n).map f, x.isSome = true := by
      intro x hx
      obtain ⟨b, hb, rfl⟩ := List.mem_map.1 hx
      exact h.2 b (List.mem_range.1 hb)
    rw [if_neg, filterMap_id_map hs]
    · simp [average, Function.comp_def]
    · simp only [Bool.or_eq_true, List.isEmpty_iff, List.any_eq_true, not_or, not_exists, not_and]
      refine ⟨?_, fun x hx => by rw [Option.isNone_iff_eq_none]; intro he; subst he; simpa using hs _ hx⟩
      intro he
      have := congrArg List.length he
      simp at this; omega
  · rw [if_neg h]
    rw [if_pos]
    simp only [Bool.and_eq_true, decide_eq_true_eq, List.all_eq_true, List.mem_range, not_and, not_forall] at h
    simp only [Bool.or_eq_true, List.isEmpty_iff, List.any_eq_true]
    by_cases hn : 0 < n
    · obtain ⟨b, hb, hf⟩ := h hn
      exact Or.inr ⟨f b, List.mem_map.2 ⟨b, List.mem_range.2 hb, rfl⟩, by simpa using hf⟩
    · left
      have : n = 0 := by omega
      subst this; rfl

theorem meanShift_eq (v : List (Option K)) (nb t : Nat) :
    meanShift v nb t = if seenByAll v nb t && seenByAll v nb 0 then some (driftAt v nb t) else none := by
  unfold meanShift
  rw [npMean_range]
  have hcond : (decide (0 < nb) && (List.range nb).all (fun b =>
      (nanSub (v.getD (t * nb + b) none) (v.getD b none)).isSome)) = (seenByAll v nb t && seenByAll v nb 0) := by
    rw [Bool.eq_iff_iff]
    simp only [seenByAll, readingAt, Nat.zero_mul, Nat.zero_add, Bool.and_eq_true, decide_eq_true_eq, List.all_eq_true, List.mem_range]
    constructor
    · rintro ⟨h1, h2⟩
      refine ⟨⟨h1, fun b hb => ?_⟩, h1, fun b hb => ?_⟩
      all_goals
        have := h2 b hb
        cases ha : v.getD (t * nb + b) none <;> cases hc : v.getD b none <;> rw [ha, hc] at this <;> simp [nanSub] at this ⊢
    · rintro ⟨⟨h1, h2⟩, -, h3⟩
      refine ⟨h1, fun b hb => ?_⟩
      have a1 := h2 b hb
      have a2 := h3 b hb
      cases ha : v.getD (t * nb + b) none <;> cases hc : v.getD b none <;> rw [ha] at a1 <;> rw [hc] at a2 <;> simp_all [nanSub]
  rw [hcond]
  by_cases h : (seenByAll v nb t && seenByAll v nb 0) = true
  · rw [if_pos h, if_pos h]
    simp only [seenByAll, readingAt, Nat.zero_mul, Nat.zero_add, Bool.and_eq_true, decide_eq_true_eq, List.all_eq_true, List.mem_range] at h
    congr 1
    unfold driftAt average
    congr 2
    refine List.map_congr_left (fun b hb => ?_)
    have a1 := h.1.2 b (List.mem_range.1 hb)
    have a2 := h.2.2 b (List.mem_range.1 hb)
    simp only [readingAt, Nat.zero_mul, Nat.zero_add]
    cases ha : v.getD (t * nb + b) none <;> cases hc : v.getD b none <;> rw [ha] at a1 <;> rw [hc] at a2 <;> simp_all [nanSub]
  · rw [if_neg h, if_neg h]

theorem meanShiftErr_eq_some {B : BeamEnv K} {v : List (Option K)} {nb t : Nat} {e : K} (h : meanShiftErr B v nb t = some e) :
    ∃ sd q, B.sqrt (spreadAt v nb t) = some sd ∧ B.sqrt (nb : K) = some q ∧ e = sd / q := by
  unfold meanShiftErr at h
  simp only [Option.bind_eq_bind, Option.bind_eq_some_iff] at h
  obtain ⟨m, hm, var, hvar, sd, hsd, q, hq, h⟩ := h
  rw [npMean_range] at hm
  split at hm
  · cases hm
    rw [List.map_map, npMean_range] at hvar
    split at hvar
    · cases hvar
      split at h
      · cases h
      · cases h
        refine ⟨sd, q, ?_, hq, rfl⟩
        rename_i hs _ _
        rw [← hsd]
        congr 1
        unfold spreadAt average
        congr 2
        refine List.map_congr_left (fun b hb => ?_)
        simp only [Bool.and_eq_true, decide_eq_true_eq, List.all_eq_true] at hs
        have := hs.2 b hb
        simp only [readingAt, Function.comp]
        cases ha : v.getD (t * nb + b) none
        · rw [ha] at this; simp at this
        · simp [average]
    · cases hvar
  · cases hm

end TbT

end PySC
