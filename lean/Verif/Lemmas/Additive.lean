import Verif.Spec.Additive
import Verif.Lemmas.Restore
/-
Requests which add to set-points.
-/
namespace PySC
open Py Spec
set_option linter.unusedSectionVars false
variable {K : Type} [Field K] [LinearOrder K] [FloorRing K] [IsStrictOrderedRing K]

theorem clip_fits {l : Lim K} {x : K} (hl : Lim.Nonneg l) (h : Within l x) : clip l x = x := by
  cases l with
  | inf => rfl
  | fin l =>
    have hw : |x| ≤ |l| := h
    rw [abs_of_nonneg hl, abs_le] at hw
    simp only [clip]
    rw [min_eq_left hw.2, max_eq_right hw.1]

theorem valuesFor_none {ords : List Nat} {vals : List K} {o : Nat} (h : o ∉ ords) : valuesFor ords vals o = [] := by
  unfold valuesFor
  rw [List.map_eq_nil_iff, List.filter_eq_nil_iff]
  rintro ⟨a, b⟩ hp hh
  simp only [decide_eq_true_eq] at hh
  exact h (hh ▸ (List.of_mem_zip hp).1)

theorem valuesFor_one {ords : List Nat} {vals : List K} {o k : Nat} (hnd : ords.Nodup) (hk : ords[k]? = some o) :
    valuesFor ords vals o = [valueFor vals k] := by
  unfold valuesFor
  have hlt : k < ords.length := (List.getElem?_eq_some_iff.1 hk).1
  have hmem : (o, valueFor vals k) ∈ ords.zip ((List.range ords.length).map (valueFor vals)) := by
    rw [List.mem_iff_getElem?]
    refine ⟨k, ?_⟩
    rw [List.getElem?_zip_eq_some]
    exact ⟨hk, by simp [hlt]⟩
  rw [filter_fst_eq (p := (o, valueFor vals k)) (by rw [List.map_fst_zip (by simp)]; exact hnd) hmem]
  rfl

theorem lastAt_of_nodup {ords : List Nat} {k o : Nat} (hnd : ords.Nodup) (hk : ords[k]? = some o) : LastAt ords k o := by
  refine ⟨hk, fun j hj h => ?_⟩
  have h1 := (List.getElem?_eq_some_iff.1 hk)
  have h2 := (List.getElem?_eq_some_iff.1 h)
  obtain ⟨l1, e1⟩ := h1
  obtain ⟨l2, e2⟩ := h2
  have := (List.Nodup.getElem_inj_iff hnd).1 (e1.trans e2.symm)
  omega

/-- one request adds its amount -/
theorem increment_amount {c : Increment K} {s s' : SC K} (hf : c.Fits s.RING) (hnd : c.call.ords.Nodup)
    (h : c.call.run s = .ok () s') (i : Nat) (sk : Bool) (k : Nat) :
    setpoint s'.RING i sk k = setpoint s.RING i sk k + c.amount s.RING i sk k := by
  cases c with
  | correctors o v skew =>
    have h : setCMSetpoints o ⟨false, v⟩ skew "add" s = .ok () s' := h
    have hs : s' = (setCMSetpoints o ⟨false, v⟩ skew "add" s).state := by rw [h]; rfl
    have hno : o.Nodup := hnd
    by_cases hc : i ∈ o ∧ sk = skew ∧ k = 0
    · obtain ⟨hi, rfl, rfl⟩ := hc
      obtain ⟨n, hn⟩ := List.mem_iff_getElem?.1 hi
      obtain ⟨h0, -⟩ := setCMSetpoints_factor h hi
      have hk := setCMSetpoints_kick_distinct h hno hn
      obtain ⟨hl, hw⟩ := hf n i hn
      rw [nextKick_float hl] at hk
      simp only [asked, String.reduceEq, if_false, if_true] at hk
      rw [clip_fits hl hw] at hk
      have hfac : kickFactor s'.RING i sk = kickFactor s.RING i sk := by
        have f := (setCMSetpoints_modifies o ⟨false, v⟩ sk "add").ok h
        have e : ∀ a, a ∉ spNames → a ∉ magnetWrites → s'.RING.attr i a = s.RING.attr i a := fun a h1 h2 =>
          f.attr _ _ (by
            rintro (⟨-, h⟩ | h)
            · exact ne_setPoint h1 _ h
            · exact h2 h)
        exact kickFactor_congr (e _ (by simp [spNames]) (by simp [magnetWrites]))
          (e _ (by simp [spNames]) (by simp [magnetWrites]))
      unfold kick at hk
      rw [hfac] at hk
      simp only [Increment.amount, and_self, if_true, valuesFor_one hno hn, List.sum_singleton]
      field_simp
      rw [hk]; ring
    · have e : setpoint s'.RING i sk k = setpoint s.RING i sk k := by
        rw [hs]
        by_cases hk : k = 0
        · have f := setCMSetpoints_modifies o ⟨false, v⟩ skew "add" s
          refine setpoint_congr (f.attr _ _ ?_)
          rintro (⟨h1, h2⟩ | h)
          · exact hc ⟨h1, plane_inj.1 h2, hk⟩
          · cases sk <;> simp [plane, magnetWrites] at h
        · exact setCMSetpoints_setpoint s i sk k hk
      rw [e]
      simp only [Increment.amount]
      split
      · rename_i h2
        rw [valuesFor_none (fun hi => hc ⟨hi, h2⟩)]; simp
      · simp
  | magnets o v skew order =>
    have h : setMagnetSetpoints o ⟨false, v⟩ skew order "add" false s = .ok () s' := h
    have hno : o.Nodup := hnd
    by_cases hc : i ∈ o ∧ sk = skew ∧ k = order
    · obtain ⟨hi, rfl, rfl⟩ := hc
      obtain ⟨n, hn⟩ := List.mem_iff_getElem?.1 hi
      rw [setMagnetSetpoints_setpoint h (lastAt_of_nodup hno hn)]
      simp only [Increment.amount, and_self, if_true, valuesFor_one hno hn, List.sum_singleton, magnetAsked, asked, String.reduceEq, if_false]
      split
      · rename_i h2
        obtain ⟨hl, hw⟩ := hf n i hn h2
        rw [skewClipped_eq_clip hl, clip_fits hl hw]; ring
      · ring
    · rw [setMagnetSetpoints_other h i sk k (Or.inr (Or.inl rfl)) (by tauto)]
      simp only [Increment.amount]
      split
      · rename_i h2
        rw [valuesFor_none (fun hi => hc ⟨hi, h2⟩)]; simp
      · simp

theorem amount_congr {r r' : Ring K} (h : ∀ i sk, kickFactor r' i sk = kickFactor r i sk) (c : Increment K) (i : Nat) (sk : Bool) (k : Nat) :
    c.amount r' i sk k = c.amount r i sk k := by
  cases c <;> simp [Increment.amount, h]

/-- what no set-point call changes -/
theorem trim_frame {c : Trim K} {s s' : SC K} (h : c.run s = .ok () s') :
    Frame (fun _ a => a ∈ spNames ++ magnetWrites) s s' := by
  cases c with
  | cm o v sk m =>
    refine ((setCMSetpoints_modifies o v sk m).ok h).mono (fun i a hh => ?_)
    rcases hh with ⟨-, rfl⟩ | hh
    · exact List.mem_append_left _ (plane_mem _)
    · exact List.mem_append_right _ hh
  | magnet o v sk k m d =>
    refine ((setMagnetSetpoints_modifies o v sk k m d).ok h).mono (fun i a hh => ?_)
    rcases hh with ⟨-, rfl | ⟨-, -, rfl⟩⟩ | hh
    · exact List.mem_append_left _ (plane_mem _)
    · simp [spNames]
    · exact List.mem_append_right _ hh
  | update o =>
    exact ((updateMagnets_modifies (some o)).ok h).mono (fun i a hh => List.mem_append_right _ hh)

theorem runTrims_frame {l : List (Trim K)} {s s' : SC K} {u : Unit} (h : runTrims l s = .ok u s') :
    Frame (fun _ a => a ∈ spNames ++ magnetWrites) s s' := by
  induction l generalizing s with
  | nil => cases h; exact Frame.refl _
  | cons c l ih =>
    unfold runTrims at h ih
    rw [forEach_cons, bind_eq_ok] at h
    obtain ⟨_, s1, h1, h2⟩ := h
    exact Frame.trans _ _ _ (trim_frame h1) (ih h2)

theorem makeAll_cons {c : Increment K} {l : List (Increment K)} {s s' : SC K} {u : Unit} :
    makeAll (c :: l) s = .ok u s' ↔ ∃ s1, c.call.run s = .ok () s1 ∧ makeAll l s1 = .ok u s' := by
  unfold makeAll runTrims
  rw [List.map_cons, forEach_cons, bind_eq_ok]
  constructor
  · rintro ⟨_, s1, h1, h2⟩; exact ⟨s1, h1, h2⟩
  · rintro ⟨s1, h1, h2⟩; exact ⟨(), s1, h1, h2⟩

theorem Spec.Unclipped.registered {l : List (Increment K)} {s s' : SC K} (hu : Unclipped l s) (h : makeAll l s = .ok () s') :
    ∀ c ∈ l.map Increment.call, ∀ o ∈ c.ords, o ∈ s.ORD.Magnet := by
  induction l generalizing s with
  | nil => simp
  | cons c l ih =>
    obtain ⟨s1, h1, h2⟩ := makeAll_cons.1 h
    obtain ⟨-, -, hr, hn⟩ := hu
    intro d hd
    rw [List.map_cons, List.mem_cons] at hd
    rcases hd with rfl | hd
    · exact hr
    · have := ih (hn s1 h1) h2 d hd
      rwa [(trim_frame h1).ord] at this

/-- a sequence of requests adds the total -/
theorem makeAll_total {l : List (Increment K)} {s s' : SC K} (hu : Unclipped l s) (h : makeAll l s = .ok () s') (i : Nat) (sk : Bool) (k : Nat) :
    setpoint s'.RING i sk k = setpoint s.RING i sk k + totalAsked s.RING l i sk k := by
  induction l generalizing s with
  | nil => cases h; simp [totalAsked]
  | cons c l ih =>
    obtain ⟨s1, h1, h2⟩ := makeAll_cons.1 h
    obtain ⟨hf, hnd, -, hn⟩ := hu
    rw [ih (hn s1 h1) h2, increment_amount hf hnd h1]
    have e : totalAsked s1.RING l i sk k = totalAsked s.RING l i sk k := by
      have f := trim_frame h1
      unfold totalAsked
      congr 1
      refine List.map_congr_left (fun d _ => amount_congr (fun j b => ?_) d i sk k)
      exact kickFactor_congr (f.attr _ _ (by decide)) (f.attr _ _ (by decide))
    rw [e]
    simp only [totalAsked, List.map_cons, List.sum_cons]; ring

/-! ### cavities -/
theorem rfNames_apart : ∀ f ∈ rfProperties, ∀ g ∈ rfProperties, (f ++ "SetPoint" = g ++ "SetPoint" ↔ f = g) ∧
    f ++ "CalError" ≠ g ++ "SetPoint" ∧ f ++ "Offset" ≠ g ++ "SetPoint" ∧ f ≠ g ++ "SetPoint" ∧
    f ++ "CalError" ∉ rfProperties ∧ f ++ "Offset" ∉ rfProperties ∧ f ++ "SetPoint" ∉ rfProperties := by
  decide

/-- the set-point of a cavity -/
theorem rf_amount {c : RfIncrement K} {s s' : SC K} (hs : c.Sound s) (h : c.run s = .ok () s') {i : Nat} (hi : i ∈ s.ORD.RF) {f : String} (hf : f ∈ rfProperties)
    {sp : K} (h0 : s.RING.attr i (f ++ "SetPoint") = some (.num sp)) :
    s'.RING.attr i (f ++ "SetPoint") = some (.num (sp + if c.field = f then (valuesFor c.ords c.amounts i).sum else 0)) := by
  obtain ⟨hnd, -, hfld⟩ := hs
  have h : setCavitySetpoints c.ords ⟨false, c.amounts⟩ c.field "add" s = .ok () s' := h
  by_cases hc : i ∈ c.ords ∧ c.field = f
  · obtain ⟨hm, rfl⟩ := hc
    obtain ⟨n, hn⟩ := List.mem_iff_getElem?.1 hm
    rw [setCavitySetpoints_value h (lastAt_of_nodup hnd hn), numAt_of_attr h0, if_pos rfl, valuesFor_one hnd hn]
    simp [asked, add_comm]
  · rw [((setCavitySetpoints_modifies _ _ _ _).ok h).attr, h0]
    · split
      · rename_i h2
        rw [valuesFor_none (fun hh => hc ⟨hh, h2⟩)]; simp
      · simp
    · rintro ⟨h1, h2 | h2⟩
      · exact hc ⟨h1, ((rfNames_apart f hf c.field hfld).1.1 h2).symm⟩
      · exact append_setPoint_ne h2

theorem rf_upToDate {c : RfIncrement K} {s s' : SC K} (hs : c.Sound s) (h : c.run s = .ok () s') (hu : CavitiesUpToDate s) :
    CavitiesUpToDate s' := by
  intro o ho f hf
  have h : setCavitySetpoints c.ords ⟨false, c.amounts⟩ c.field "add" s = .ok () s' := h
  have fr := (setCavitySetpoints_modifies _ _ _ _).ok h
  rw [fr.ord] at ho
  obtain ⟨sp, cal, off, h1, h2, h3, h4⟩ := hu o ho f hf
  obtain ⟨a1, a2, a3, a4, a5, a6, a7⟩ := rfNames_apart f hf c.field hs.2.2
  have k1 := rf_amount hs h ho hf h1
  have k2 : s'.RING.attr o (f ++ "CalError") = some (.num cal) := by
    rw [fr.attr _ _ (by rintro ⟨-, hh | hh⟩; exacts [a2 hh, a5 hh]), h2]
  have k3 : s'.RING.attr o (f ++ "Offset") = some (.num off) := by
    rw [fr.attr _ _ (by rintro ⟨-, hh | hh⟩; exacts [a3 hh, a6 hh]), h3]
  refine ⟨_, cal, off, k1, k2, k3, ?_⟩
  by_cases hm : o ∈ c.ords
  · obtain ⟨sps, t, -, -, h5⟩ := setCavitySetpoints_eq_ok h
    obtain ⟨x, hx, hs'⟩ := updateCavities_field h5 hm hf
    have fr' := (updateCavities_modifies _).ok h5
    simp only [cavityField, Except.bind_eq_ok', Ring.getNum_eq_ok, Except.ok.injEq] at hx
    obtain ⟨a, ha, b, hb, d, hd, rfl⟩ := hx
    rw [← fr'.attr _ _ (fun hh => a7 hh.2), k1] at ha
    rw [← fr'.attr _ _ (fun hh => a5 hh.2), k2] at hb
    rw [← fr'.attr _ _ (fun hh => a6 hh.2), k3] at hd
    cases ha; cases hb; cases hd
    exact hs'
  · rw [fr.attr _ _ (fun hh => hm hh.1), h4, valuesFor_none hm]
    simp

theorem makeAllRf_cons {c : RfIncrement K} {l : List (RfIncrement K)} {s s' : SC K} {u : Unit} :
    makeAllRf (c :: l) s = .ok u s' ↔ ∃ s1, c.run s = .ok () s1 ∧ makeAllRf l s1 = .ok u s' := by
  unfold makeAllRf
  rw [forEach_cons, bind_eq_ok]
  constructor
  · rintro ⟨_, s1, h1, h2⟩; exact ⟨s1, h1, h2⟩
  · rintro ⟨s1, h1, h2⟩; exact ⟨(), s1, h1, h2⟩

/-- a cavity attribute that set-point requests may change -/
def IsRfValue (s : SC K) (i : Nat) (a : String) : Prop :=
  i ∈ s.ORD.RF ∧ ∃ f ∈ rfProperties, a = f ∨ a = f ++ "SetPoint"

theorem makeAllRf_spec {l : List (RfIncrement K)} {s s' : SC K} (hs : ∀ c ∈ l, c.Sound s) (hu : CavitiesUpToDate s)
    (h : makeAllRf l s = .ok () s') :
    CavitiesUpToDate s' ∧ Frame (IsRfValue s) s s' ∧ ∀ i ∈ s.ORD.RF, ∀ f ∈ rfProperties, ∀ sp,
      s.RING.attr i (f ++ "SetPoint") = some (.num sp) → s'.RING.attr i (f ++ "SetPoint") = some (.num (sp + totalRf l i f)) := by
  induction l generalizing s with
  | nil => cases h; exact ⟨hu, Frame.refl _, fun i _ f _ sp h => by simpa [totalRf] using h⟩
  | cons c l ih =>
    obtain ⟨s1, h1, h2⟩ := makeAllRf_cons.1 h
    have hc := hs c (by simp)
    have fr : Frame (IsRfValue s) s s1 := by
      refine ((setCavitySetpoints_modifies c.ords ⟨false, c.amounts⟩ c.field "add").ok h1).mono ?_
      rintro i a ⟨hi, rfl | ha⟩
      · exact ⟨hc.2.1 i hi, c.field, hc.2.2, Or.inr rfl⟩
      · exact ⟨hc.2.1 i hi, a, ha, Or.inl rfl⟩
    obtain ⟨e1, e2, e3⟩ := ih (s := s1) (fun d hd => by
      have := hs d (by simp [hd]); unfold RfIncrement.Sound at this ⊢; rwa [fr.ord]) (rf_upToDate hc h1 hu) h2
    refine ⟨e1, Frame.trans _ _ _ fr (Frame.mono (fun i a (hh : IsRfValue s1 i a) => ?_) e2), fun i hi f hf sp h0 => ?_⟩
    · unfold IsRfValue at hh ⊢; rwa [fr.ord] at hh
    rw [e3 i (by rwa [fr.ord]) f hf _ (rf_amount hc h1 hi hf h0)]
    simp only [totalRf, List.map_cons, List.sum_cons, add_assoc]

end PySC
