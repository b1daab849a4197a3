import Verif.Spec.Registrable
import Verif.Lemmas.RequestsSession
/-
Registrations in order succeed, and what they leave behind (C88).
-/
namespace PySC
set_option linter.unusedSectionVars false
open Py Spec
variable {K : Type} [Field K] [LinearOrder K] [FloorRing K]

/-! ### progress -/

theorem checkKwargs_ok {kw : Kwargs K} {A B : List String} (h : Known kw A) (hAB : ∀ k ∈ A, k ∈ B) : checkKwargs kw B = .ok () :=
  checkKwargs_eq_ok.2 (fun k hk => hAB k (h.2 k hk))

theorem setAttrs_total {ind : Nat} (l : List (String × Attr K)) {s : SC K} (h : ind < s.RING.length) :
    ∃ s', forEach l (fun p => setAttr ind p.1 p.2) s = .ok () s' := by
  obtain ⟨s', h', -⟩ := forEach_progress (f := fun p : String × Attr K => setAttr ind p.1 p.2) (l := l) (I := fun t : SC K => ind < t.RING.length)
    (fun p _ t ht => ⟨_, setAttr_apply ht, by simpa using ht⟩) h
  exact ⟨s', h'⟩

theorem registerBpms_total {ords : List Nat} {kw : Kwargs K} {s : SC K} {A : List String} (hk : Known kw A) (hA : ∀ k ∈ A, k ∈ bpmErrorFields)
    (h : ∀ i ∈ ords, i < s.RING.length) : ∃ s', registerBpms ords kw s = .ok () s' := by
  unfold registerBpms
  rw [checkKwargs_ok hk hA]
  have key := forEach_progress (f := registerBpm1 kw) (l := npUnique ords) (I := fun t : SC K => t.RING.length = s.RING.length)
    (fun i hi t ht => ?_) (s := { s with ORD := { s.ORD with BPM := npUnique (s.ORD.BPM ++ ords) } }) rfl
  · obtain ⟨s', h', -⟩ := key
    exact ⟨s', h'⟩
  · obtain ⟨t', h1⟩ : ∃ t', registerBpm1 kw i t = .ok () t' := by
      unfold registerBpm1 modSig
      rw [bind_apply, modify_apply]
      exact setAttrs_total _ (by simpa [ht] using h i (mem_npUnique.1 hi))
    exact ⟨t', h1, ((registerBpm1_frame kw i).ok h1).len.trans ht⟩

theorem registerCavities_total {ords : List Nat} {kw : Kwargs K} {s : SC K} {A : List String} (hk : Known kw A)
    (hA : ∀ k ∈ A, k ∈ rfErrorFields) (h : ∀ i ∈ ords, ∀ f ∈ rfProperties, (s.RING.attr i f).isSome) :
    ∃ s', registerCavities ords kw s = .ok () s' := by
  unfold registerCavities
  rw [checkKwargs_ok hk hA]
  have fields : ∀ i, Rel (fun s s' : SC K => ∀ j, ∀ f ∈ rfProperties, s'.RING.attr j f = s.RING.attr j f) (registerCavity1 kw i) := fun i =>
    Rel.mono (fun s s' hh j f hf => hh.attr j f (fun hw => by
      have := hw.2; clear hw; revert f; decide +kernel)) (registerCavity1_frame kw i)
  have key := forEach_progress (f := registerCavity1 kw) (l := npUnique ords)
    (I := fun t : SC K => ∀ i ∈ ords, ∀ f ∈ rfProperties, (t.RING.attr i f).isSome)
    (fun i hi t ht => ?_) (s := { s with ORD := { s.ORD with RF := npUnique (s.ORD.RF ++ ords) } }) h
  · obtain ⟨s', h', -⟩ := key
    exact ⟨s', h'⟩
  · obtain ⟨t', h1⟩ : ∃ t', registerCavity1 kw i t = .ok () t' := by
      unfold registerCavity1 modSig
      rw [bind_apply, modify_apply]
      have key := forEach_progress (f := registerRfField i) (l := rfProperties)
        (I := fun t : SC K => ∀ f ∈ rfProperties, (t.RING.attr i f).isSome)
        (fun f hf u hu => ?_) (s := { t with SIG := { t.SIG with RF := sigUpdate t.SIG.RF i kw } }) (ht i (mem_npUnique.1 hi))
      · obtain ⟨t', h', -⟩ := key
        exact ⟨t', h'⟩
      · obtain ⟨v, hv⟩ := Option.isSome_iff_exists.1 (hu f hf)
        have hl := Ring.attr_some_lt hv
        have h1 : ∃ u', registerRfField i f u = .ok () u' := by
          unfold registerRfField
          rw [bind_apply, rd_apply_ok (Ring.getA_eq_ok.2 hv)]
          dsimp only
          rw [bind_apply, setAttr_apply hl]
          dsimp only
          rw [bind_apply, setAttr_apply (by simpa using hl)]
          dsimp only
          exact ⟨_, setAttr_apply (by simpa using hl)⟩
        obtain ⟨u', h1⟩ := h1
        refine ⟨u', h1, fun g hg => ?_⟩
        rw [((registerRfField_frame i hf).ok h1).attr i g (fun hw => by have := hw.2; clear hw; revert g; decide +kernel)]
        exact hu g hg
    refine ⟨t', h1, fun j hj f hf => ?_⟩
    rw [(fields i).ok h1 j f hf]
    exact ht j hj f hf

/-- polynomials and limits as a magnet registration needs them -/
structure Takes (r : Ring K) (i : Nat) : Prop where
  poly : ∀ ab ∈ ["A", "B"], ∃ p, r.attr i ("Polynom" ++ ab) = some (.vec p)
  limits : TwoLimits r i

theorem Takes.lt {r : Ring K} {i : Nat} (h : Takes r i) : i < r.length := by
  obtain ⟨p, hp⟩ := h.poly "A" (by simp)
  exact Ring.attr_some_lt hp

theorem setCMlimit_total {ind k : Nat} {v : Attr K} {s : SC K} (hk : k < 2) (hv : IsLimit v) {l : List (Lim K)}
    (hl : s.RING.attr ind "CMlimit" = some (.lims l)) (h2 : l.length = 2) :
    ∃ l', l'.length = 2 ∧ setCMlimit ind k v s = .ok () { s with RING := s.RING.setAttr ind "CMlimit" (.lims l') } := by
  obtain ⟨x, hx⟩ : ∃ x, v.toLim = .ok x := by
    cases v <;> first | exact ⟨_, rfl⟩ | exact absurd hv id
  refine ⟨l.set k x, by simp [h2], ?_⟩
  unfold setCMlimit
  rw [bind_apply, rd_apply_ok (Ring.getA_eq_ok.2 hl)]
  dsimp only [Attr.toLims]
  rw [bind_apply, lift_ok_apply]
  dsimp only
  rw [hx, bind_apply, lift_ok_apply]
  dsimp only
  rw [idx_eq_ok.2 (List.getElem?_eq_getElem (by omega : k < l.length)), bind_apply, lift_ok_apply]
  exact setAttr_apply (Ring.attr_some_lt hl)

theorem masterOf_total {ords : List Nat} {i : Nat} (hi : i ∈ ords) (hn : ords.Nodup) {m : List (List Nat)}
    (hm : ∀ row ∈ m, row.length = ords.length) :
    ∃ l, masterOf (K := K) ords i (.ordMat m) = .ok l ∧ ∀ c ∈ l, ∃ row ∈ m, (i, c) ∈ ords.zip row := by
  have hlt : ords.idxOf i < ords.length := List.idxOf_lt_length_of_mem hi
  have hrow : ∀ row ∈ m, ∃ c, idx row (ords.idxOf i) = .ok c ∧ (i, c) ∈ ords.zip row := by
    intro row hr
    have h' : ords.idxOf i < row.length := by rw [hm row hr]; exact hlt
    refine ⟨row[ords.idxOf i], idx_eq_ok.2 (List.getElem?_eq_getElem h'), ?_⟩
    rw [List.mem_iff_getElem]
    refine ⟨ords.idxOf i, by simp [hlt, h'], ?_⟩
    rw [List.getElem_zip, List.getElem_idxOf]
  have hc : ¬ 1 < ords.count i := by
    have := List.nodup_iff_count_le_one.1 hn i
    omega
  unfold masterOf
  simp only [if_neg hc]
  clear hm
  induction m with
  | nil => exact ⟨[], rfl, by simp⟩
  | cons row m ih =>
    obtain ⟨c, h1, h2⟩ := hrow row (by simp)
    obtain ⟨l, h3, h4⟩ := ih (fun row hr => hrow row (by simp [hr]))
    refine ⟨c :: l, ?_, fun d hd => ?_⟩
    · rw [List.mapM_cons, h1, h3]; rfl
    · rcases List.mem_cons.1 hd with rfl | hd
      · exact ⟨row, by simp, h2⟩
      · obtain ⟨row', hr, h5⟩ := h4 d hd
        exact ⟨row', by simp [hr], h5⟩

theorem optionalMagnetFields_total {ind : Nat} {ords : List Nat} {kw : Kwargs K} {s : SC K} (hi : ind ∈ ords) (hl : ind < s.RING.length)
    (h2 : TwoLimits s.RING ind) (hlim : ∀ n ∈ ["HCM", "VCM", "SkewQuad"], ∀ v, kw.get? n = some v → IsLimit v)
    (hm : ∀ v, kw.get? "MasterOf" = some v → ords.Nodup ∧ ∃ m, v = .ordMat m ∧ ∀ row ∈ m, row.length = ords.length) :
    ∃ s', optionalMagnetFields ind ords kw s = .ok () s' := by
  have keyed : ∀ (key : String) (b : Attr K → Py (SC K) Unit) (P Q : SC K → Prop),
      (∀ v, kw.get? key = some v → ∀ t, P t → ∃ t', b v t = .ok () t' ∧ Q t') → (∀ t, kw.get? key = none → P t → Q t) →
      ∀ t, P t → ∃ t', withKey kw key b t = .ok () t' ∧ Q t' := by
    intro key b P Q hb hn t ht
    unfold withKey
    cases hv : kw.get? key with
    | some v => exact hb v hv t ht
    | none => exact ⟨t, rfl, hn t hv ht⟩
  have any : Dict.get? kw "HCM" ≠ none ∨ Dict.get? kw "VCM" ≠ none → (kw.has "HCM" || kw.has "VCM") = true := by
    rintro (h | h)
    · have : kw.has "HCM" = true := Dict.has_iff.2 (by rw [← Dict.get?_isSome_iff]; exact Option.isSome_iff_ne_none.2 h)
      rw [this]; rfl
    · have : kw.has "VCM" = true := Dict.has_iff.2 (by rw [← Dict.get?_isSome_iff]; exact Option.isSome_iff_ne_none.2 h)
      rw [this, Bool.or_true]
  -- what is known before the limits are stored, and after
  let P0 : SC K → Prop := fun t => ind < t.RING.length ∧ TwoLimits t.RING ind
  let P1 : SC K → Prop := fun t => ind < t.RING.length ∧ ((Dict.get? kw "HCM" ≠ none ∨ Dict.get? kw "VCM" ≠ none) →
    ∃ l, t.RING.attr ind "CMlimit" = some (.lims l) ∧ l.length = 2)
  let P2 : SC K → Prop := fun t => ind < t.RING.length
  obtain ⟨s1, e1, hP1⟩ := keyed "CF" (fun _ => setAttr ind "CombinedFunction" (.flag true)) P0 P0
    (fun v _ t ht => ⟨_, setAttr_apply ht.1, by
      refine ⟨by simpa using ht.1, ?_⟩
      unfold TwoLimits
      rw [Ring.attr_setAttr_ne (by decide)]
      exact ht.2⟩) (fun t _ h => h) s ⟨hl, h2⟩
  obtain ⟨s2, e2, hP2⟩ : ∃ s2, when (kw.has "HCM" || kw.has "VCM") (ensureCMlimit ind) s1 = .ok () s2 ∧ P1 s2 := by
    cases hc : (kw.has "HCM" || kw.has "VCM") with
    | false => exact ⟨s1, rfl, hP1.1, fun h => by rw [any h] at hc; cases hc⟩
    | true =>
      rw [when_true]
      unfold ensureCMlimit
      rw [bind_apply, rd_apply_ok (Ring.hasA_of_lt hP1.1)]
      dsimp only
      rcases hP1.2 with h0 | ⟨l, h0, h0'⟩
      · rw [h0]
        refine ⟨_, setAttr_apply hP1.1, by simpa using hP1.1, fun _ => ⟨_, Ring.attr_setAttr_same hP1.1, rfl⟩⟩
      · rw [h0]
        exact ⟨s1, rfl, hP1.1, fun _ => ⟨l, h0, h0'⟩⟩
  have store : ∀ k < 2, ∀ key ∈ ["HCM", "VCM"], ∀ t, P1 t → ∃ t', withKey kw key (setCMlimit ind k) t = .ok () t' ∧ P1 t' := by
    intro k hk key hkey
    refine keyed key _ P1 P1 (fun v hv t ht => ?_) (fun t _ h => h)
    have hex : Dict.get? kw "HCM" ≠ none ∨ Dict.get? kw "VCM" ≠ none := by
      simp only [List.mem_cons, List.not_mem_nil, or_false] at hkey
      rcases hkey with rfl | rfl
      · left; rw [hv]; simp
      · right; rw [hv]; simp
    obtain ⟨l, h3, h4⟩ := ht.2 hex
    have hlv : IsLimit v := hlim key (by clear hex hv; revert key; decide +kernel) v hv
    obtain ⟨l', h5, h6⟩ := setCMlimit_total hk hlv h3 h4
    exact ⟨_, h6, by simpa using ht.1, fun _ => ⟨l', Ring.attr_setAttr_same ht.1, h5⟩⟩
  obtain ⟨s3, e3, hP3⟩ := store 0 (by omega) "HCM" (by simp) s2 hP2
  obtain ⟨s4, e4, hP4⟩ := store 1 (by omega) "VCM" (by simp) s3 hP3
  obtain ⟨s5, e5, hP5⟩ := keyed "SkewQuad" (setAttr ind "SkewQuadLimit") P2 P2
    (fun v _ t ht => ⟨_, setAttr_apply ht, by simpa [P2] using ht⟩) (fun t _ h => h) s4 hP4.1
  obtain ⟨s6, e6, -⟩ := keyed "MasterOf" (fun v => do
      let l ← lift (masterOf ords ind v)
      setAttr ind "MasterOf" (.ords l)) P2 (fun _ => True)
    (fun v hv t ht => by
      obtain ⟨hn, m, rfl, hm'⟩ := hm v hv
      obtain ⟨l, h3, -⟩ := masterOf_total (K := K) hi hn hm'
      exact ⟨_, by rw [bind_apply, h3]; exact setAttr_apply ht, trivial⟩) (fun _ _ _ => trivial) s5 hP5
  refine ⟨s6, ?_⟩
  unfold optionalMagnetFields
  rw [bind_apply, e1]; dsimp only
  rw [bind_apply, e2]; dsimp only
  rw [bind_apply, e3]; dsimp only
  rw [bind_apply, e4]; dsimp only
  rw [bind_apply, e5]; dsimp only
  exact e6

theorem registerMagnet1_total {ind : Nat} {ords : List Nat} {kw : Kwargs K} {s : SC K} (hi : ind ∈ ords) (h : Takes s.RING ind)
    (hlim : ∀ n ∈ ["HCM", "VCM", "SkewQuad"], ∀ v, kw.get? n = some v → IsLimit v)
    (hm : ∀ v, kw.get? "MasterOf" = some v → ords.Nodup ∧ ∃ m, v = .ordMat m ∧ ∀ row ∈ m, row.length = ords.length) :
    ∃ s', registerMagnet1 ords kw ind s = .ok () s' := by
  have hlt := h.lt
  obtain ⟨pA, hA⟩ := h.poly "A" (by simp)
  obtain ⟨pB, hB⟩ := h.poly "B" (by simp)
  -- the state after each part
  have zero : ∀ ab ∈ ["A", "B"], ∀ t : SC K, t.RING.length = s.RING.length → (∃ p, t.RING.attr ind ("Polynom" ++ ab) = some (.vec p)) →
      ∃ t', registerZeros ind ab t = .ok () t' := by
    intro ab _ t hl ⟨p, hp⟩
    unfold registerZeros
    rw [bind_apply, rd_apply_ok (Ring.getVec_eq_ok.2 hp)]
    dsimp only
    obtain ⟨t', h', -⟩ := forEach_progress (f := fun field => setAttr (K := K) ind (field ++ ab) (.vec (zeros p.length)))
      (l := ["NomPolynom", "SetPoint", "CalError"]) (I := fun t : SC K => ind < t.RING.length)
      (fun f _ t ht => ⟨_, setAttr_apply ht, by simpa using ht⟩) (s := t) (hl ▸ hlt)
    exact ⟨t', h'⟩
  have add : ∀ f ab, ∀ t : SC K, (∃ z, t.RING.attr ind (f ++ ab) = some (.vec z)) → (∃ p, t.RING.attr ind ("Polynom" ++ ab) = some (.vec p)) →
      ∃ z, addPolynom ind f ab t = .ok () { t with RING := t.RING.setAttr ind (f ++ ab) (.vec z) } := by
    intro f ab t ⟨z, hz⟩ ⟨p, hp⟩
    refine ⟨List.zipWith (· + ·) z p, ?_⟩
    unfold addPolynom
    rw [bind_apply, rd_apply_ok (Ring.getVec_eq_ok.2 hz)]
    dsimp only
    rw [bind_apply, rd_apply_ok (Ring.getVec_eq_ok.2 hp)]
    exact setAttr_apply (Ring.attr_some_lt hp)
  unfold registerMagnet1 modSig
  rw [bind_apply, modify_apply]
  dsimp only
  obtain ⟨sA, eA⟩ := zero "A" (by simp) { s with SIG := { s.SIG with Magnet := sigUpdate s.SIG.Magnet ind (kw.filter (fun p => p.1 ∉ magnetTypeFields)) } }
    rfl ⟨pA, hA⟩
  obtain ⟨_, -, a1, a2, a3, fA⟩ := registerZeros_eq_ok eA
  have hB1 : sA.RING.attr ind "PolynomB" = some (.vec pB) := fA.attr_of_ne (by simp) hB
  have hA1 : sA.RING.attr ind "PolynomA" = some (.vec pA) := fA.attr_of_ne (by simp) hA
  obtain ⟨sB, eB⟩ := zero "B" (by simp) sA fA.len ⟨pB, hB1⟩
  obtain ⟨_, -, b1, b2, b3, fB⟩ := registerZeros_eq_ok eB
  have hB2 : sB.RING.attr ind "PolynomB" = some (.vec pB) := fB.attr_of_ne (by simp) hB1
  have hA2 : sB.RING.attr ind "PolynomA" = some (.vec pA) := fB.attr_of_ne (by simp) hA1
  have a1' := fB.attr_of_ne (by simp) a1
  have a2' := fB.attr_of_ne (by simp) a2
  have hlB : ind < sB.RING.length := Ring.attr_some_lt hA2
  simp only [String.reduceAppend] at a1' a2' b1 b2
  have e0 : forEach ["A", "B"] (registerZeros (K := K) ind) { s with SIG := { s.SIG with Magnet := sigUpdate s.SIG.Magnet ind (kw.filter (fun p => p.1 ∉ magnetTypeFields)) } } = .ok () sB := by
    rw [forEach_cons, bind_apply, eA]; dsimp only
    rw [forEach_cons, bind_apply, eB]; rfl
  rw [bind_apply, e0]; dsimp only
  obtain ⟨z1, e1⟩ := add "NomPolynom" "B" sB ⟨_, b1⟩ ⟨_, hB2⟩
  rw [bind_apply, e1]; dsimp only
  obtain ⟨z2, e2⟩ := add "NomPolynom" "A" { sB with RING := sB.RING.setAttr ind ("NomPolynom" ++ "B") (.vec z1) }
    ⟨_, by simp [Ring.attr_setAttr, a1']; rfl⟩ ⟨pA, by simp [Ring.attr_setAttr, hA2]⟩
  rw [bind_apply, e2]; dsimp only
  obtain ⟨z3, e3⟩ := add "SetPoint" "B" { sB with RING := (sB.RING.setAttr ind ("NomPolynom" ++ "B") (.vec z1)).setAttr ind ("NomPolynom" ++ "A") (.vec z2) }
    ⟨_, by simp [Ring.attr_setAttr, b2]; rfl⟩ ⟨pB, by simp [Ring.attr_setAttr, hB2]⟩
  rw [bind_apply, e3]; dsimp only
  obtain ⟨z4, e4⟩ := add "SetPoint" "A" { sB with RING := ((sB.RING.setAttr ind ("NomPolynom" ++ "B") (.vec z1)).setAttr ind ("NomPolynom" ++ "A") (.vec z2)).setAttr ind ("SetPoint" ++ "B") (.vec z3) }
    ⟨_, by simp [Ring.attr_setAttr, a2']; rfl⟩ ⟨pA, by simp [Ring.attr_setAttr, hA2]⟩
  rw [bind_apply, e4]; dsimp only
  generalize hu : ({ sB with RING := (((sB.RING.setAttr ind ("NomPolynom" ++ "B") (.vec z1)).setAttr ind ("NomPolynom" ++ "A") (.vec z2)).setAttr ind ("SetPoint" ++ "B") (.vec z3)).setAttr ind ("SetPoint" ++ "A") (.vec z4) } : SC K) = u
  have hul : ind < u.RING.length := by rw [← hu]; simpa using hlB
  have hulim : TwoLimits u.RING ind := by
    have : u.RING.attr ind "CMlimit" = s.RING.attr ind "CMlimit" := by
      rw [← hu]
      simp only [Ring.attr_setAttr, String.reduceAppend, String.reduceEq, and_false, if_false]
      rw [fB.attr _ _ (by simp), fA.attr _ _ (by simp)]
    unfold TwoLimits
    rw [this]
    exact h.limits
  obtain ⟨u', e5⟩ := setAttrs_total magnetInit hul
  have f5 := (forEach_setAttr_frame ind magnetInit).ok e5
  rw [bind_apply, e5]; dsimp only
  refine optionalMagnetFields_total hi (by rw [f5.len]; exact hul) ?_ hlim hm
  unfold TwoLimits
  rw [f5.attr _ _ (by simp [magnetInit])]
  exact hulim

theorem registerMagnets_total {ords : List Nat} {kw : Kwargs K} {s : SC K} {A : List String} (hk : Known kw A)
    (hA : ∀ k ∈ A, k ∈ magnetTypeFields ++ magnetErrorFields) (h : ∀ i ∈ ords, Takes s.RING i)
    (hlim : ∀ n ∈ ["HCM", "VCM", "SkewQuad"], ∀ v, kw.get? n = some v → IsLimit v)
    (hm : ∀ v, kw.get? "MasterOf" = some v → ords.Nodup ∧ ∃ m, v = .ordMat m ∧ ∀ row ∈ m, row.length = ords.length) :
    ∃ s', registerMagnets ords kw s = .ok () s' := by
  unfold registerMagnets
  rw [checkKwargs_ok hk hA]
  have key := forEach_progress (f := registerMagnet1 ords kw) (l := ords) (I := fun t : SC K => ∀ i ∈ ords, Takes t.RING i)
    (fun i hi t ht => ?_) (s := { s with ORD := magnetOrds s.ORD ords kw }) h
  · obtain ⟨s', h', -⟩ := key
    exact ⟨s', h'⟩
  · obtain ⟨t', h1⟩ := registerMagnet1_total hi (ht i hi) hlim hm
    refine ⟨t', h1, fun j hj => ⟨fun ab hab => ?_, (registerMagnet1_limits ords kw i).ok h1 j (ht j hj).limits⟩⟩
    rw [((registerMagnet1_frame ords kw i).ok h1).attr j _ (fun hw => by have := hw.2; clear hw; revert ab; decide +kernel)]
    exact (ht j hj).poly ab hab

theorem storeSupportSig_total {t : String} {pr : Nat × Nat} {kv : String × Attr K} {s : SC K} (h : ForSupport kv.2) :
    ∃ s', storeSupportSig t pr kv s = .ok () s' := by
  obtain ⟨k, v⟩ := kv
  have hmat : ∀ (m : List (List K)) (f : List K → Attr K), m.length = 2 →
      ∃ s', (do let v0 ← lift (idx m 0)
                setSupportSig pr.1 (t ++ k) (f v0)
                let v1 ← lift (idx m 1)
                setSupportSig pr.2 (t ++ k) (f v1) : Py (SC K) Unit) s = .ok () s' := by
    intro m f hm
    match m, hm with
    | [x, y], _ => exact ⟨_, rfl⟩
  cases v with
  | vec v => exact ⟨_, rfl⟩
  | mat m => exact hmat m .vec h.1
  | pair a c =>
    cases a with
    | vec v => exact ⟨_, rfl⟩
    | mat m => exact hmat m (fun v => .pair (.vec v) c) h.1
    | _ => exact absurd h id
  | _ => exact absurd h id

end PySC
