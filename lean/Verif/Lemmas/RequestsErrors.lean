import Verif.Lemmas.RequestsSet
/-
Errors which fit the magnets keep them ready, even if `apply_errors` fails half way.
-/
namespace PySC
set_option linter.unusedSectionVars false
variable {K : Type} [Field K] [LinearOrder K] [FloorRing K]
open Py Spec

/-- names on which the readiness of magnets depends and which `apply_errors` does not write -/
def fixedNames : List String :=
  ["SetPointA", "SetPointB", "NomPolynomA", "NomPolynomB", "PassMethod", "CombinedFunction", "BendingAngle", "MasterOf", "CMlimit",
   "SkewQuadLimit", "PolynomAOffset", "PolynomBOffset", "SysPolAFromA", "SysPolAFromB", "SysPolBFromA", "SysPolBFromB"]

/-- names which are written with values of a known shape -/
def shapedNames : List String := ["CalErrorA", "CalErrorB", "BendingAngleError", "Length"]

/-- an error of the shape of its uncertainty -/
def ShapeFor (sig err : Attr K) : Prop :=
  (∃ w e, (sig = .vec w ∨ ∃ c, sig = .pair (.vec w) c) ∧ err = .vec e ∧ e.length = w.length) ∨
  ∃ w x, (sig = .num w ∨ ∃ c, sig = .pair (.num w) c) ∧ err = .num x

/-- `t` differs from `b` by errors of the shapes of the registered uncertainties -/
structure FitState (b t : SC K) : Prop where
  ord : t.ORD = b.ORD
  sig : t.SIG = b.SIG
  len : t.RING.length = b.RING.length
  fixed : ∀ i, ∀ a ∈ fixedNames, t.RING.attr i a = b.RING.attr i a
  errors : ∀ i, ∀ n ∈ ["CalErrorA", "CalErrorB", "BendingAngle"], t.RING.attr i (magnetAttrOf n) = b.RING.attr i (magnetAttrOf n) ∨
    (i ∈ b.ORD.Magnet ∧ ∃ sig err, sigma b.SIG.Magnet i n = some sig ∧ t.RING.attr i (magnetAttrOf n) = some err ∧ ShapeFor sig err)
  length : ∀ i, t.RING.attr i "Length" = b.RING.attr i "Length" ∨ b.RING.attr i "PassMethod" = some (.str "DriftPass")

theorem FitState.refl (b : SC K) : FitState b b :=
  ⟨rfl, rfl, rfl, fun _ _ _ => rfl, fun _ _ _ => Or.inl rfl, fun _ => Or.inl rfl⟩

theorem fit_of_frame {b s s' : SC K} {W : Nat → String → Prop} (hs : FitState b s) (ho : s'.ORD = s.ORD) (hg : s'.SIG = s.SIG)
    (hl : s'.RING.length = s.RING.length) (h : ∀ i a, ¬ W i a → s'.RING.attr i a = s.RING.attr i a)
    (hw : ∀ i, ∀ a ∈ fixedNames ++ shapedNames, ¬ W i a) : FitState b s' := by
  have k : ∀ i, ∀ a ∈ fixedNames ++ shapedNames, s'.RING.attr i a = s.RING.attr i a := fun i a ha => h i a (hw i a ha)
  refine ⟨ho.trans hs.ord, hg.trans hs.sig, hl.trans hs.len, fun i a ha => ?_, fun i n hn => ?_, fun i => ?_⟩
  · rw [k i a (by simp [ha])]; exact hs.fixed i a ha
  · rw [k i _ (by revert n; decide +kernel)]; exact hs.errors i n hn
  · rw [k i _ (by decide +kernel)]; exact hs.length i

/-- only random numbers were drawn -/
def Stepped (s s' : SC K) : Prop := ∃ p, s' = { s with rng := p }

theorem fit_onlyRng {b s s' : SC K} (hs : FitState b s) (h : Stepped s s') : FitState b s' := by
  obtain ⟨p, this⟩ := h
  refine fit_of_frame (W := fun _ _ => False) hs (by rw [this]) (by rw [this]) (by rw [this]) (fun i a _ => by rw [this]) (fun _ _ _ h => h)

theorem scaledRandn_shape {E : Env K} {cut : K} {sig err : Attr K} {s s' : SC K} (h : scaledRandn E cut sig s = .ok err s') :
    (∃ w e, sig = .vec w ∧ err = .vec e ∧ e.length = w.length) ∨ ∃ w x, sig = .num w ∧ err = .num x := by
  unfold scaledRandn at h
  split at h
  · rename_i x
    rw [bind_eq_ok] at h
    obtain ⟨z, s1, h1, h2⟩ := h
    cases h2
    exact Or.inr ⟨_, _, rfl, rfl⟩
  · rename_i v
    rw [bind_eq_ok] at h
    obtain ⟨z, s1, h1, h2⟩ := h
    obtain ⟨pos, h3, rfl⟩ := randnc_eq_ok.1 h1
    cases h2
    obtain ⟨-, hlen, -, -⟩ := randncFrom_eq_ok h3
    have hlv : v.length ≤ z.length := by rw [hlen]; split <;> omega
    exact Or.inl ⟨v, _, rfl, rfl, by simp [hlv]⟩
  · cases h

theorem randnCutoff_shape {E : Env K} {cut : K} {sig err : Attr K} {s s' : SC K} (h : randnCutoff E sig cut s = .ok err s') :
    ShapeFor sig err := by
  unfold randnCutoff at h
  unfold ShapeFor
  split at h
  · rename_i v c
    rcases scaledRandn_shape h with ⟨w, e, rfl, he, hl⟩ | ⟨w, x, rfl, he⟩
    · exact Or.inl ⟨w, e, Or.inr ⟨c, rfl⟩, he, hl⟩
    · exact Or.inr ⟨w, x, Or.inr ⟨c, rfl⟩, he⟩
  · rcases scaledRandn_shape h with ⟨w, e, rfl, he, hl⟩ | ⟨w, x, rfl, he⟩
    · exact Or.inl ⟨w, e, Or.inl rfl, he, hl⟩
    · exact Or.inr ⟨w, x, Or.inl rfl, he⟩

theorem setAttr_error {i : Nat} {a : String} {v : Attr K} {s s' : SC K} {e : Err} (h : setAttr i a v s = .error e s') : s' = s := by
  unfold PySC.setAttr at h
  rw [bind_apply] at h
  unfold PySC.rd at h
  split at h
  · rename_i hh
    split at hh
    · cases hh; cases h
    · cases hh
  · rename_i hh
    split at hh
    · cases hh
    · cases hh; cases h; rfl

/-- one error of a magnet -/
theorem drawInto_fit {b : SC K} (hw : WellRegistered b.SIG) {E : Env K} {c : K} {i : Nat} (hi : i ∈ b.ORD.Magnet) {n : String} {sig : Attr K}
    (hs : sigma b.SIG.Magnet i n = some sig) : Rel (fun s s' => FitState b s → FitState b s') (drawInto E c i (magnetAttrOf n) sig) := by
  intro s hb
  unfold drawInto
  rw [bind_apply]
  have hr : Rel (Stepped (K := K)) (randnCutoff E sig c) := by
    have hp : PreRel (Stepped (K := K)) := ⟨fun s => ⟨s.rng, rfl⟩, fun _ _ _ ⟨p, h1⟩ ⟨q, h2⟩ => ⟨q, by rw [h2, h1]⟩⟩
    exact randnCutoff_rel (R := Stepped) (fun s p => ⟨p, rfl⟩) _ _ _
  cases h : randnCutoff E sig c s with
  | error e t => have := hr s; rw [h] at this; exact fit_onlyRng hb this
  | ok err t =>
    have h1 := hr s
    rw [h] at h1
    have hsh := randnCutoff_shape h
    have ht := fit_onlyRng hb h1
    have hmem := hw.magnetNames _ _ _ hs
    show FitState b (setAttr i (magnetAttrOf n) err t).state
    by_cases hlt : i < t.RING.length
    · have : setAttr i (magnetAttrOf n) err t = .ok () _ := setAttr_eq_ok.2 ⟨hlt, rfl⟩
      rw [this]
      refine ⟨ht.ord, ht.sig, (Ring.length_setAttr ..).trans ht.len, fun j a ha => ?_, fun j m hm => ?_, fun j => ?_⟩
      · show (t.RING.setAttr i (magnetAttrOf n) err).attr j a = _
        rw [Ring.attr_setAttr_ne (fun he => ?_)]
        · exact ht.fixed j a ha
        · rw [he] at ha
          exact (by decide +kernel : ∀ n ∈ ["MagnetOffset", "MagnetRoll", "CalErrorA", "CalErrorB", "BendingAngle"],
            magnetAttrOf n ∉ fixedNames) n hmem ha
      · show (t.RING.setAttr i (magnetAttrOf n) err).attr j _ = _ ∨ _ ∧ ∃ sig' err', _ ∧ (t.RING.setAttr i (magnetAttrOf n) err).attr j _ = _ ∧ _
        by_cases hj : j = i
        · subst hj
          by_cases he : magnetAttrOf m = magnetAttrOf n
          · have hmn : m = n := (by decide +kernel : ∀ m ∈ ["CalErrorA", "CalErrorB", "BendingAngle"],
              ∀ n ∈ ["MagnetOffset", "MagnetRoll", "CalErrorA", "CalErrorB", "BendingAngle"], magnetAttrOf m = magnetAttrOf n → m = n) m hm n hmem he
            subst hmn
            exact Or.inr ⟨hi, sig, err, hs, Ring.attr_setAttr_same hlt, hsh⟩
          · rw [Ring.attr_setAttr_ne he]; exact ht.errors j m hm
        · rw [Ring.attr_setAttr_ne' hj]; exact ht.errors j m hm
      · show (t.RING.setAttr i (magnetAttrOf n) err).attr j _ = _ ∨ _
        rw [Ring.attr_setAttr_ne (fun he => ?_)]
        · exact ht.length j
        · exact (by decide +kernel : ∀ n ∈ ["MagnetOffset", "MagnetRoll", "CalErrorA", "CalErrorB", "BendingAngle"],
            "Length" ≠ magnetAttrOf n) n hmem he
    · have : (setAttr i (magnetAttrOf n) err t).state = t := by
        cases hq : setAttr i (magnetAttrOf n) err t with
        | ok u t' => exact absurd (setAttr_eq_ok.1 hq).1 hlt
        | error e t' => exact setAttr_error hq
      rw [this]; exact ht

theorem applyMagnet_fit {b : SC K} (hw : WellRegistered b.SIG) (E : Env K) (n : K) :
    Rel (fun s s' => FitState b s → FitState b s') (applyMagnet E n) := by
  intro s hb
  unfold applyMagnet
  show FitState b (forEach _ _ s).state
  refine (Rels.forEach (R := fun s s' => FitState b s → FitState b s') (fun i hi => Rels.forEach (fun kv hkv => ?_))) s hb
  rw [hb.ord, hb.sig] at hi
  rw [hb.sig] at hkv
  exact drawInto_fit hw (mem_intersect.1 hi).1 ((entries_mem hw.magnetSingle).1 hkv)

theorem fit_of_draw {b s s' : SC K} {W : Nat → String → Prop} (hs : FitState b s) (h : DrawFrame W s s')
    (hw : ∀ i, ∀ a ∈ fixedNames ++ shapedNames, ¬ W i a) : FitState b s' := fit_of_frame hs h.ord h.sig h.len h.attr hw

theorem scaleCircumference_length {r r' : Ring K} {c : K} {m : String} (h : scaleCircumference r c m = .ok r') (i : Nat)
    (hp : r.attr i "PassMethod" ≠ some (.str "DriftPass")) : r'.attr i "Length" = r.attr i "Length" := by
  unfold scaleCircumference at h
  split at h
  · cases h
  · split at h
    · cases h; rfl
    · rw [Except.bind_eq_ok'] at h
      obtain ⟨q, -, h⟩ := h
      cases h
      unfold Ring.attr at hp ⊢
      rw [List.getElem?_map]
      cases he : r[i]? with
      | none => rfl
      | some e =>
        rw [he] at hp
        show (if isDrift e then _ else e) "Length" = e "Length"
        rw [if_neg]
        simpa [isDrift] using hp

theorem applyCircumference_fit (b : SC K) (E : Env K) (n : K) :
    Rel (fun s s' => FitState b s → FitState b s') (applyCircumference E n) := by
  refine Rels.bind (randnc_rel (fun s p hs => fit_onlyRng hs ⟨p, rfl⟩) _ _ _) (fun z => ?_)
  intro s hs
  change FitState b ((lift (scaleCircumference s.RING (1 + s.SIG.Circumference * z.headD 0) "rel") >>= fun r =>
    modify (fun s => { s with RING := r })) s).state
  cases h : scaleCircumference s.RING (1 + s.SIG.Circumference * z.headD 0) "rel" with
  | error e => exact hs
  | ok r =>
    obtain ⟨h1, h2⟩ := scaleCircumference_attr h
    refine ⟨hs.ord, hs.sig, h1.trans hs.len, fun i a ha => ?_, fun i m hm => ?_, fun i => ?_⟩
    · show r.attr i a = _
      rw [h2 i a (fun he => by rw [he] at ha; revert ha; decide +kernel)]; exact hs.fixed i a ha
    · show r.attr i _ = _ ∨ _ ∧ ∃ sig' err', _ ∧ r.attr i _ = _ ∧ _
      rw [h2 i _ (by revert m; decide +kernel)]; exact hs.errors i m hm
    · show r.attr i "Length" = _ ∨ _
      by_cases hp : b.RING.attr i "PassMethod" = some (.str "DriftPass")
      · exact Or.inr hp
      · rw [scaleCircumference_length h i (by rw [hs.fixed i _ (by decide +kernel)]; exact hp)]
        exact hs.length i

theorem applyErrors_fit {b : SC K} (hw : WellRegistered b.SIG) (E : Env K) (n : K) : FitState b (applyErrors E n b).state := by
  let R : SC K → SC K → Prop := fun s s' => FitState b s → FitState b s'
  have : PreRel R := inferInstanceAs (PreRel (fun s s' => FitState b s → FitState b s'))
  refine (show Rel R (applyErrors E n) from ?_) b (FitState.refl b)
  have nm : ∀ {ords : List Nat} {d : Dict Nat (Kwargs K)} {L : List String} (_ : OnlyNames d L) (_ : ∀ a ∈ fixedNames ++ shapedNames, a ∉ L)
      (i : Nat), ∀ a ∈ fixedNames ++ shapedNames, ¬ drawn ords d id i a := by
    rintro ords d L h1 h2 i a ha ⟨-, m, v, hv, rfl⟩
    exact h2 _ ha (h1 _ _ _ hv)
  unfold applyErrors
  refine Rels.bind (fun s hs => fit_of_draw hs (applyRf_frame (by rw [hs.sig]; exact hw)) (by
      rw [hs.sig]; exact nm hw.rfNames (by decide +kernel))) (fun _ =>
    Rels.bind (fun s hs => fit_of_draw hs (applyBpm_frame (by rw [hs.sig]; exact hw)) (by
      rw [hs.sig]; exact nm hw.bpmNames (by decide +kernel))) (fun _ =>
    Rels.bind (applyMagnet_fit hw E n) (fun _ =>
    Rels.bind (fun s hs => ?_) (fun _ =>
    Rels.bind (applyCircumference_fit b E n) (fun _ =>
    Rels.bind (fun s hs => fit_of_draw hs (applySupports_frame (by rw [hs.sig]; exact hw)) ?_) (fun _ =>
    Rels.bind (fun s hs => fit_of_draw hs (DrawFrame.of_frame (updateSupports_frame E true true s)) (fun _ => by decide +kernel)) (fun _ =>
    Rels.bind Rels.get (fun _ => Rels.bind (Rels.when (fun s hs => ?_)) (fun _ => Rels.when (fun s hs => ?_))))))))))
  · have f := applyInjection_frame E n s
    exact fit_of_frame hs f.ord f.sig f.len f.attr (fun _ _ _ h => h)
  · intro i a ha h
    have := supportDrawn_name h
    replace this : a ∈ ["SectionOffset", "SectionRoll", "PlinthOffset", "PlinthRoll", "GirderOffset", "GirderRoll"] := this
    exact (by decide +kernel : ∀ a ∈ fixedNames ++ shapedNames,
      a ∉ ["SectionOffset", "SectionRoll", "PlinthOffset", "PlinthRoll", "GirderOffset", "GirderRoll"]) a ha this
  · exact fit_of_draw hs (DrawFrame.of_frame (updateMagnets_modifies none s)) (fun _ => by decide +kernel)
  · exact fit_of_draw hs (DrawFrame.of_frame (updateCavities_frame none s)) (fun _ => by decide +kernel)

/-! ### fitting errors keep magnets ready -/

theorem FitState.combined {b t : SC K} (h : FitState b t) (i : Nat) : Combined t.RING i ↔ Combined b.RING i :=
  combined_congr (h.fixed i _ (by decide +kernel)) (h.fixed i _ (by decide +kernel))

theorem FitState.hasLength {b t : SC K} (h : FitState b t) {i : Nat} (hr : HasLength b.RING i) : HasLength t.RING i := by
  obtain ⟨⟨L, h1, h2⟩, h3⟩ := hr
  refine ⟨⟨L, h1, ?_⟩, by rw [h.fixed i _ (by decide +kernel)]; exact h3⟩
  rcases h.length i with h4 | h4
  · rw [h4]; exact h2
  · exact absurd h4 h3

theorem FitState.bends {b t : SC K} (h : FitState b t) {i : Nat} (hr : Bends b.RING i) : Bends t.RING i :=
  ⟨by rw [h.fixed i _ (by decide +kernel)]; exact hr.1, h.hasLength hr.2⟩

theorem FitState.sp {b t : SC K} (h : FitState b t) (i : Nat) {ab : String} (hab : ab ∈ ["A", "B"]) :
    t.RING.attr i ("SetPoint" ++ ab) = b.RING.attr i ("SetPoint" ++ ab) :=
  h.fixed i _ (by revert ab; decide +kernel)

theorem FitState.takesField {b t : SC K} (h : FitState b t) (hf : FittingErrors b) {i j : Nat}
    (haff : j = i ∨ ∃ l, b.RING.attr i "MasterOf" = some (.ords l) ∧ j ∈ l) (hr : TakesField b.RING i j) :
    TakesField t.RING i j := by
  refine ⟨h.len ▸ hr.inRing, fun ab hab => ?_, fun u hu ab hab => ?_, fun hb => ?_⟩
  · have e := h.fixed j ("Polynom" ++ ab ++ "Offset") (by revert ab; decide +kernel)
    have := hr.offsets ab hab
    unfold HasVec at this ⊢
    rwa [e]
  · have e := h.fixed j ("SysPol" ++ u ++ "From" ++ ab) (by revert u ab; decide +kernel)
    have := hr.systematic u hu ab hab
    rw [e, arrLen_congr (h.sp i hab)]
    exact this
  · apply h.bends
    rcases hb with hb | hb
    · rcases h.errors i "BendingAngle" (by simp) with he | ⟨hi, sig, err, hs, -, -⟩
      · have he : t.RING.attr i "BendingAngleError" = b.RING.attr i "BendingAngleError" := he
        exact hr.bends (Or.inl (by rw [← he]; exact hb))
      · exact (hf.angles i hi sig hs).2 j haff
    · exact hr.bends (Or.inr ((h.combined i).1 hb))

theorem FitState.magnet {b t : SC K} (h : FitState b t) (hf : FittingErrors b) {i : Nat} (hr : MagnetReady b.RING i) : MagnetReady t.RING i := by
  have hcal : ∀ ab ∈ ["A", "B"], HasVec t.RING i ("CalError" ++ ab) ∧ arrLen t.RING i ("CalError" ++ ab) ≤ arrLen b.RING i ("SetPoint" ++ ab) ∧
      (Combined b.RING i → ab = "B" → 2 ≤ arrLen t.RING i ("CalError" ++ ab)) := by
    intro ab hab
    have hm : magnetAttrOf ("CalError" ++ ab) = "CalError" ++ ab := by revert ab; decide +kernel
    have hm' : "CalError" ++ ab ∈ ["CalErrorA", "CalErrorB", "BendingAngle"] := by revert ab; decide +kernel
    rcases h.errors i _ hm' with he | ⟨hi, sig, err, hs, he, hsh⟩
    · rw [hm] at he
      obtain ⟨h1, h2⟩ := hr.calibrations ab hab
      refine ⟨by unfold HasVec; rw [he]; exact h1, by rw [arrLen_congr he]; exact h2, fun hc hB => ?_⟩
      rw [arrLen_congr he, hB]
      exact (hr.combined hc).1
    · rw [hm] at he
      obtain ⟨w, hv, hl, hc⟩ := hf.calibrations i hi ab hab sig hs
      rcases hsh with ⟨w', e, hw', rfl, hel⟩ | ⟨w', x, hw', -⟩
      · have : w' = w := by
          rcases hv with rfl | ⟨c, rfl⟩ <;> rcases hw' with hw' | ⟨c', hw'⟩ <;> cases hw' <;> rfl
        subst this
        refine ⟨⟨e, he⟩, by rw [arrLen_of_vec he, hel]; exact hl, fun hcm hB => by rw [arrLen_of_vec he, hel]; exact hc hcm hB⟩
      · exfalso
        rcases hv with rfl | ⟨c, rfl⟩ <;> rcases hw' with hw' | ⟨c', hw'⟩ <;> cases hw'
  refine ⟨fun ab hab => ?_, fun ab hab => ?_, fun ab hab => ?_, ?_, ?_, ?_, fun hc => ?_, h.takesField hf (Or.inl rfl) hr.self, ?_⟩
  · unfold HasVec
    rw [h.sp i hab, arrLen_congr (h.sp i hab)]; exact hr.setpoints ab hab
  · rw [arrLen_congr (h.sp i hab)]; exact ⟨(hcal ab hab).1, (hcal ab hab).2.1⟩
  · have e := h.fixed i ("NomPolynom" ++ ab) (by revert ab; decide +kernel)
    unfold HasVec
    rw [e, arrLen_congr e, arrLen_congr (h.sp i hab)]
    exact hr.nominal ab hab
  · rw [h.fixed i _ (by decide +kernel)]; exact hr.pass
  · rcases h.errors i "BendingAngle" (by simp) with he | ⟨hi, sig, err, hs, he, hsh⟩
    · have he : t.RING.attr i "BendingAngleError" = b.RING.attr i "BendingAngleError" := he
      rw [he]; exact hr.angleError
    · refine Or.inr ?_
      obtain ⟨⟨x, hx⟩, -⟩ := hf.angles i hi sig hs
      rcases hsh with ⟨w', e, hw', -, -⟩ | ⟨w', y, hw', rfl⟩
      · exfalso
        rcases hx with rfl | ⟨c, rfl⟩ <;> rcases hw' with hw' | ⟨c', hw'⟩ <;> cases hw'
      · exact ⟨y, he⟩
  · rw [h.fixed i _ (by decide +kernel)]; exact hr.flag
  · have hc' := (h.combined i).1 hc
    refine ⟨(hcal "B" (by simp)).2.2 hc' rfl, ?_⟩
    rw [h.fixed i _ (by decide +kernel)]; exact (hr.combined hc').2
  · rw [h.fixed i _ (by decide +kernel)]
    rcases hr.children with h1 | ⟨l, h1, h2⟩
    · exact Or.inl h1
    · exact Or.inr ⟨l, h1, fun c hc => h.takesField hf (Or.inr ⟨l, h1, hc⟩) (h2 c hc)⟩

theorem FitState.corrector {b t : SC K} (h : FitState b t) (hf : FittingErrors b) {i : Nat} {sk : Bool} (hr : CorrectorReady b.RING i sk) :
    CorrectorReady t.RING i sk := by
  refine ⟨h.magnet hf hr.magnet, ?_, ?_⟩
  · rw [h.fixed i _ (by decide +kernel)]
    exact hr.length.imp id h.hasLength
  · rw [h.fixed i _ (by decide +kernel)]; exact hr.limit

theorem FitState.component {b t : SC K} (h : FitState b t) (hf : FittingErrors b) {i k : Nat} {sk d : Bool} (hr : ComponentReady b i sk k d) :
    ComponentReady t i sk k d := by
  have hab : (if sk then "A" else "B") ∈ ["A", "B"] := by cases sk <;> simp
  refine ⟨h.magnet hf hr.magnet, ?_, ?_, fun hd hk => ?_, fun hd hk hi hb => ?_⟩
  · rw [arrLen_congr (h.sp i hab)]; exact hr.component
  · rw [h.fixed i _ (by decide +kernel)]; exact hr.limit
  · rw [h.fixed i _ (by decide +kernel)]; exact hr.angle hd hk
  · rw [h.ord] at hi
    rw [h.fixed i _ (by decide +kernel)] at hb
    obtain ⟨h1, h2, h3⟩ := hr.compensation hd hk hi hb
    refine ⟨h.corrector hf h1, ?_, ?_⟩
    · rw [arrLen_congr (h.fixed i "SetPointB" (by decide +kernel))]; exact h2
    · rw [h.fixed i _ (by decide +kernel)]; exact h3

theorem FitState.fitting {b t : SC K} (h : FitState b t) (hf : FittingErrors b) : FittingErrors t := by
  refine ⟨fun i hi ab hab v hv => ?_, fun i hi v hv => ?_, by rw [h.ord, h.sig]; exact hf.cavities⟩
  · rw [h.ord] at hi
    rw [h.sig] at hv
    obtain ⟨w, h1, h2, h3⟩ := hf.calibrations i hi ab hab v hv
    exact ⟨w, h1, by rw [arrLen_congr (h.sp i hab)]; exact h2, fun hc => h3 ((h.combined i).1 hc)⟩
  · rw [h.ord] at hi
    rw [h.sig] at hv
    obtain ⟨h1, h2⟩ := hf.angles i hi v hv
    refine ⟨h1, fun j hj => h.bends (h2 j ?_)⟩
    rw [h.fixed i _ (by decide +kernel)] at hj
    exact hj

end PySC
