import Verif.Lemmas.RequestsErrors
import Verif.Lemmas.Register
/-
Readiness through sessions, and from registrations.
-/
namespace PySC
set_option linter.unusedSectionVars false
variable {K : Type} [Field K] [LinearOrder K] [FloorRing K]
open Py Spec

/-! ### cavities -/

def cavityNames : List String :=
  ["VoltageSetPoint", "VoltageCalError", "VoltageOffset", "FrequencySetPoint", "FrequencyCalError", "FrequencyOffset", "TimeLagSetPoint",
   "TimeLagCalError", "TimeLagOffset"]

theorem cavityReady_iff {r : Ring K} {i : Nat} : CavityReady r i ↔ ∀ a ∈ cavityNames, ∃ x, r.attr i a = some (.num x) := by
  unfold CavityReady
  constructor
  · intro h a ha
    obtain ⟨f, hf, p, hp, rfl⟩ : ∃ f ∈ ["Voltage", "Frequency", "TimeLag"], ∃ p ∈ ["SetPoint", "CalError", "Offset"], a = f ++ p := by
      revert a; decide +kernel
    exact h f hf p hp
  · intro h f hf p hp
    refine h _ ?_
    exact (by decide +kernel : ∀ f ∈ ["Voltage", "Frequency", "TimeLag"], ∀ p ∈ ["SetPoint", "CalError", "Offset"], f ++ p ∈ cavityNames) f hf p hp

/-- cavities which were in order still are -/
def CavKept (s s' : SC K) : Prop := s'.ORD = s.ORD ∧ s'.SIG = s.SIG ∧ ∀ i, CavityReady s.RING i → CavityReady s'.RING i

instance : PreRel (CavKept (K := K)) :=
  ⟨fun _ => ⟨rfl, rfl, fun _ h => h⟩, fun _ _ _ h1 h2 => ⟨h2.1.trans h1.1, h2.2.1.trans h1.2.1, fun i h => h2.2.2 i (h1.2.2 i h)⟩⟩

theorem cav_of_attr {s s' : SC K} {W : Nat → String → Prop} (ho : s'.ORD = s.ORD) (hg : s'.SIG = s.SIG)
    (h : ∀ i a, ¬ W i a → s'.RING.attr i a = s.RING.attr i a) (hw : ∀ i, ∀ a ∈ cavityNames, ¬ W i a) : CavKept s s' := by
  refine ⟨ho, hg, fun i hr => ?_⟩
  rw [cavityReady_iff] at hr ⊢
  intro a ha
  rw [h i a (hw i a ha)]
  exact hr a ha

theorem cav_of_frame {s s' : SC K} {W : Nat → String → Prop} (h : Frame W s s') (hw : ∀ i, ∀ a ∈ cavityNames, ¬ W i a) : CavKept s s' :=
  cav_of_attr h.ord h.sig h.attr hw

theorem cav_of_draw {s s' : SC K} {W : Nat → String → Prop} (h : DrawFrame W s s') (hw : ∀ i, ∀ a ∈ cavityNames, ¬ W i a) : CavKept s s' :=
  cav_of_attr h.ord h.sig h.attr hw

theorem setNum_cav (i : Nat) (a : String) (x : K) : Rel (CavKept (K := K)) (setAttr i a (.num x)) := by
  refine Rels.setAttr (fun s => ⟨rfl, rfl, fun j hr => ?_⟩)
  rw [cavityReady_iff] at hr ⊢
  intro b hb
  obtain ⟨y, hy⟩ := hr b hb
  show ∃ z, (s.RING.setAttr i a (.num x)).attr j b = some (.num z)
  rw [Ring.attr_setAttr]
  split_ifs with h1 h2
  · exact ⟨x, rfl⟩
  · obtain ⟨rfl, rfl⟩ := h1
    exact absurd (Ring.attr_some_lt hy) h2
  · exact ⟨y, hy⟩

theorem operates_cav (E : Env K) : Operates E (CavKept (K := K)) where
  setCM o sp sk m := Rel.mono (fun _ _ h => cav_of_frame h (fun i a ha hh => by
      rcases hh with ⟨-, rfl⟩ | hh
      · revert ha; cases sk <;> decide +kernel
      · revert hh; revert a; decide +kernel)) (setCMSetpoints_modifies o sp sk m)
  setMagnet o sp sk k m d := Rel.mono (fun _ _ h => cav_of_frame h (fun i a ha hh => by
      rcases hh with ⟨-, rfl | ⟨-, rfl⟩⟩ | hh
      · revert ha; cases sk <;> decide +kernel
      · revert ha; decide +kernel
      · revert hh; revert a; decide +kernel)) (setMagnetSetpoints_modifies o sp sk k m d)
  setCavity o sp p m := by
    unfold setCavitySetpoints
    exact Rels.bind (Rels.rd _) (fun _ => Rels.bind (Rels.forEach (fun _ _ => setNum_cav _ _ _)) (fun _ =>
      Rel.mono (fun _ _ h => cav_of_frame h (fun _ => by decide +kernel)) (updateCavities_frame _)))
  magnets o := Rel.mono (fun _ _ h => cav_of_frame h (fun _ => by decide +kernel)) (updateMagnets_modifies o)
  cavities o := Rel.mono (fun _ _ h => cav_of_frame h (fun _ => by decide +kernel)) (updateCavities_frame o)
  supports b m := Rel.mono (fun _ _ h => cav_of_frame h (fun _ => by decide +kernel)) (updateSupports_frame E b m)
  rng s s' h := by rw [h.1]; exact ⟨rfl, rfl, fun _ h => h⟩
  inj s i := ⟨rfl, rfl, fun _ h => h⟩

theorem stepped_cav {s s' : SC K} (h : Stepped s s') : CavKept s s' := by
  obtain ⟨p, rfl⟩ := h
  exact ⟨rfl, rfl, fun _ h => h⟩

/-- one error of a cavity -/
theorem drawNum_cav {E : Env K} {c : K} {i : Nat} {a : String} {sig : Attr K} (hs : ∃ x, sig = .num x ∨ ∃ c, sig = .pair (.num x) c) :
    Rel (CavKept (K := K)) (drawInto E c i a sig) := by
  have hr : Rel (Stepped (K := K)) (randnCutoff E sig c) := by
    have hp : PreRel (Stepped (K := K)) := ⟨fun s => ⟨s.rng, rfl⟩, fun _ _ _ ⟨p, h1⟩ ⟨q, h2⟩ => ⟨q, by rw [h2, h1]⟩⟩
    exact randnCutoff_rel (R := Stepped) (fun s p => ⟨p, rfl⟩) _ _ _
  intro s
  unfold drawInto
  rw [bind_apply]
  cases h : randnCutoff E sig c s with
  | error e t => have := hr s; rw [h] at this; exact stepped_cav this
  | ok err t =>
    have h1 := hr s
    rw [h] at h1
    have h2 : ∃ x, err = .num x := by
      rcases randnCutoff_shape h with ⟨w, e, hw, -, -⟩ | ⟨w, x, -, hx⟩
      · obtain ⟨x, rfl | ⟨d, rfl⟩⟩ := hs <;> rcases hw with hw | ⟨_, hw⟩ <;> cases hw
      · exact ⟨x, hx⟩
    obtain ⟨x, rfl⟩ := h2
    exact PreRel.trans _ _ _ (stepped_cav h1) (setNum_cav i a x t)

theorem applyErrors_cav {b : SC K} (hw : WellRegistered b.SIG) (hf : FittingErrors b) (E : Env K) (n : K) : CavKept b (applyErrors E n b).state := by
  let R : SC K → SC K → Prop := fun s s' => CavKept b s → CavKept b s'
  have : PreRel R := inferInstanceAs (PreRel (fun s s' => CavKept b s → CavKept b s'))
  refine (show Rel R (applyErrors E n) from ?_) b (PreRel.refl b)
  have up : ∀ {s s' : SC K}, CavKept b s → CavKept s s' → CavKept b s' := fun h1 h2 => PreRel.trans _ _ _ h1 h2
  have nm : ∀ {ords : List Nat} {d : Dict Nat (Kwargs K)} {L : List String} (_ : OnlyNames d L) (_ : ∀ a ∈ cavityNames, a ∉ L)
      (i : Nat), ∀ a ∈ cavityNames, ¬ drawn ords d id i a := by
    rintro ords d L h1 h2 i a ha ⟨-, m, v, hv, rfl⟩
    exact h2 _ ha (h1 _ _ _ hv)
  unfold applyErrors
  refine Rels.bind (fun s hs => up hs ?_) (fun _ =>
    Rels.bind (fun s hs => up hs (cav_of_draw (applyBpm_frame (by rw [hs.2.1]; exact hw)) (by
      rw [hs.2.1]; exact nm hw.bpmNames (by decide +kernel)))) (fun _ =>
    Rels.bind (fun s hs => up hs (cav_of_draw (applyMagnet_frame (by rw [hs.2.1]; exact hw)) ?_)) (fun _ =>
    Rels.bind (fun s hs => up hs ?_) (fun _ =>
    Rels.bind (fun s hs => up hs (cav_of_draw (applyCircumference_frame E n s) (fun _ => by decide +kernel))) (fun _ =>
    Rels.bind (fun s hs => up hs (cav_of_draw (applySupports_frame (by rw [hs.2.1]; exact hw)) ?_)) (fun _ =>
    Rels.bind (fun s hs => up hs (cav_of_frame (updateSupports_frame E true true s) (fun _ => by decide +kernel))) (fun _ =>
    Rels.bind Rels.get (fun _ => Rels.bind (Rels.when (fun s hs => up hs ?_)) (fun _ => Rels.when (fun s hs => up hs ?_))))))))))
  · unfold applyRf
    show CavKept s (forEach _ _ s).state
    refine (Rels.forEach (R := CavKept) (fun i hi => Rels.forEach (fun kv hkv => drawNum_cav ?_))) s
    rw [hs.1, hs.2.1] at hi
    rw [hs.2.1] at hkv
    exact hf.cavities i (mem_intersect.1 hi).1 kv.1 kv.2 ((entries_mem hw.rfSingle).1 hkv)
  · rintro i a ha ⟨-, m, v, hv, rfl⟩
    rw [hs.2.1] at hv
    exact (by decide +kernel : ∀ n ∈ ["MagnetOffset", "MagnetRoll", "CalErrorA", "CalErrorB", "BendingAngle"],
      magnetAttrOf n ∉ cavityNames) _ (hw.magnetNames _ _ _ hv) ha
  · have f := applyInjection_frame E n s
    exact cav_of_attr f.ord f.sig f.attr (fun _ _ _ h => h)
  · intro i a ha h
    have := supportDrawn_name h
    replace this : a ∈ ["SectionOffset", "SectionRoll", "PlinthOffset", "PlinthRoll", "GirderOffset", "GirderRoll"] := this
    exact (by decide +kernel : ∀ a ∈ cavityNames,
      a ∉ ["SectionOffset", "SectionRoll", "PlinthOffset", "PlinthRoll", "GirderOffset", "GirderRoll"]) a ha this
  · exact cav_of_frame (updateMagnets_modifies none s) (fun _ => by decide +kernel)
  · exact cav_of_frame (updateCavities_frame none s) (fun _ => by decide +kernel)

/-! ### sessions -/

theorem ShapeKept.fitting {s s' : SC K} (h : ShapeKept s s') (hf : FittingErrors s) : FittingErrors s' := by
  have k := h.1.kept
  refine ⟨fun i hi ab hab v hv => ?_, fun i hi v hv => ?_, by rw [h.2.1, h.2.2]; exact hf.cavities⟩
  · rw [h.2.1] at hi
    rw [h.2.2] at hv
    obtain ⟨w, h1, h2, h3⟩ := hf.calibrations i hi ab hab v hv
    refine ⟨w, h1, ?_, fun hc => h3 ?_⟩
    · by_cases hv : HasVec s.RING i ("SetPoint" ++ ab)
      · rw [(h.1.spVec hab hv).2]; exact h2
      · refine h2.trans (le_trans (le_of_eq ?_) (Nat.zero_le _))
        unfold arrLen
        split
        · rename_i u hu; exact absurd ⟨u, hu⟩ hv
        · rfl
    · exact (combined_congr (k i _ (by decide +kernel)) (k i _ (by decide +kernel))).1 hc
  · rw [h.2.1] at hi
    rw [h.2.2] at hv
    obtain ⟨h1, h2⟩ := hf.angles i hi v hv
    refine ⟨h1, fun j hj => ?_⟩
    rw [k i _ (by decide +kernel)] at hj
    have := h2 j hj
    unfold Bends HasLength at this ⊢
    rw [k j "BendingAngle" (by decide +kernel), k j "Length" (by decide +kernel), k j "PassMethod" (by decide +kernel)]
    exact this

/-- what a session keeps -/
structure SessionKept (s t : SC K) : Prop where
  ord : t.ORD = s.ORD
  sig : t.SIG = s.SIG
  fitting : FittingErrors t
  magnet : ∀ i, MagnetReady s.RING i → MagnetReady t.RING i
  corrector : ∀ i sk, CorrectorReady s.RING i sk → CorrectorReady t.RING i sk
  component : ∀ i sk k d, ComponentReady s i sk k d → ComponentReady t i sk k d
  cavity : ∀ i, CavityReady s.RING i → CavityReady t.RING i

theorem session_kept {W : World K} {s t : SC K} (h : Session W s t) (hw : WellRegistered s.SIG) (hf : FittingErrors s) : SessionKept s t := by
  induction h with
  | start => exact ⟨rfl, rfl, hf, fun _ h => h, fun _ _ h => h, fun _ _ _ _ h => h, fun _ h => h⟩
  | @operation t _ c hc ih =>
    have h1 := (operates_shape W.E).run W rfl c hc t
    have h2 := (operates_cav W.E).run W rfl c hc t
    exact ⟨h1.2.1.trans ih.ord, h1.2.2.trans ih.sig, h1.fitting ih.fitting, fun i h => h1.1.magnet (ih.magnet i h),
      fun i sk h => h1.1.corrector (ih.corrector i sk h), fun i sk k d h => h1.1.component h1.2.1 (ih.component i sk k d h),
      fun i h => h2.2.2 i (ih.cavity i h)⟩
  | @errors t _ n ih =>
    have hw' : WellRegistered t.SIG := by rw [ih.sig]; exact hw
    have h1 := applyErrors_fit hw' W.E n
    have h2 := applyErrors_cav hw' ih.fitting W.E n
    exact ⟨h1.ord.trans ih.ord, h1.sig.trans ih.sig, h1.fitting ih.fitting, fun i h => h1.magnet ih.fitting (ih.magnet i h),
      fun i sk h => h1.corrector ih.fitting (ih.corrector i sk h), fun i sk k d h => h1.component ih.fitting (ih.component i sk k d h),
      fun i h => h2.2.2 i (ih.cavity i h)⟩

/-! ### registrations -/

/-- a limit for each plane, or none -/
def TwoLimits (r : Ring K) (i : Nat) : Prop := r.attr i "CMlimit" = none ∨ ∃ l, r.attr i "CMlimit" = some (.lims l) ∧ l.length = 2

def LimitsKept (s s' : SC K) : Prop := ∀ i, TwoLimits s.RING i → TwoLimits s'.RING i

instance : PreRel (LimitsKept (K := K)) := ⟨fun _ _ h => h, fun _ _ _ h1 h2 i h => h2 i (h1 i h)⟩

theorem LimitsKept.same {s s' : SC K} (h : ∀ i, s'.RING.attr i "CMlimit" = s.RING.attr i "CMlimit") : LimitsKept s s' := by
  intro i hi; unfold TwoLimits; rw [h i]; exact hi

theorem LimitsKept.set {s : SC K} {i : Nat} {a : String} {v : Attr K} (h : a ≠ "CMlimit") :
    LimitsKept s { s with RING := s.RING.setAttr i a v } := LimitsKept.same (fun _ => Ring.attr_setAttr_ne h.symm)

theorem LimitsKept.lims {s : SC K} {i : Nat} {l : List (Lim K)} (hl : TwoLimits s.RING i → l.length = 2) :
    LimitsKept s { s with RING := s.RING.setAttr i "CMlimit" (.lims l) } := by
  intro j hj
  show TwoLimits (s.RING.setAttr i "CMlimit" (.lims l)) j
  unfold TwoLimits
  rw [Ring.attr_setAttr]
  split_ifs with h1 h2
  · obtain ⟨rfl, -⟩ := h1
    exact Or.inr ⟨l, rfl, hl hj⟩
  · exact Or.inl rfl
  · exact hj

theorem setCMlimit_kept (ind k : Nat) (v : Attr K) : Rel (LimitsKept (K := K)) (setCMlimit ind k v) := by
  intro s
  unfold setCMlimit
  cases ha : s.RING.getA ind "CMlimit" with
  | error e =>
    rw [bind_apply, show rd (fun r => r.getA ind "CMlimit") s = .error e s from by unfold PySC.rd; simp only [ha]]
    exact PreRel.refl s
  | ok a =>
    rw [bind_apply, rd_apply_ok ha]
    show LimitsKept s ((lift a.toLims >>= _) s).state
    cases hl : a.toLims with
    | error e => exact PreRel.refl s
    | ok ls =>
      cases hv : v.toLim with
      | error e => exact PreRel.refl s
      | ok l =>
        cases hk : idx ls k with
        | error e =>
          show LimitsKept s ((lift (idx ls k) >>= _) s).state
          rw [hk]; exact PreRel.refl s
        | ok x =>
          have : LimitsKept s (setAttr ind "CMlimit" (.lims (ls.set k l)) s).state := by
            have hlt : ind < s.RING.length := Ring.attr_some_lt (Ring.getA_eq_ok.1 ha)
            rw [setAttr_apply hlt]
            refine LimitsKept.lims (fun h => ?_)
            rw [List.length_set]
            unfold TwoLimits at h
            rw [Ring.getA_eq_ok.1 ha] at h
            rcases h with h | ⟨l', h, hl'⟩
            · cases h
            · cases h; cases hl; exact hl'
          show LimitsKept s ((lift (idx ls k) >>= fun _ => setAttr ind "CMlimit" (.lims (ls.set k l))) s).state
          rw [hk]; exact this

theorem registerMagnet1_limits (ords : List Nat) (kw : Kwargs K) (ind : Nat) : Rel (LimitsKept (K := K)) (registerMagnet1 ords kw ind) := by
  unfold registerMagnet1 registerZeros addPolynom modSig
  rels
  · exact LimitsKept.same (fun _ => rfl)
  · rename_i ab hab _ f hf _
    simp only [List.mem_cons, List.not_mem_nil, or_false] at hab hf
    rcases hab with rfl | rfl <;> rcases hf with rfl | rfl | rfl <;> exact LimitsKept.set (by decide)
  · exact LimitsKept.set (by decide)
  · exact LimitsKept.set (by decide)
  · exact LimitsKept.set (by decide)
  · exact LimitsKept.set (by decide)
  · rename_i p hp _
    refine LimitsKept.set ?_
    intro h
    simp [magnetInit] at hp
    rcases hp with rfl | rfl | rfl | rfl | rfl | rfl <;> simp at h
  · unfold optionalMagnetFields ensureCMlimit
    refine Rels.bind (Rels.withKey (fun _ => ?_)) (fun _ => Rels.bind ?_ (fun _ => Rels.bind (Rels.withKey (fun _ => setCMlimit_kept _ _ _))
      (fun _ => Rels.bind (Rels.withKey (fun _ => setCMlimit_kept _ _ _)) (fun _ => Rels.bind (Rels.withKey (fun _ => ?_))
      (fun _ => Rels.withKey (fun _ => ?_))))))
    · rels; exact LimitsKept.set (by decide)
    · rels; exact LimitsKept.lims (fun _ => rfl)
    · rels; exact LimitsKept.set (by decide)
    · rels; exact LimitsKept.set (by decide)

theorem registerMagnets_twoLimits {ords : List Nat} {kw : Kwargs K} {s s' : SC K} (h : registerMagnets ords kw s = .ok () s') (i : Nat)
    (hi : TwoLimits s.RING i) : TwoLimits s'.RING i := by
  have : Rel (LimitsKept (K := K)) (registerMagnets ords kw) := by
    unfold registerMagnets modOrd
    rels
    · exact LimitsKept.same (fun _ => rfl)
    · exact registerMagnet1_limits _ _ _
  exact this.ok h i hi

/-- the limit of skew quadrupoles is the one given by the user -/
def SkewGiven (kw : Kwargs K) (s s' : SC K) : Prop :=
  ∀ i, s'.RING.attr i "SkewQuadLimit" = s.RING.attr i "SkewQuadLimit" ∨
    (i < s.RING.length ∧ ∃ v, kw.get? "SkewQuad" = some v ∧ s'.RING.attr i "SkewQuadLimit" = some v)

def SkewGrow (kw : Kwargs K) (s s' : SC K) : Prop := s'.RING.length = s.RING.length ∧ SkewGiven kw s s'

instance (kw : Kwargs K) : PreRel (SkewGrow kw) :=
  ⟨fun _ => ⟨rfl, fun _ => Or.inl rfl⟩, fun _ _ _ h1 h2 => ⟨h2.1.trans h1.1, fun i => by
    rcases h2.2 i with h | ⟨hl, h⟩
    · rw [h]; exact h1.2 i
    · exact Or.inr ⟨h1.1 ▸ hl, h⟩⟩⟩

theorem SkewGrow.set {kw : Kwargs K} {s : SC K} {i : Nat} {a : String} {v : Attr K} (h : a ≠ "SkewQuadLimit") :
    SkewGrow kw s { s with RING := s.RING.setAttr i a v } :=
  ⟨Ring.length_setAttr .., fun _ => Or.inl (Ring.attr_setAttr_ne h.symm)⟩

theorem registerMagnet1_skew (ords : List Nat) (kw : Kwargs K) (ind : Nat) : Rel (SkewGrow kw) (registerMagnet1 ords kw ind) := by
  unfold registerMagnet1 registerZeros addPolynom modSig
  rels
  · exact ⟨rfl, fun _ => Or.inl rfl⟩
  · rename_i ab hab _ f hf _
    simp only [List.mem_cons, List.not_mem_nil, or_false] at hab hf
    rcases hab with rfl | rfl <;> rcases hf with rfl | rfl | rfl <;> exact SkewGrow.set (by decide)
  · exact SkewGrow.set (by decide)
  · exact SkewGrow.set (by decide)
  · exact SkewGrow.set (by decide)
  · exact SkewGrow.set (by decide)
  · rename_i p hp _
    refine SkewGrow.set ?_
    intro h
    simp [magnetInit] at hp
    rcases hp with rfl | rfl | rfl | rfl | rfl | rfl <;> simp at h
  · unfold optionalMagnetFields ensureCMlimit setCMlimit
    refine Rels.bind (Rels.withKey (fun _ => ?_)) (fun _ => Rels.bind ?_ (fun _ => Rels.bind (Rels.withKey (fun _ => ?_))
      (fun _ => Rels.bind (Rels.withKey (fun _ => ?_)) (fun _ => Rels.bind ?_
      (fun _ => Rels.withKey (fun _ => ?_))))))
    · rels; exact SkewGrow.set (by decide)
    · rels; exact SkewGrow.set (by decide)
    · rels; exact SkewGrow.set (by decide)
    · rels; exact SkewGrow.set (by decide)
    · unfold withKey
      cases hk : kw.get? "SkewQuad" with
      | none => exact Rels.pure' _
      | some v =>
        refine Rels.setAttr (fun s => ⟨Ring.length_setAttr .., fun j => ?_⟩)
        show (s.RING.setAttr ind _ v).attr j _ = _ ∨ _ ∧ ∃ w, _ ∧ (s.RING.setAttr ind _ v).attr j _ = _
        by_cases hj : j = ind
        · subst hj
          by_cases hl : j < s.RING.length
          · exact Or.inr ⟨hl, v, hk, Ring.attr_setAttr_same hl⟩
          · left
            rw [Ring.attr_setAttr, if_pos ⟨rfl, rfl⟩, if_neg hl, Ring.attr, List.getElem?_eq_none (not_lt.1 hl)]; rfl
        · exact Or.inl (Ring.attr_setAttr_ne' hj)
    · rels; exact SkewGrow.set (by decide)

theorem registerMagnets_skew {ords : List Nat} {kw : Kwargs K} {s s' : SC K} (h : registerMagnets ords kw s = .ok () s') : SkewGiven kw s s' := by
  have : Rel (SkewGrow kw) (registerMagnets ords kw) := by
    unfold registerMagnets modOrd
    rels
    · exact ⟨rfl, fun _ => Or.inl rfl⟩
    · exact registerMagnet1_skew _ _ _
  exact (this.ok h).2

theorem registered_magnet {ords : List Nat} {kw : Kwargs K} {s s' : SC K} (h : registerMagnets ords kw s = .ok () s')
    (hmaster : "MasterOf" ∉ kw.keys) {i : Nat} (hi : i ∈ ords) (hr : RawMagnet s.RING i) : MagnetReady s'.RING i := by
  have hfr := (registerMagnets_frame ords kw).ok h
  have hopt := registerMagnets_options h i
  have same : ∀ n ∉ magnetAttrs, s'.RING.attr i n = s.RING.attr i n := fun n hn => hfr.attr i n (fun hw => hn hw.2)
  have clean : ∀ n ∈ ["PolynomAOffset", "PolynomBOffset", "SysPolAFromA", "SysPolAFromB", "SysPolBFromA", "SysPolBFromB",
      "BendingAngleError"], s'.RING.attr i n = none := by
    intro n hn
    rw [same n (by revert n; decide +kernel)]
    exact hr.clean n (by revert n; decide +kernel)
  have bends : Bends s.RING i → Bends s'.RING i := by
    unfold Bends HasLength
    rw [same "BendingAngle" (by decide +kernel), same "Length" (by decide +kernel), same "PassMethod" (by decide +kernel)]
    exact id
  have poly : ∀ ab ∈ ["A", "B"], ∃ p, s.RING.attr i ("Polynom" ++ ab) = some (.vec p) ∧ p ≠ [] ∧
      s'.RING.attr i ("NomPolynom" ++ ab) = some (.vec p) ∧ s'.RING.attr i ("SetPoint" ++ ab) = some (.vec p) ∧
      s'.RING.attr i ("CalError" ++ ab) = some (.vec (zeros p.length)) := by
    intro ab hab
    obtain ⟨p, h1, h2, h3, h4⟩ := (registerMagnets_fresh h i hi).poly ab hab
    obtain ⟨q, h5, h6⟩ := hr.poly ab hab
    rw [h1] at h5; cases h5
    exact ⟨p, h1, h6, h2, h3, h4⟩
  have al : ∀ {a : String} {v : List K}, s'.RING.attr i a = some (.vec v) → arrLen s'.RING i a = v.length := by
    intro a v h; unfold arrLen; rw [h]
  have hlt : i < s'.RING.length := by
    obtain ⟨p, -, -, h1, -⟩ := poly "A" (by simp)
    exact Ring.attr_some_lt h1
  have hba : s'.RING.attr i "BendingAngle" = s.RING.attr i "BendingAngle" := same _ (by decide +kernel)
  refine ⟨fun ab hab => ?_, fun ab hab => ?_, fun ab hab => ?_, ?_, ?_, ?_, fun hc => ?_, ⟨hlt, fun ab hab => ?_, fun t ht ab hab => ?_, fun hb => ?_⟩, ?_⟩
  · obtain ⟨p, -, h0, -, h2, -⟩ := poly ab hab
    exact ⟨⟨p, h2⟩, by rw [al h2]; exact List.length_pos_iff.2 h0⟩
  · obtain ⟨p, -, h0, -, h2, h3⟩ := poly ab hab
    exact ⟨⟨_, h3⟩, by rw [al h2, al h3]; simp [zeros]⟩
  · obtain ⟨p, -, h0, h1, h2, h3⟩ := poly ab hab
    exact ⟨⟨_, h1⟩, by rw [al h2, al h1]⟩
  · rw [same _ (by decide +kernel)]; exact hr.pass
  · exact Or.inl (clean _ (by simp))
  · rcases hopt.2 with h' | h'
    · exact Or.inl (h'.trans (hr.clean _ (by simp)))
    · exact Or.inr ⟨true, h'⟩
  · obtain ⟨-, v, x, hv, hx, hx0⟩ := hr.bend (by rw [← hba]; exact hc.1)
    obtain ⟨p, h0, -, h1, h2, h3⟩ := poly "B" (by simp)
    simp only [String.reduceAppend] at h0 h1 h2 h3
    rw [hv] at h0; cases h0
    refine ⟨?_, v, x, h1, hx, hx0⟩
    rw [al h3]
    have := (List.getElem?_eq_some_iff.1 hx).1
    simp [zeros]; omega
  · refine Or.inl (clean _ ?_)
    revert ab; decide +kernel
  · refine Or.inl (clean _ ?_)
    revert t ab; decide +kernel
  · rcases hb with hb | hb
    · rw [clean _ (by simp)] at hb; cases hb
    · exact bends (hr.bend (by rw [← hba]; exact hb.1)).1
  · left
    rw [hopt.1 hmaster]
    exact hr.clean _ (by simp)

theorem registered_corrector {ords : List Nat} {kw : Kwargs K} {s s' : SC K} (h : registerMagnets ords kw s = .ok () s')
    (hmaster : "MasterOf" ∉ kw.keys) {i : Nat} (hi : i ∈ ords) (hr : RawMagnet s.RING i)
    (hl : s.RING.attr i "PassMethod" = some (.str "CorrectorPass") ∨ HasLength s.RING i) (sk : Bool) : CorrectorReady s'.RING i sk := by
  have hfr := (registerMagnets_frame ords kw).ok h
  have same : ∀ n ∉ magnetAttrs, s'.RING.attr i n = s.RING.attr i n := fun n hn => hfr.attr i n (fun hw => hn hw.2)
  refine ⟨registered_magnet h hmaster hi hr, ?_, ?_⟩
  · unfold HasLength
    rw [same "PassMethod" (by decide +kernel), same "Length" (by decide +kernel)]; exact hl
  · rcases registerMagnets_twoLimits h i (Or.inl (hr.clean _ (by simp))) with h' | ⟨l, h1, h2⟩
    · exact Or.inl h'
    · exact Or.inr ⟨l, h1, by rw [h2]; cases sk <;> decide⟩

theorem registered_component {ords : List Nat} {kw : Kwargs K} {s s' : SC K} (h : registerMagnets ords kw s = .ok () s')
    (hmaster : "MasterOf" ∉ kw.keys) {i : Nat} (hi : i ∈ ords) (hr : RawMagnet s.RING i)
    (hskew : ∀ v, kw.get? "SkewQuad" = some v → (∃ l, v = .lim l) ∨ ∃ x, v = .num x) {sk : Bool} {k : Nat}
    (hk : k < arrLen s.RING i ("Polynom" ++ if sk then "A" else "B")) (d : Bool) : ComponentReady s' i sk k d := by
  have hfr := (registerMagnets_frame ords kw).ok h
  have same : ∀ n ∉ magnetAttrs, s'.RING.attr i n = s.RING.attr i n := fun n hn => hfr.attr i n (fun hw => hn hw.2)
  have hba : s'.RING.attr i "BendingAngle" = s.RING.attr i "BendingAngle" := same _ (by decide +kernel)
  have hm := registered_magnet h hmaster hi hr
  obtain ⟨p, h1, h2, h3, h4⟩ := (registerMagnets_fresh h i hi).poly (if sk then "A" else "B") (by cases sk <;> simp)
  obtain ⟨q, g1, g2, g3, g4⟩ := (registerMagnets_fresh h i hi).poly "B" (by simp)
  refine ⟨hm, ?_, ?_, fun hd ho => ?_, fun hd ho hh hb => ?_⟩
  · unfold arrLen at hk ⊢
    rw [h1] at hk; rw [h3]; exact hk
  · rcases registerMagnets_skew h i with h' | ⟨-, v, h5, h6⟩
    · exact Or.inl (h'.trans (hr.clean _ (by simp)))
    · rcases hskew v h5 with ⟨l, rfl⟩ | ⟨x, rfl⟩
      · exact Or.inr (Or.inl ⟨l, h6⟩)
      · exact Or.inr (Or.inr ⟨x, h6⟩)
  · cases hb : s'.RING.attr i "BendingAngle" with
    | none => exact Or.inl rfl
    | some a =>
      right
      obtain ⟨⟨⟨x, hx⟩, -⟩, -⟩ := hr.bend (by rw [← hba, hb]; rfl)
      rw [← hba, hb] at hx
      exact ⟨x, hx⟩
  · obtain ⟨hbe, v, x, hv, hx, hx0⟩ := hr.bend (by rw [← hba]; exact hb)
    simp only [String.reduceAppend] at g1 g2 g3
    rw [hv] at g1; cases g1
    refine ⟨registered_corrector h hmaster hi hr (Or.inr hbe.2) false, ?_, _, x, g2, hx, hx0⟩
    unfold arrLen
    rw [g3]
    exact (List.getElem?_eq_some_iff.1 hx).1

theorem registered_cavity {ords : List Nat} {kw : Kwargs K} {s s' : SC K} (h : registerCavities ords kw s = .ok () s') {i : Nat} (hi : i ∈ ords)
    (hr : ∀ f ∈ ["Voltage", "Frequency", "TimeLag"], ∃ x, s.RING.attr i f = some (.num x)) : CavityReady s'.RING i := by
  intro f hf p hp
  have hf' : f ∈ rfProperties := (by decide +kernel : ∀ f ∈ ["Voltage", "Frequency", "TimeLag"], f ∈ rfProperties) f hf
  obtain ⟨v, h0, h1, h2, h3⟩ := registerCavities_fresh h i hi f hf'
  obtain ⟨x, hx⟩ := hr f hf
  rw [hx] at h0; cases h0
  simp only [List.mem_cons, List.not_mem_nil, or_false] at hp
  rcases hp with rfl | rfl | rfl
  · exact ⟨x, h1⟩
  · exact ⟨0, h3⟩
  · exact ⟨0, h2⟩

end PySC
