import Verif.Spec.Orbit
import Verif.Lemmas.Beam
import Verif.Lemmas.ApplyErrors
import Verif.Lemmas.CavitySetpoints
import Verif.Lemmas.Correctors
import Verif.Props.Setpoints
import Mathlib.Data.List.GetD
/-
Lemmas about orbit and trajectory correction.
-/
namespace PySC
set_option linter.unusedSectionVars false
variable {K : Type} [Field K] [LinearOrder K]
open Py Spec

/-! ### What a correction may change -/

theorem Spec.OnlyCorrectors.refl (H V F : List Nat) (s : SC K) : OnlyCorrectors H V F s s := ⟨DrawFrame.refl s, le_refl _⟩

theorem correctorWrites_congr {r r' : Ring K} {H V F : List Nat} (hr : ∀ i, r'.attr i "MasterOf" = r.attr i "MasterOf")
    {i : Nat} {a : String} (h : correctorWrites r' H V F i a) : correctorWrites r H V F i a := by
  rcases h with h | h | ⟨⟨c, hc, h⟩, ha⟩ | h
  · exact Or.inl h
  · exact Or.inr (Or.inl h)
  · refine Or.inr (Or.inr (Or.inl ⟨⟨c, hc, ?_⟩, ha⟩))
    rcases h with h | ⟨l, hl, h⟩
    · exact Or.inl h
    · exact Or.inr ⟨l, by rw [← hr]; exact hl, h⟩
  · exact Or.inr (Or.inr (Or.inr h))

theorem not_correctorWrites_masterOf {r : Ring K} {H V F : List Nat} {i : Nat} : ¬ correctorWrites r H V F i "MasterOf" := by
  rintro (⟨-, h⟩ | ⟨-, h⟩ | ⟨-, h⟩ | ⟨-, h⟩) <;> simp at h

theorem Spec.OnlyCorrectors.trans {H V F : List Nat} {a b c : SC K} (h1 : OnlyCorrectors H V F a b) (h2 : OnlyCorrectors H V F b c) :
    OnlyCorrectors H V F a c := by
  refine ⟨DrawFrame.trans _ _ _ h1.frame ?_, h1.rng.trans h2.rng⟩
  have f := h2.frame
  refine ⟨f.ideal, f.inj, f.sig, f.ord, f.len, fun i at' hn => f.attr i at' (fun hw => hn ?_)⟩
  exact correctorWrites_congr (fun j => h1.frame.attr j _ not_correctorWrites_masterOf) hw

instance (H V F : List Nat) : PreRel (OnlyCorrectors (K := K) H V F) :=
  ⟨OnlyCorrectors.refl H V F, fun _ _ _ => OnlyCorrectors.trans⟩

instance : PreRel (OnlyRng (K := K)) := ⟨OnlyRng.refl, fun _ _ _ => OnlyRng.trans⟩

theorem OnlyRng.onlyCorrectors {H V F : List Nat} {s s' : SC K} (h : OnlyRng s s') : OnlyCorrectors H V F s s' := by
  obtain ⟨h1, h2⟩ := h
  refine ⟨?_, h2⟩
  rw [h1]
  exact ⟨rfl, rfl, rfl, rfl, rfl, fun _ _ _ => rfl⟩

theorem randnc_onlyRng (E : Env K) (cut : K) (n : Nat) : Rel OnlyRng (randnc E cut n) := by
  intro s
  cases h : randnc E cut n s with
  | ok l s' => exact (randnc_fresh h).1
  | error e s' =>
    unfold randnc at h
    cases hr : randncFrom E cut n s.rng with
    | error e => rw [hr] at h; cases h; exact OnlyRng.refl _
    | ok p => rw [hr] at h; cases h

theorem generateBunches_onlyRng (E : Env K) (B : BeamEnv K) (n : Option Nat) : Rel OnlyRng (generateBunches E B n) := by
  unfold generateBunches
  rels
  all_goals exact randnc_onlyRng _ _ _

theorem tracking_onlyRng (E : Env K) (B : BeamEnv K) (refs : List Nat) : Rel OnlyRng (tracking E B refs) := by
  unfold tracking
  rels
  all_goals exact generateBunches_onlyRng _ _ _

theorem realBpmReading_onlyRng (E : Env K) (B : BeamEnv K) (ords : List Nat) (nt : Nat)
    (trk : Nat → Nat → List (Option K × Option K)) : Rel OnlyRng (realBpmReading E B ords nt trk) := by
  unfold realBpmReading
  rels
  all_goals exact randnc_onlyRng _ _ _

/-- a reading changes nothing but the position in the random stream, also when it fails -/
theorem bpmReading_onlyRng (E : Env K) (B : BeamEnv K) (req : Option (List Nat)) (c : Bool) : Rel OnlyRng (bpmReading E B req c) := by
  unfold bpmReading
  rels
  all_goals first | exact tracking_onlyRng _ _ _ | exact realBpmReading_onlyRng _ _ _ _ _

/-- number of columns of a reading -/
def columns (s : SC K) (bpms : List Nat) : Nat :=
  (if s.INJ.trackMode = "PORB" then 1 else s.INJ.nTurns) * (s.ORD.BPM.filter (fun i => decide (i ∈ bpms))).length

theorem mapM_except_length {α β : Type} {f : α → Except Err β} {l : List α} {r : List β} (h : l.mapM f = .ok r) :
    r.length = l.length := by
  induction l generalizing r with
  | nil => cases h; rfl
  | cons a l ih =>
    rw [List.mapM_cons] at h
    obtain ⟨b, -, h⟩ := Except.bind_eq_ok'.1 h
    obtain ⟨bs, h2, h⟩ := Except.bind_eq_ok'.1 h
    cases h
    simp [ih h2]

theorem bpmReading_length {E : Env K} {B : BeamEnv K} {bpms : List Nat} {c : Bool} {s s' : SC K} {r : Reading K}
    (h : bpmReading E B (some bpms) c s = .ok r s') : r.x.length = columns s bpms ∧ r.y.length = columns s bpms := by
  unfold bpmReading at h
  have h := bindGet_eq_ok.1 h
  obtain ⟨ords, ho, h⟩ := bindLift_eq_ok.1 h
  simp only at h
  have hords : ords = s.ORD.BPM.filter (fun i => decide (i ∈ bpms)) := by
    unfold registeredBpms at ho
    simp only at ho
    split at ho <;> cases ho
    rfl
  unfold columns
  rw [← hords]
  obtain ⟨shots, s1, h1, h⟩ := bind_eq_ok.1 h
  by_cases hn : s.INJ.nShots = 0
  · rw [if_pos hn] at h; cases h
  rw [if_neg hn] at h
  by_cases hp : s.INJ.trackMode = "PORB"
  · rw [if_pos hp] at h
    obtain ⟨x, hx, h⟩ := bindLift_eq_ok.1 h
    obtain ⟨y, hy, h⟩ := bindLift_eq_ok.1 h
    cases h
    rw [if_pos hp]
    refine ⟨?_, ?_⟩
    · rw [mapM_except_length hx, flatten2_length]
    · rw [mapM_except_length hy, flatten2_length]
  · rw [if_neg hp] at h ⊢
    split at h
    · obtain ⟨x, _, h⟩ := bindLift_eq_ok.1 h
      obtain ⟨y, _, h⟩ := bindLift_eq_ok.1 h
      cases h; exact ⟨flatten2_length _ _ _, flatten2_length _ _ _⟩
    · cases h; exact ⟨flatten2_length _ _ _, flatten2_length _ _ _⟩

theorem columns_congr {s s' : SC K} {H V F : List Nat} (h : OnlyCorrectors H V F s s') (bpms : List Nat) :
    columns s' bpms = columns s bpms := by
  unfold columns; rw [h.frame.ord, h.frame.inj]

variable [FloorRing K]

theorem setCMSetpoints_frame (ords : List Nat) (sp : NpArr K) (skew : Bool) (method : String) (s : SC K) :
    Frame (fun i a => (i ∈ ords ∧ a = "SetPoint" ++ plane skew) ∨ ((∃ c ∈ ords, Affects s.RING c i) ∧ a ∈ magnetWrites)) s
      (setCMSetpoints ords sp skew method s).state := by
  unfold setCMSetpoints
  rw [bind_apply]
  cases h0 : lift (checkInput method ords sp) s with
  | error e s1 => rw [lift_eq_error] at h0; rw [h0.2]; exact Frame.refl _
  | ok sps s1 =>
    rw [lift_eq_ok] at h0
    obtain ⟨-, rfl⟩ := h0
    simp only
    rw [bind_apply]
    have f1 := setCMLoop_modifies (method := method) (isInt := sps.isInt) (skew := skew) (ords.zip sps.vals) s1
    have f1' := Frame.mono (W' := fun i a => (i ∈ ords ∧ a = "SetPoint" ++ plane skew) ∨
        ((∃ c ∈ ords, Affects s1.RING c i) ∧ a ∈ magnetWrites)) (by
      rintro i a ⟨h1, h2⟩
      left
      refine ⟨?_, h2⟩
      simp only [List.mem_map] at h1
      obtain ⟨p, hp, rfl⟩ := h1
      exact (List.of_mem_zip (a := p.1) (b := p.2) hp).1) f1
    cases h : forEach (ords.zip sps.vals) (fun p => setCM1 skew method sps.isInt p.1 p.2) s1 with
    | error e s2 => rw [h] at f1'; exact f1'
    | ok u s2 =>
      rw [h] at f1' f1
      refine Frame.trans _ _ _ f1' ?_
      refine Frame.mono ?_ (updateMagnets_frame (some ords) s2)
      rintro t a ⟨⟨i, hi, ht⟩, ha⟩
      refine Or.inr ⟨⟨i, hi, ?_⟩, ha⟩
      rcases ht with rfl | ⟨l, hl, hl'⟩
      · exact Or.inl rfl
      · refine Or.inr ⟨l, ?_, hl'⟩
        rw [← hl]; exact (f1.attr _ _ (by rintro ⟨-, h⟩; cases skew <;> simp [plane] at h)).symm

theorem setCM_onlyCorrectors {ords H V F : List Nat} {sp : NpArr K} {skew : Bool} {method : String}
    (h : ∀ i ∈ ords, i ∈ (if skew then V else H)) : Rel (OnlyCorrectors H V F) (setCMSetpoints ords sp skew method) := by
  intro s
  have f := setCMSetpoints_frame ords sp skew method s
  refine ⟨⟨f.ideal, f.inj, f.sig, f.ord, f.len, fun i a hn => f.attr i a (fun hw => hn ?_)⟩, by rw [f.rng]⟩
  rcases hw with ⟨hi, rfl⟩ | ⟨⟨c, hc, hca⟩, ha⟩
  · have := h i hi
    cases skew
    · exact Or.inl ⟨by simpa using this, by simp [plane]⟩
    · exact Or.inr (Or.inl ⟨by simpa using this, by simp [plane]⟩)
  · refine Or.inr (Or.inr (Or.inl ⟨⟨c, ?_, hca⟩, by simpa [magnetWrites] using ha⟩))
    have := h c hc
    cases skew <;> simp at this <;> simp [this]

theorem inject_onlyRng (E : Env K) (B : BeamEnv K) (bpms : List Nat) : Rel OnlyRng (inject E B bpms) := by
  unfold inject
  rels
  all_goals exact bpmReading_onlyRng _ _ _ _

theorem inject_ok {E : Env K} {B : BeamEnv K} {bpms : List Nat} {s s' : SC K} {l : Log K} (h : inject E B bpms s = .ok l s') :
    IsReading E B bpms l ∧ l.before = s ∧ l.after = s' := by
  unfold inject at h
  have h := bindGet_eq_ok.1 h
  obtain ⟨r, s1, h1, h⟩ := bind_eq_ok.1 h
  have h := bindGet_eq_ok.1 h
  cases h
  exact ⟨⟨r, h1, rfl, rfl⟩, rfl, rfl⟩

/-! ### Selection of correctors -/

theorem mem_lastN {α : Type} {n : Nat} {l : List α} {x : α} (h : x ∈ lastN n l) : x ∈ l := by
  unfold lastN at h
  split at h
  · exact h
  · exact List.mem_of_mem_drop h

theorem lastN_eq_tail {α : Type} {n : Nat} {l : List α} (hn : n ≠ 0) : lastN n l = tail n l := by
  unfold lastN tail; rw [if_neg hn]

theorem getLastCM_subset {b : Int} {n : Nat} {bpms cms : List Nat} {r : List Nat × List Int} (h : getLastCM b n bpms cms = .ok r) :
    ∀ i ∈ r.1, i ∈ cms := by
  unfold getLastCM at h
  split at h
  · cases h; intro i hi; exact mem_lastN hi
  · obtain ⟨bo, -, h⟩ := Except.bind_eq_ok'.1 h
    simp only at h
    split at h
    · cases h
    · cases h
      intro i hi
      simp only [List.mem_map] at hi
      obtain ⟨p, hp, rfl⟩ := hi
      have := (List.mem_filter.1 (mem_lastN hp)).1
      obtain ⟨h1, h2⟩ := List.mem_zipIdx' this
      rw [h2]; exact List.getElem_mem _

theorem zipIdx_pairwise {α : Type} (l : List α) (k : Nat) : (l.zipIdx k).Pairwise (fun a b => a.2 < b.2) := by
  induction l generalizing k with
  | nil => simp
  | cons a l ih =>
    rw [List.zipIdx_cons, List.pairwise_cons]
    refine ⟨fun p hp => ?_, ih _⟩
    have := List.le_snd_of_mem_zipIdx hp
    simp only at this ⊢
    omega

theorem lastIndex_upstream {l : Log K} {bpms cms : List Nat} {h : Nat} (hl : lastIndex l bpms cms = .ok h) (h0 : l.reached ≠ 0)
    (hc : cms.Pairwise (· < ·)) {k i : Nat} (hk : cms[k]? = some i) : k < h ↔ Upstream bpms l i := by
  have hklt : k < cms.length := (List.getElem?_eq_some_iff.1 hk).1
  unfold lastIndex at hl
  obtain ⟨r, h1, hl⟩ := Except.bind_eq_ok'.1 hl
  unfold getLastCM at h1
  unfold Upstream
  have hseen : seen l = l.reached := rfl
  rw [hseen]
  split at h1
  · rename_i hfull
    cases h1
    simp only [List.range_one, List.map_cons, List.map_nil] at hl
    cases hl
    refine ⟨fun _ => Or.inl (by omega), fun _ => by simp; omega⟩
  · rename_i hfull
    obtain ⟨b, hb, h1⟩ := Except.bind_eq_ok'.1 h1
    simp only at h1
    split at h1
    · cases h1
    · rename_i hne
      cases h1
      have hb' : bpms[l.reached - 1]? = some b := by
        unfold pyIndex at hb
        rw [if_pos (by omega), idx_eq_ok] at hb
        rw [← hb]; congr 1; omega
      set up := cms.zipIdx.filter (fun p => decide (p.1 ≤ b)) with hup
      have hne' : up ≠ [] := by intro he; exact hne (by rw [he]; rfl)
      have hlast : lastN 1 up = [up.getLast hne'] := by
        rw [lastN_eq_tail (by simp), tail, List.drop_length_sub_one hne']
      rw [hlast] at hl
      simp only [List.map_cons, List.map_nil] at hl
      cases hl
      set p := up.getLast hne' with hp
      have hpm : p ∈ up := List.getLast_mem hne'
      have hpz := (List.mem_filter.1 hpm).1
      have hpb : p.1 ≤ b := by simpa using (List.mem_filter.1 hpm).2
      obtain ⟨hp1, hp2⟩ := List.mem_zipIdx' hpz
      have hh : ((p.2 : Int) + 1).toNat = p.2 + 1 := by omega
      rw [hh]
      constructor
      · intro hkp
        refine Or.inr ⟨b, hb', ?_⟩
        rcases Nat.lt_or_ge k p.2 with hlt | hge
        · have := List.pairwise_iff_getElem.1 hc k p.2 hklt hp1 hlt
          have he : cms[k] = i := (List.getElem?_eq_some_iff.1 hk).2
          rw [he, ← hp2] at this
          exact this.le.trans hpb
        · have : k = p.2 := by omega
          subst this
          have he : cms[p.2] = i := (List.getElem?_eq_some_iff.1 hk).2
          rw [← he, ← hp2]; exact hpb
      · rintro (hlt | ⟨b', hb2, hib⟩)
        · omega
        · rw [hb'] at hb2; cases hb2
          have hmem : (i, k) ∈ up := by
            rw [hup, List.mem_filter]
            refine ⟨?_, by simpa using hib⟩
            rw [List.mem_zipIdx_iff_getElem?]; exact hk
          have hpw : up.Pairwise (fun a b => a.2 < b.2) := (zipIdx_pairwise cms 0).sublist List.filter_sublist
          by_contra hcon
          obtain ⟨n, hn, hne2⟩ := List.getElem_of_mem hmem
          have hlen : n ≤ up.length - 1 := by omega
          have hlastget : up[up.length - 1]'(by omega) = p := by rw [hp, List.getLast_eq_getElem]
          rcases Nat.lt_or_ge n (up.length - 1) with hlt | hge
          · have := List.pairwise_iff_getElem.1 hpw n (up.length - 1) hn (by omega) hlt
            rw [hlastget, hne2] at this
            simp only at this; omega
          · have : n = up.length - 1 := by omega
            subst this
            rw [hlastget] at hne2
            rw [hne2] at hcon; simp at hcon

theorem lastIndex_le {l : Log K} {bpms cms : List Nat} {h : Nat} (hl : lastIndex l bpms cms = .ok h) : h ≤ cms.length := by
  unfold lastIndex at hl
  obtain ⟨r, h1, hl⟩ := Except.bind_eq_ok'.1 hl
  unfold getLastCM at h1
  split at h1
  · cases h1
    simp only [List.range_one, List.map_cons, List.map_nil] at hl
    cases hl
    simp
  · obtain ⟨b, hb, h1⟩ := Except.bind_eq_ok'.1 h1
    simp only at h1
    split at h1
    · cases h1
    · cases h1
      simp only at hl
      split at hl
      · cases hl
      · rename_i k ks hk
        cases hl
        have hkm : k ∈ (lastN 1 (cms.zipIdx.filter (fun p => decide (p.1 ≤ b)))).map (fun p => (p.2 : Int)) := by rw [hk]; simp
        simp only [List.mem_map] at hkm
        obtain ⟨p, hp, rfl⟩ := hkm
        have := (List.mem_zipIdx' (List.mem_filter.1 (mem_lastN hp)).1).1
        omega

/-! ### Frames of the correction functions -/

theorem Rels.bindLift {σ α β : Type} {R : σ → σ → Prop} [PreRel R] {x : Except Err α} {f : α → Py σ β}
    (h : ∀ a, x = .ok a → Rel R (f a)) : Rel R (Py.lift x >>= f) := by
  intro s
  cases hx : x with
  | error e => exact PreRel.refl s
  | ok a => exact h a hx s

section frames
variable (E : Env K) (B : BeamEnv K) (O : OrbitEnv K) (bpms : List Nat) (cms : CMs) (mplus : List (List K)) (ref : List K)
  (F : List Nat)

theorem inject_only {H V F : List Nat} : Rel (OnlyCorrectors (K := K) H V F) (inject E B bpms) :=
  Rel.mono (fun _ _ h => h.onlyCorrectors) (inject_onlyRng E B bpms)

theorem wiggleInner_only {H V F : List Nat} (limit : Nat) (h v : List Nat) (hh : ∀ i ∈ h, i ∈ H) (hv : ∀ i ∈ v, i ∈ V)
    (ds : List (K × K)) (hist : List (Log K)) : Rel (OnlyCorrectors H V F) (wiggleInner E B bpms limit h v ds hist) := by
  induction ds generalizing hist with
  | nil => exact Rels.pure' _
  | cons d ds ih =>
    unfold wiggleInner
    refine Rels.bind (setCM_onlyCorrectors (by simpa using hh)) (fun _ => Rels.bind (setCM_onlyCorrectors (by simpa using hv)) (fun _ =>
      Rels.bind (inject_only E B bpms) (fun l => Rels.ite ?_ (ih _))))
    refine Rels.bind (inject_only E B bpms) (fun l1 => Rels.bind (inject_only E B bpms) (fun l2 => ?_))
    exact Rels.ite (Rels.pure' _) (ih _)

theorem wiggleOuter_only {F : List Nat} (limit : Nat) (ns : List Nat) (hist : List (Log K)) :
    Rel (OnlyCorrectors cms.1 cms.2 F) (wiggleOuter E B O bpms cms limit ns hist) := by
  induction ns generalizing hist with
  | nil => unfold wiggleOuter; exact Rels.ite (Rels.pure' _) (Rels.throw _)
  | cons n ns ih =>
    unfold wiggleOuter
    refine Rels.bindLift (fun h hh => Rels.bindLift (fun v hv => Rels.bind ?_ (fun r => ?_)))
    rotate_left
    · exact Rels.ite (Rels.pure' _) (ih _)
    exact wiggleInner_only E B bpms limit _ _ (getLastCM_subset hh) (getLastCM_subset hv) _ _

theorem wiggling_only {F : List Nat} (limit : Nat) :
    Rel (OnlyCorrectors cms.1 cms.2 F) (wiggling E B O bpms cms limit) := by
  unfold wiggling
  exact Rels.bind (inject_only E B bpms) (fun _ => wiggleOuter_only E B O bpms cms limit _ _)

theorem stepCM_only {H V F ords : List Nat} {dphi : List K} {skew : Bool} (h : ∀ i ∈ ords, i ∈ (if skew then V else H)) :
    Rel (OnlyCorrectors H V F) (stepCM ords dphi skew) := setCM_onlyCorrectors h

theorem stepAll_only {F : List Nat} (dphi : List K) : Rel (OnlyCorrectors cms.1 cms.2 F) (stepAll cms dphi) := by
  unfold stepAll
  exact Rels.bind (stepCM_only (by simp)) (fun _ => stepCM_only (by simp))

theorem firstTurnLoop_only (n : Nat) (hist : List (Log K)) (l : Log K) :
    Rel (OnlyCorrectors cms.1 cms.2 []) (firstTurnLoop E B O bpms cms mplus ref n hist l) := by
  induction n generalizing hist l with
  | zero => exact Rels.throw _
  | succ n ih =>
    unfold firstTurnLoop
    refine Rels.ite (Rels.throw _) (Rels.bind (Rels.lift _) (fun m => Rels.bind (Rels.lift _) (fun h => Rels.bind (Rels.lift _) (fun v =>
      Rels.bind (stepCM_only ?_) (fun _ => Rels.bind (stepCM_only ?_) (fun _ => Rels.bind (inject_only E B bpms) (fun l' => ?_)))))))
    · intro i hi; simpa using List.mem_of_mem_take hi
    · intro i hi; simpa using List.mem_of_mem_take hi
    · exact Rels.ite (Rels.pure' _) (Rels.ite (Rels.bind (wiggling_only E B O bpms cms _) (fun _ => ih _ _)) (ih _ _))

theorem stitchLoop_only (nb : Nat) (n : Nat) (hist : List (Log K)) (l : Log K) :
    Rel (OnlyCorrectors cms.1 cms.2 []) (stitchLoop E B bpms cms mplus ref nb n hist l) := by
  induction n generalizing hist l with
  | zero => exact Rels.throw _
  | succ n ih =>
    unfold stitchLoop
    refine Rels.bind (Rels.lift _) (fun m => Rels.bind (stepAll_only cms _) (fun _ => Rels.bind (inject_only E B bpms) (fun l' => ?_)))
    exact Rels.ite (Rels.pure' _) (ih _ _)

theorem balanceLoop_only (eps : K) (n : Nat) (hist : List (Log K)) (l : Log K) :
    Rel (OnlyCorrectors cms.1 cms.2 []) (balanceLoop E B bpms cms mplus ref eps n hist l) := by
  induction n generalizing hist l with
  | zero => exact Rels.throw _
  | succ n ih =>
    unfold balanceLoop
    refine Rels.bind (Rels.lift _) (fun m => Rels.bind (Rels.lift _) (fun m' => Rels.bind (stepAll_only cms _) (fun _ =>
      Rels.bind (inject_only E B bpms) (fun l' => ?_))))
    exact Rels.ite (Rels.throw _) (Rels.ite (Rels.pure' _) (ih _ _))

theorem setFrequency_only {H V F : List Nat} (ords : List Nat) (h : ∀ i ∈ ords, i ∈ F) (sp : NpArr K) (method : String) :
    Rel (OnlyCorrectors H V F) (setCavitySetpoints ords sp "Frequency" method) := by
  intro s
  have f := setCavitySetpoints_modifies ords sp "Frequency" method s
  refine ⟨⟨f.ideal, f.inj, f.sig, f.ord, f.len, fun i a hn => f.attr i a (fun hw => hn ?_)⟩, by rw [f.rng]⟩
  obtain ⟨hi, ha⟩ := hw
  refine Or.inr (Or.inr (Or.inr ⟨h i hi, ?_⟩))
  rcases ha with rfl | ha
  · simp
  · exact List.mem_cons_of_mem _ (by simpa [rfProperties] using ha)

theorem correctStep_only (scaleDisp : K) (dphi : List K) (s : SC K) :
    OnlyCorrectors cms.1 cms.2 (if scaleDisp = 0 then [] else s.ORD.RF) s (correctStep cms scaleDisp dphi s).state := by
  unfold correctStep
  by_cases h : scaleDisp = 0
  · rw [if_neg (not_not.2 h), if_pos h]
    exact stepAll_only cms dphi s
  · rw [if_neg (c := scaleDisp = 0) h, if_pos (c := scaleDisp ≠ 0) h]
    have : Rel (OnlyCorrectors cms.1 cms.2 s.ORD.RF) (setCavitySetpoints s.ORD.RF ⟨false, [-scaleDisp * dphi.getLastD 0]⟩ "Frequency" "add" >>=
        fun _ => stepAll cms dphi.dropLast) :=
      Rels.bind (setFrequency_only _ (fun _ h => h) _ _) (fun _ => stepAll_only cms _)
    exact this s

theorem correctLoop_only (eps target scaleDisp : K) (maxsteps : Nat) (n : Nat) (hist : List (Log K)) (l : Log K) (s : SC K) :
    OnlyCorrectors cms.1 cms.2 (if scaleDisp = 0 then [] else s.ORD.RF) s
      (correctLoop E B bpms cms mplus ref eps target scaleDisp maxsteps n hist l s).state := by
  have key : ∀ F, Rel (fun a b => (if scaleDisp = 0 then [] else a.ORD.RF) = F →
      OnlyCorrectors cms.1 cms.2 F a b ∧ (if scaleDisp = 0 then [] else b.ORD.RF) = F)
      (correctLoop E B bpms cms mplus ref eps target scaleDisp maxsteps n hist l) := by
    intro F
    have inst : PreRel (fun a b : SC K => (if scaleDisp = 0 then [] else a.ORD.RF) = F →
      OnlyCorrectors cms.1 cms.2 F a b ∧ (if scaleDisp = 0 then [] else b.ORD.RF) = F) :=
      ⟨fun s h => ⟨OnlyCorrectors.refl _ _ _ _, h⟩, fun a b c h1 h2 h =>
        ⟨(h1 h).1.trans (h2 (h1 h).2).1, (h2 (h1 h).2).2⟩⟩
    have up : ∀ {α : Type} (m : Py (SC K) α), (∀ s, OnlyCorrectors cms.1 cms.2 (if scaleDisp = 0 then [] else s.ORD.RF) s (m s).state) →
        Rel (fun a b : SC K => (if scaleDisp = 0 then [] else a.ORD.RF) = F →
          OnlyCorrectors cms.1 cms.2 F a b ∧ (if scaleDisp = 0 then [] else b.ORD.RF) = F) m := by
      intro α m hm s hs
      have := hm s
      rw [hs] at this
      exact ⟨this, by rw [this.frame.ord]; exact hs⟩
    induction n generalizing hist l with
    | zero => unfold correctLoop; exact Rels.ite (Rels.pure' _) (Rels.throw _)
    | succ n ih =>
      unfold correctLoop
      refine Rels.bind (Rels.lift _) (fun m => Rels.bind (Rels.lift _) (fun m' => Rels.bind (up _ (correctStep_only cms scaleDisp _)) (fun _ =>
        Rels.bind (up _ (fun s => inject_only E B bpms s)) (fun l' => ?_))))
      exact Rels.ite (Rels.throw _) (Rels.ite (Rels.pure' _) (Rels.ite (Rels.pure' _) (ih _ _)))
  exact (key _ s rfl).1

end frames

/-! ### Sequences of readings -/

section runs
variable {E : Env K} {B : BeamEnv K} {bpms : List Nat} {cms : CMs} {F : List Nat}
  {step : List (Log K) → Log K → Log K → Prop} {s0 : SC K}

/-- invariant of the correction loops: `l` is the last reading -/
structure RunInv (E : Env K) (B : BeamEnv K) (bpms : List Nat) (cms : CMs) (F : List Nat)
    (step : List (Log K) → Log K → Log K → Prop) (s0 : SC K) (hist : List (Log K)) (l : Log K) : Prop where
  run : Run E B bpms step s0 hist
  last : hist.getLast? = some l
  before : ∀ l ∈ hist, OnlyCorrectors cms.1 cms.2 F s0 l.before

theorem Spec.IsReading.only {l : Log K} (h : IsReading E B bpms l) {H V F : List Nat} : OnlyCorrectors H V F l.before l.after := by
  obtain ⟨r, h, -, -⟩ := h
  exact ((bpmReading_onlyRng E B (some bpms) false).ok h).onlyCorrectors

theorem Spec.IsReading.columns_eq {l : Log K} (h : IsReading E B bpms l) :
    l.x.length = columns l.before bpms ∧ l.y.length = columns l.before bpms := by
  obtain ⟨r, h, hx, hy⟩ := h
  rw [hx, hy]; exact bpmReading_length h

theorem RunInv.single {l : Log K} (h : IsReading E B bpms l) (hs : OnlyCorrectors cms.1 cms.2 F s0 l.before)
    (hb : l.before = s0) : RunInv E B bpms cms F step s0 [l] l := by
  refine ⟨⟨⟨l, rfl, hb⟩, by simpa using h, ?_⟩, rfl, by simpa using hs⟩
  intro k l1 l2 h1 h2
  simp at h2

theorem RunInv.mem {hist : List (Log K)} {l : Log K} (h : RunInv E B bpms cms F step s0 hist l) : l ∈ hist :=
  List.mem_of_getLast? h.last

theorem RunInv.ne {hist : List (Log K)} {l : Log K} (h : RunInv E B bpms cms F step s0 hist l) : hist ≠ [] :=
  List.ne_nil_of_mem h.mem

theorem RunInv.after {hist : List (Log K)} {l : Log K} (h : RunInv E B bpms cms F step s0 hist l) :
    OnlyCorrectors cms.1 cms.2 F s0 l.after := (h.before l h.mem).trans (h.run.genuine l h.mem).only

theorem RunInv.length {hist : List (Log K)} {l : Log K} (h : RunInv E B bpms cms F step s0 hist l) {l' : Log K} (hl : l' ∈ hist) :
    l'.x.length = columns s0 bpms ∧ l'.y.length = columns s0 bpms := by
  have := (h.run.genuine l' hl).columns_eq
  rw [columns_congr (h.before l' hl)] at this
  exact this

theorem RunInv.snoc {hist : List (Log K)} {l l' : Log K} (h : RunInv E B bpms cms F step s0 hist l)
    (hr : IsReading E B bpms l') (hs : step hist l l') (hb : OnlyCorrectors cms.1 cms.2 F s0 l'.before) :
    RunInv E B bpms cms F step s0 (hist ++ [l']) l' := by
  have hlen : 0 < hist.length := List.length_pos_of_ne_nil h.ne
  refine ⟨⟨?_, ?_, ?_⟩, by simp, ?_⟩
  · obtain ⟨a, h1, h2⟩ := h.run.first
    refine ⟨a, ?_, h2⟩
    rw [List.head?_append, h1]; rfl
  · intro a ha
    rcases List.mem_append.1 ha with ha | ha
    · exact h.run.genuine a ha
    · rw [List.mem_singleton.1 ha]; exact hr
  · intro k a b ha hb'
    rcases Nat.lt_or_ge (k + 1) hist.length with hk | hk
    · rw [List.getElem?_append_left (by omega)] at ha hb'
      rw [List.take_append_of_le_length (by omega)]
      exact h.run.steps k a b ha hb'
    · have hk' : k + 1 = hist.length := by
        have := (List.getElem?_eq_some_iff.1 hb').1
        simp at this; omega
      rw [List.getElem?_append_left (by omega)] at ha
      rw [hk', List.getElem?_append_right (le_refl _)] at hb'
      simp at hb'
      subst hb'
      rw [hk', List.take_left]
      have : hist.getLast? = some a := by
        rw [List.getLast?_eq_getElem?, ← hk']; simpa using ha
      rw [h.last] at this; cases this
      exact hs
  · intro a ha
    rcases List.mem_append.1 ha with ha | ha
    · exact h.before a ha
    · rw [List.mem_singleton.1 ha]; exact hb

end runs

/-! ### Stopping criteria -/

theorem reached_complete {l : Log K} (h : l.reached = l.x.length) : Complete l := by
  intro v hv
  unfold Log.reached at h
  exact (List.length_filter_eq_length_iff.1 h) v hv

theorem isRepro_spec {hist : List (Log K)} {l : Log K} {n : Nat} (hn : n ≠ 0) (hl : hist.getLast? = some l)
    (h : isRepro (hist.map Log.reached) n = true) : n ≤ hist.length ∧ ∀ a ∈ tail n hist, a.reached = l.reached := by
  unfold isRepro at h
  rw [Bool.and_eq_true, decide_eq_true_eq, List.length_map] at h
  refine ⟨h.1, fun a ha => ?_⟩
  have h2 := List.all_eq_true.1 h.2 a.reached (by
    rw [lastN_eq_tail hn]
    unfold tail at ha ⊢
    rw [List.length_map, ← List.map_drop]
    exact List.mem_map_of_mem ha)
  rw [decide_eq_true_eq] at h2
  rw [h2, List.getLastD_eq_getLast?, List.getLast?_map, hl]; rfl

theorem isRepro_sameReach {hist : List (Log K)} {l : Log K} {n : Nat} (hn : n ≠ 0) (hl : hist.getLast? = some l)
    (h : isRepro (hist.map Log.reached) n = true) : SameReach n hist := by
  obtain ⟨h1, h2⟩ := isRepro_spec hn hl h
  exact ⟨h1, fun a ha b hb => (h2 a ha).trans (h2 b hb).symm⟩

theorem mem_of_mem_tail {α : Type} {n : Nat} {l : List α} {a : α} (h : a ∈ tail n l) : a ∈ l := List.mem_of_mem_drop h

theorem repro_complete {E : Env K} {B : BeamEnv K} {bpms : List Nat} {cms : CMs} {F : List Nat}
    {step : List (Log K) → Log K → Log K → Prop} {s0 : SC K} {hist : List (Log K)} {l : Log K}
    (hi : RunInv E B bpms cms F step s0 hist l) (h : isRepro (hist.map Log.reached) NREPRO = true)
    (hf : l.reached = l.x.length) : 5 ≤ hist.length ∧ ∀ a ∈ tail 5 hist, Complete a := by
  obtain ⟨h1, h2⟩ := isRepro_spec (by simp [NREPRO]) hi.last h
  refine ⟨h1, fun a ha => reached_complete ?_⟩
  rw [h2 a ha, hf, (hi.length hi.mem).1, (hi.length (mem_of_mem_tail ha)).1]

/-! ### Corrections -/

theorem dot_eq (v w : List K) : dot v w = ((List.range w.length).map (fun j => coef v j * coef w j)).sum := by
  unfold dot
  induction w generalizing v with
  | nil => simp
  | cons b w ih =>
    cases v with
    | nil => simp [coef]
    | cons a v =>
      rw [List.zipWith_cons_cons, List.sum_cons, ih, List.length_cons, List.range_succ_eq_map, List.map_cons, List.sum_cons, List.map_map]
      rfl

theorem coef_map {α : Type} (l : List α) (f : α → K) (d : α) (hd : f d = 0) (k : Nat) : coef (l.map f) k = f (l.getD k d) := by
  unfold coef
  rw [List.getD_eq_getElem?_getD, List.getElem?_map, List.getD_eq_getElem?_getD]
  cases l[k]? <;> simp [hd]

theorem kicksFor_coef {mplus : List (List K)} {m ref : List K} (h : m.length = ref.length) (k : Nat) :
    coef (kicksFor mplus m ref) k = correction mplus (coef m) (coef ref) ref.length k := by
  unfold kicksFor matVec correction
  rw [coef_map mplus (fun row => dot row (List.zipWith (· - ·) m ref)) [] (by simp [dot]), dot_eq]
  have hl : (List.zipWith (· - ·) m ref).length = ref.length := by simp [h]
  rw [hl]
  congr 1
  refine List.map_congr_left (fun j hj => ?_)
  have hj := List.mem_range.1 hj
  congr 1
  unfold coef
  rw [List.getD_eq_getElem?_getD, List.getElem?_zipWith, List.getD_eq_getElem?_getD, List.getD_eq_getElem?_getD,
    List.getElem?_eq_getElem (by omega : j < m.length), List.getElem?_eq_getElem hj]
  rfl

theorem correction_congr {mplus : List (List K)} {m m' ref ref' : Nat → K} {n : Nat} (hm : ∀ j < n, m j = m' j)
    (hr : ∀ j < n, ref j = ref' j) : correction mplus m ref n = correction mplus m' ref' n := by
  funext k
  unfold correction
  congr 1
  refine List.map_congr_left (fun j hj => ?_)
  have hj := List.mem_range.1 hj
  rw [hm j hj, hr j hj]

theorem kicksFor_length (mplus : List (List K)) (m ref : List K) : (kicksFor mplus m ref).length = mplus.length := by
  simp [kicksFor, matVec]

theorem measured_eq_ok {l : Log K} {ref : List K} {m : List (Option K)} (h : measured l ref = .ok m) :
    m = l.x ++ l.y ∧ m.length = ref.length := by
  unfold measured at h
  split at h
  · cases h
  · rename_i hne
    cases h
    exact ⟨rfl, by simpa using not_not.1 hne⟩

theorem kicks_all {l : Log K} {ref : List K} {m : List (Option K)} {mplus : List (List K)} (h : measured l ref = .ok m) :
    coef (kicksFor mplus (m.map (fun v => v.getD 0)) ref) = correction mplus (allReadings l) (coef ref) ref.length := by
  obtain ⟨rfl, hl⟩ := measured_eq_ok h
  funext k
  rw [kicksFor_coef (by simpa using hl)]
  refine congrFun (correction_congr (fun j _ => ?_) (fun _ _ => rfl)) k
  rw [coef_map _ _ none rfl]; rfl

theorem noNan_eq_ok {m : List (Option K)} {v : List K} (h : noNan m = .ok v) : v = m.map (fun v => v.getD 0) ∧ ∀ x ∈ m, x.isSome = true := by
  unfold noNan at h
  split at h
  · cases h
  · rename_i hn
    cases h
    have hall : ∀ x ∈ m, x.isSome = true := by
      intro x hx
      by_contra hc
      exact hn (List.any_eq_true.2 ⟨x, hx, by simpa using hc⟩)
    refine ⟨?_, hall⟩
    clear hn
    induction m with
    | nil => rfl
    | cons a m ih =>
      have ha := hall a (by simp)
      cases a with
      | none => cases ha
      | some a => simpa using ih (fun x hx => hall x (by simp [hx]))

variable [IsStrictOrderedRing K]

theorem stepCM_kick {ords : List Nat} {d : List K} {skew : Bool} {s s' : SC K} {u : Unit} (h : stepCM ords d skew s = .ok u s')
    (hnd : ords.Nodup) {k i : Nat} (hk : ords[k]? = some i) (hlim : Lim.Nonneg (kickLimit s.RING i skew))
    (hd : d.length = ords.length) :
    kick s'.RING i skew = clip (kickLimit s.RING i skew) (kick s.RING i skew - coef d k) := by
  have hklt : k < ords.length := (List.getElem?_eq_some_iff.1 hk).1
  have := C11_correctors ords _ skew "add" s s' hnd h k i hk hlim
  rw [this]
  congr 1
  have hv : valueFor (d.map (fun x => -x)) k = - coef d k := by
    have hc : ∀ j, coef (d.map (fun x => -x)) j = - coef d j := fun j => coef_map d (fun x => -x) 0 (by simp) j
    unfold valueFor
    rw [List.length_map, hd]
    split
    · rename_i h1
      have : k = 0 := by omega
      subst this; exact hc 0
    · exact hc k
  simp only [asked, hv]
  simp
  ring

/-- a step in both planes with the first `h` and `v` correctors -/
theorem step_steered {cms : CMs} {d : List K} {h v : Nat} {used : Nat → Prop} {s s1 s2 : SC K} {u1 u2 : Unit}
    (h1 : stepCM (cms.1.take h) (d.take h) false s = .ok u1 s1)
    (h2 : stepCM (cms.2.take v) ((d.drop cms.1.length).take v) true s1 = .ok u2 s2)
    (hn1 : cms.1.Nodup) (hn2 : cms.2.Nodup) (hd : d.length = cms.1.length + cms.2.length) (hh : h ≤ cms.1.length)
    (hl1 : ∀ i ∈ cms.1, Lim.Nonneg (kickLimit s.RING i false)) (hl2 : ∀ i ∈ cms.2, Lim.Nonneg (kickLimit s.RING i true))
    (hu1 : ∀ k i, cms.1[k]? = some i → (used i ↔ k < h)) (hu2 : ∀ k i, cms.2[k]? = some i → (used i ↔ k < v)) :
    Steered cms used (coef d) s s2 := by
  have f1 := C11_correctors_nothing_else (cms.1.take h) ⟨false, (d.take h).map (fun x => -x)⟩ false "add" s
  have f2 := C11_correctors_nothing_else (cms.2.take v) ⟨false, ((d.drop cms.1.length).take v).map (fun x => -x)⟩ true "add" s1
  have e1 : (setCMSetpoints (cms.1.take h) ⟨false, (d.take h).map (fun x => -x)⟩ false "add" s).state = s1 := by
    have : setCMSetpoints (cms.1.take h) ⟨false, (d.take h).map (fun x => -x)⟩ false "add" s = .ok u1 s1 := h1
    rw [this]; rfl
  have e2 : (setCMSetpoints (cms.2.take v) ⟨false, ((d.drop cms.1.length).take v).map (fun x => -x)⟩ true "add" s1).state = s2 := by
    have : setCMSetpoints (cms.2.take v) ⟨false, ((d.drop cms.1.length).take v).map (fun x => -x)⟩ true "add" s1 = .ok u2 s2 := h2
    rw [this]; rfl
  rw [e1] at f1
  rw [e2] at f2
  have kf : ∀ {a b : SC K} {W : Nat → String → Prop} (f : Frame W a b) (i : Nat) (sk : Bool),
      (¬ W i "PassMethod") → (¬ W i "Length") → setpoint b.RING i sk 0 = setpoint a.RING i sk 0 → kick b.RING i sk = kick a.RING i sk := by
    intro a b W f i sk w1 w2 he
    unfold kick kickFactor
    rw [he, f.attr _ _ w1, numAt_congr (f.attr _ _ w2)]
  have w1 : ∀ i a, a ∈ ["PassMethod", "Length", "CMlimit"] → ¬ ((i ∈ cms.1.take h ∧ a = "SetPoint" ++ plane false) ∨ a ∈ ["PolynomA", "PolynomB", "KickAngle", "MaxOrder"]) := by
    intro i a ha
    simp only [List.mem_cons, List.not_mem_nil, or_false] at ha
    rcases ha with rfl | rfl | rfl <;> simp [plane]
  have w2 : ∀ i a, a ∈ ["PassMethod", "Length", "CMlimit"] → ¬ ((i ∈ cms.2.take v ∧ a = "SetPoint" ++ plane true) ∨ a ∈ ["PolynomA", "PolynomB", "KickAngle", "MaxOrder"]) := by
    intro i a ha
    simp only [List.mem_cons, List.not_mem_nil, or_false] at ha
    rcases ha with rfl | rfl | rfl <;> simp [plane]
  have hcoef : ∀ (l : List K) (n k : Nat), k < n → coef (l.take n) k = coef l k := by
    intro l n k hk
    unfold coef
    rw [List.getD_eq_getElem?_getD, List.getElem?_take_of_lt hk, ← List.getD_eq_getElem?_getD]
  refine ⟨?_, ?_, ?_, ?_⟩
  · intro k i hk hused
    have hkh := (hu1 k i hk).1 hused
    have hklt : k < cms.1.length := (List.getElem?_eq_some_iff.1 hk).1
    have hk' : (cms.1.take h)[k]? = some i := by rw [List.getElem?_take_of_lt hkh]; exact hk
    rw [kf f2.2 i false (w2 i _ (by simp)) (w2 i _ (by simp)) (f2.1 i false 0 (Or.inr (Or.inl (by simp)))),
      stepCM_kick h1 (hn1.sublist (List.take_sublist _ _)) hk' (hl1 i (List.mem_of_getElem? hk)) (by simp; omega), hcoef _ _ _ hkh]
  · intro k i hk hused
    have hkv := (hu2 k i hk).1 hused
    have hk' : (cms.2.take v)[k]? = some i := by rw [List.getElem?_take_of_lt hkv]; exact hk
    have hlim : kickLimit s1.RING i true = kickLimit s.RING i true := kickLimit_congr (f1.2.attr i _ (w1 i _ (by simp)))
    have hkick : kick s1.RING i true = kick s.RING i true :=
      kf f1.2 i true (w1 i _ (by simp)) (w1 i _ (by simp)) (f1.1 i true 0 (Or.inr (Or.inl (by simp))))
    rw [stepCM_kick h2 (hn2.sublist (List.take_sublist _ _)) hk' (by rw [hlim]; exact hl2 i (List.mem_of_getElem? hk)) (by simp; omega),
      hlim, hkick, hcoef _ _ _ hkv]
    congr 2
    unfold coef
    rw [List.getD_eq_getElem?_getD, List.getElem?_drop, ← List.getD_eq_getElem?_getD]
  · intro i hi sk n
    have m1 : i ∉ cms.1.take h := by
      intro hm
      obtain ⟨k, hk, he⟩ := List.getElem_of_mem hm
      have hkh : k < h := by simp at hk; omega
      have : cms.1[k]? = some i := by
        rw [← List.getElem?_take_of_lt hkh, List.getElem?_eq_getElem hk, he]
      exact hi ((hu1 k i this).2 hkh)
    have m2 : i ∉ cms.2.take v := by
      intro hm
      obtain ⟨k, hk, he⟩ := List.getElem_of_mem hm
      have hkh : k < v := by simp at hk; omega
      have : cms.2[k]? = some i := by
        rw [← List.getElem?_take_of_lt hkh, List.getElem?_eq_getElem hk, he]
      exact hi ((hu2 k i this).2 hkh)
    rw [f2.1 i sk n (Or.inl m2), f1.1 i sk n (Or.inl m1)]
  · intro i sk n hn
    rw [f2.1 i sk n (Or.inr (Or.inr hn)), f1.1 i sk n (Or.inr (Or.inr hn))]

theorem stepAll_steered {cms : CMs} {d : List K} {s s' : SC K} {u : Unit} (h : stepAll cms d s = .ok u s')
    (hn1 : cms.1.Nodup) (hn2 : cms.2.Nodup) (hd : d.length = cms.1.length + cms.2.length)
    (hl1 : ∀ i ∈ cms.1, Lim.Nonneg (kickLimit s.RING i false)) (hl2 : ∀ i ∈ cms.2, Lim.Nonneg (kickLimit s.RING i true)) :
    Steered cms (fun i => i ∈ cms.1 ++ cms.2) (coef d) s s' := by
  unfold stepAll at h
  obtain ⟨u1, s1, h1, h2⟩ := bind_eq_ok.1 h
  have h1' : stepCM (cms.1.take cms.1.length) (d.take cms.1.length) false s = .ok u1 s1 := by rw [List.take_length]; exact h1
  have h2' : stepCM (cms.2.take cms.2.length) ((d.drop cms.1.length).take cms.2.length) true s1 = .ok u s' := by
    rw [List.take_length, List.take_of_length_le (by simp; omega)]; exact h2
  refine step_steered h1' h2' hn1 hn2 hd (le_refl _) hl1 hl2 (fun k i hk => ?_) (fun k i hk => ?_)
  · exact iff_of_true (by simp [List.mem_of_getElem? hk]) (List.getElem?_eq_some_iff.1 hk).1
  · exact iff_of_true (by simp [List.mem_of_getElem? hk]) (List.getElem?_eq_some_iff.1 hk).1

theorem nonneg_limits {H V F : List Nat} {s s' : SC K} (h : OnlyCorrectors H V F s s') {i : Nat} {sk : Bool}
    (hl : Lim.Nonneg (kickLimit s.RING i sk)) : Lim.Nonneg (kickLimit s'.RING i sk) := by
  rw [kickLimit_congr (h.frame.attr i "CMlimit" ?_)]
  · exact hl
  · rintro (⟨-, h⟩ | ⟨-, h⟩ | ⟨-, h⟩ | ⟨-, h⟩) <;> simp at h

/-! ### The search for transmission -/

section wiggling
variable {E : Env K} {B : BeamEnv K} {O : OrbitEnv K} {bpms : List Nat} {cms : CMs}

/-- the last reading of the history is genuine and belongs to the present machine -/
def LastAtState (E : Env K) (B : BeamEnv K) (bpms : List Nat) (hist : List (Log K)) (s : SC K) : Prop :=
  ∃ l, hist.getLast? = some l ∧ IsReading E B bpms l ∧ l.after = s

theorem wiggleInner_ok {limit : Nat} {h v : List Nat} {ds : List (K × K)} {hist : List (Log K)} {s s' : SC K}
    {r : Bool × List (Log K)} (hr : wiggleInner E B bpms limit h v ds hist s = .ok r s') (h0 : LastAtState E B bpms hist s) :
    LastAtState E B bpms r.2 s' ∧ (r.1 = true → ∀ l, r.2.getLast? = some l → limit ≤ l.reached) := by
  induction ds generalizing hist s with
  | nil => cases hr; exact ⟨h0, by simp⟩
  | cons d ds ih =>
    unfold wiggleInner at hr
    obtain ⟨_, s1, -, hr⟩ := bind_eq_ok.1 hr
    obtain ⟨_, s2, -, hr⟩ := bind_eq_ok.1 hr
    obtain ⟨l, s3, hl, hr⟩ := bind_eq_ok.1 hr
    obtain ⟨g, -, ga⟩ := inject_ok hl
    by_cases hc : limit ≤ l.reached
    · rw [if_pos hc] at hr
      obtain ⟨l1, s4, hl1, hr⟩ := bind_eq_ok.1 hr
      obtain ⟨l2, s5, hl2, hr⟩ := bind_eq_ok.1 hr
      obtain ⟨g2, -, ga2⟩ := inject_ok hl2
      have hlast : (hist ++ [l, l1, l2]).getLast? = some l2 := by simp
      by_cases hrep : isRepro ((hist ++ [l, l1, l2]).map Log.reached) NREPRO = true
      · rw [if_pos hrep] at hr
        cases hr
        refine ⟨⟨l2, hlast, g2, ga2⟩, fun _ l' hl' => ?_⟩
        simp only at hl'
        rw [hlast] at hl'
        cases hl'
        obtain ⟨-, hall⟩ := isRepro_spec (by simp [NREPRO]) hlast hrep
        have hm : l ∈ tail NREPRO (hist ++ [l, l1, l2]) := by
          unfold tail NREPRO
          rw [List.drop_append]
          refine List.mem_append_right _ ?_
          have : (hist ++ [l, l1, l2]).length - 5 - hist.length = 0 := by simp
          rw [this]; simp
        rw [← hall l hm]; exact hc
      · rw [if_neg hrep] at hr
        exact ih hr ⟨l2, hlast, g2, ga2⟩
    · rw [if_neg hc] at hr
      exact ih hr ⟨l, by simp, g, ga⟩

theorem wiggleOuter_ok {limit : Nat} {ns : List Nat} {hist : List (Log K)} {s s' : SC K} {r : List (Log K)}
    (hr : wiggleOuter E B O bpms cms limit ns hist s = .ok r s') (h0 : LastAtState E B bpms hist s) :
    ∃ l, IsReading E B bpms l ∧ l.after = s' ∧ limit ≤ l.reached := by
  induction ns generalizing hist s with
  | nil =>
    unfold wiggleOuter at hr
    by_cases hc : limit ≤ lastReached hist
    · rw [if_pos hc] at hr
      cases hr
      obtain ⟨l, h1, h2, h3⟩ := h0
      refine ⟨l, h2, h3, ?_⟩
      unfold lastReached at hc
      rwa [List.getLastD_eq_getLast?, List.getLast?_map, h1] at hc
    · rw [if_neg hc] at hr; cases hr
  | cons n ns ih =>
    unfold wiggleOuter at hr
    obtain ⟨h, -, hr⟩ := bindLift_eq_ok.1 hr
    obtain ⟨v, -, hr⟩ := bindLift_eq_ok.1 hr
    obtain ⟨q, s1, h1, hr⟩ := bind_eq_ok.1 hr
    obtain ⟨i1, i2⟩ := wiggleInner_ok h1 h0
    by_cases hc : q.1 = true
    · rw [if_pos hc] at hr
      cases hr
      obtain ⟨l, e1, e2, e3⟩ := i1
      exact ⟨l, e2, e3, i2 hc l e1⟩
    · rw [if_neg hc] at hr
      exact ih hr i1

theorem wiggling_ok {limit : Nat} {s s' : SC K} {r : List (Log K)} (hr : wiggling E B O bpms cms limit s = .ok r s') :
    ∃ l, IsReading E B bpms l ∧ l.after = s' ∧ limit ≤ l.reached := by
  unfold wiggling at hr
  obtain ⟨l, s1, h1, hr⟩ := bind_eq_ok.1 hr
  obtain ⟨g, -, ga⟩ := inject_ok h1
  exact wiggleOuter_ok hr ⟨l, rfl, g, ga⟩

end wiggling

/-! ### The loops -/

section loops
variable {E : Env K} {B : BeamEnv K} {O : OrbitEnv K} {bpms : List Nat} {cms : CMs} {mplus : List (List K)} {ref : List K}

theorem firstTurnLoop_ok {n : Nat} {hist logs : List (Log K)} {l : Log K} {s0 s s' : SC K}
    (hr : firstTurnLoop E B O bpms cms mplus ref n hist l s = .ok logs s')
    (h1 : cms.1.Pairwise (· < ·)) (h2 : cms.2.Pairwise (· < ·)) (hm : mplus.length = cms.1.length + cms.2.length)
    (hl1 : ∀ i ∈ cms.1, Lim.Nonneg (kickLimit s0.RING i false)) (hl2 : ∀ i ∈ cms.2, Lim.Nonneg (kickLimit s0.RING i true))
    (hi : RunInv E B bpms cms [] (FirstTurnStep E B bpms cms mplus ref) s0 hist l)
    (hw : s = l.after ∨ (SameReach 20 hist ∧ OnlyCorrectors cms.1 cms.2 [] l.after s ∧
      ∃ found, IsReading E B bpms found ∧ seen l < seen found ∧ found.after = s)) :
    ∃ l', RunInv E B bpms cms [] (FirstTurnStep E B bpms cms mplus ref) s0 logs l' ∧ l'.after = s' ∧
      logs.length ≤ hist.length + n ∧ 5 ≤ logs.length ∧ ∀ a ∈ tail 5 logs, Complete a := by
  induction n generalizing hist l s with
  | zero => cases hr
  | succ n ih =>
    unfold firstTurnLoop at hr
    by_cases hz : l.reached = 0
    · rw [if_pos hz] at hr; cases hr
    rw [if_neg hz] at hr
    obtain ⟨m, hmeas, hr⟩ := bindLift_eq_ok.1 hr
    obtain ⟨h, hh, hr⟩ := bindLift_eq_ok.1 hr
    obtain ⟨v, hv, hr⟩ := bindLift_eq_ok.1 hr
    obtain ⟨u1, s1, hs1, hr⟩ := bind_eq_ok.1 hr
    obtain ⟨u2, s2, hs2, hr⟩ := bind_eq_ok.1 hr
    obtain ⟨l', s3, hs3, hr⟩ := bind_eq_ok.1 hr
    obtain ⟨g, gb, ga⟩ := inject_ok hs3
    have os : OnlyCorrectors cms.1 cms.2 [] s0 s := by
      rcases hw with rfl | ⟨-, h, -⟩
      · exact hi.after
      · exact hi.after.trans h
    have o1 : OnlyCorrectors cms.1 cms.2 [] s s1 :=
      (stepCM_only (fun i hi => by simpa using List.mem_of_mem_take hi)).ok hs1
    have o2 : OnlyCorrectors cms.1 cms.2 [] s1 s2 :=
      (stepCM_only (fun i hi => by simpa using List.mem_of_mem_take hi)).ok hs2
    have hst := step_steered (used := fun i => i ∈ cms.1 ++ cms.2 ∧ Upstream bpms l i) hs1 hs2
      (h1.imp (fun h => Nat.ne_of_lt h)) (h2.imp (fun h => Nat.ne_of_lt h))
      (by rw [kicksFor_length]; exact hm) (lastIndex_le hh) (fun i hi => nonneg_limits os (hl1 i hi)) (fun i hi => nonneg_limits os (hl2 i hi))
      (fun k i hk => by
        rw [lastIndex_upstream hh hz h1 hk]
        exact and_iff_right (by simp [List.mem_of_getElem? hk]))
      (fun k i hk => by
        rw [lastIndex_upstream hv hz h2 hk]
        exact and_iff_right (by simp [List.mem_of_getElem? hk]))
    rw [kicks_all hmeas] at hst
    have hi' : RunInv E B bpms cms [] (FirstTurnStep E B bpms cms mplus ref) s0 (hist ++ [l']) l' := by
      refine hi.snoc g ⟨s, hw, Nat.pos_of_ne_zero hz, ?_, ?_⟩ ?_
      · rw [gb]; exact hst
      · rw [gb]; exact o1.trans o2
      · rw [gb]; exact os.trans (o1.trans o2)
    by_cases hc : (isRepro ((hist ++ [l']).map Log.reached) NREPRO && decide (l'.reached = l'.x.length)) = true
    · rw [if_pos hc] at hr
      cases hr
      rw [Bool.and_eq_true, decide_eq_true_eq] at hc
      obtain ⟨c1, c2⟩ := repro_complete hi' hc.1 hc.2
      exact ⟨l', hi', ga, by rw [List.length_append, List.length_singleton]; omega, c1, c2⟩
    · rw [if_neg hc] at hr
      by_cases hrep : isRepro ((hist ++ [l']).map Log.reached) WIGGLE_AFTER = true
      · rw [if_pos hrep] at hr
        obtain ⟨_, s4, hs4, hr⟩ := bind_eq_ok.1 hr
        obtain ⟨found, f1, f2, f3⟩ := wiggling_ok hs4
        obtain ⟨a, b1, b2, b3, b4⟩ := ih hr hi' (Or.inr ⟨isRepro_sameReach (by simp [WIGGLE_AFTER]) hi'.last hrep,
          by rw [ga]; exact (wiggling_only E B O bpms cms _).ok hs4, found, f1, by show l'.reached < found.reached; omega, f2⟩)
        exact ⟨a, b1, b2, by simp at b3; omega, b4⟩
      · rw [if_neg hrep] at hr
        obtain ⟨a, b1, b2, b3, b4⟩ := ih hr hi' (Or.inl ga.symm)
        exact ⟨a, b1, b2, by simp at b3; omega, b4⟩

/-! #### Two turns -/

omit [LinearOrder K] [FloorRing K] [IsStrictOrderedRing K] in
theorem turnPart_getD {nb n : Nat} {v : List (Option K)} (hv : v.length = 2 * nb) (hn : n ≤ nb) (j : Nat) :
    ((v.take nb ++ turnDiff nb n v).getD j none).getD 0 = turnReading nb n v j := by
  unfold turnReading turnDiff
  rw [List.getD_eq_getElem?_getD]
  by_cases h1 : j < nb
  · rw [if_pos h1, List.getElem?_append_left (by simp; omega), List.getElem?_take_of_lt h1, List.getD_eq_getElem?_getD]
  · rw [if_neg h1, List.getElem?_append_right (by simp; omega)]
    have e : j - (v.take nb).length = j - nb := by simp; omega
    have hz : (List.zipWith nanSub ((v.drop nb).take n) (v.take n)).length = n := by simp; omega
    rw [e]
    by_cases h2 : j < nb + n
    · rw [if_pos h2, List.getElem?_append_left (by rw [hz]; omega), List.getElem?_zipWith,
        List.getElem?_take_of_lt (by omega), List.getElem?_take_of_lt (by omega), List.getElem?_drop,
        List.getD_eq_getElem?_getD, List.getD_eq_getElem?_getD]
      have e2 : nb + (j - nb) = j := by omega
      rw [e2, List.getElem?_eq_getElem (by omega : j < v.length), List.getElem?_eq_getElem (by omega : j - nb < v.length)]
      simp only [Option.getD_some]
      cases v[j] <;> cases v[j - nb] <;> rfl
    · rw [if_neg h2, List.getElem?_append_right (by rw [hz]; omega)]
      rw [List.getElem?_replicate]
      split <;> rfl

omit [FloorRing K] [IsStrictOrderedRing K] in
theorem turnPart_length {nb n : Nat} {v : List (Option K)} (hv : v.length = 2 * nb) (hn : n ≤ nb) :
    (v.take nb ++ turnDiff nb n v).length = 2 * nb := by
  unfold turnDiff
  simp
  omega

theorem twoTurns_eq_ok {l : Log K} {nb n : Nat} {m : List (Option K)} (h : twoTurns l nb n = .ok m) (hy : l.y.length = l.x.length) :
    m.length = 4 * nb ∧ n ≤ nb ∧ l.x.length = 2 * nb ∧
    ∀ j < 4 * nb, coef (m.map (fun v => v.getD 0)) j = twoTurnReading nb n l j := by
  unfold twoTurns at h
  split at h
  · cases h
  · rename_i hne
    cases h
    push Not at hne
    obtain ⟨hx, hn⟩ := hne
    have hy' : l.y.length = 2 * nb := by omega
    have hxl := turnPart_length (v := l.x) hx hn
    have hyl := turnPart_length (v := l.y) hy' hn
    refine ⟨by rw [List.length_append, hxl, hyl]; omega, hn, hx, fun j hj => ?_⟩
    rw [coef_map _ _ none rfl]
    unfold twoTurnReading
    by_cases h1 : j < 2 * nb
    · rw [if_pos h1, List.getD_append _ _ _ _ (by rw [hxl]; exact h1)]
      exact turnPart_getD hx hn j
    · rw [if_neg h1, List.getD_append_right _ _ _ _ (by rw [hxl]; omega), hxl]
      exact turnPart_getD hy' hn _

omit [IsStrictOrderedRing K] in
theorem secondTurnZero_coef {ref : List K} {nb : Nat} (h : ref.length = 4 * nb) :
    (secondTurnZero ref nb).length = 4 * nb ∧ ∀ j < 4 * nb, coef (secondTurnZero ref nb) j = firstTurnReference nb ref j := by
  have hn : ref.length / 2 = 2 * nb := by omega
  unfold secondTurnZero
  simp only [hn]
  have e1 : ((ref.take (2 * nb)).take nb ++ List.replicate (2 * nb - nb) (0 : K)).length = 2 * nb := by simp; omega
  refine ⟨by simp; omega, fun j hj => ?_⟩
  unfold firstTurnReference coef
  by_cases h1 : j < 2 * nb
  · rw [List.getD_append _ _ _ _ (by rw [e1]; exact h1), Nat.mod_eq_of_lt h1]
    by_cases h2 : j < nb
    · rw [if_pos h2, List.getD_append _ _ _ _ (by simp; omega), List.getD_eq_getElem?_getD, List.getElem?_take_of_lt h2,
        List.getElem?_take_of_lt h1, List.getD_eq_getElem?_getD]
    · rw [if_neg h2, List.getD_append_right _ _ _ _ (by simp; omega), List.getD_eq_getElem?_getD, List.getElem?_replicate]
      split <;> rfl
  · rw [List.getD_append_right _ _ _ _ (by rw [e1]; omega), e1]
    have e2 : j % (2 * nb) = j - 2 * nb := by
      rw [Nat.mod_eq_sub_mod (by omega), Nat.mod_eq_of_lt (by omega)]
    rw [e2]
    by_cases h2 : j - 2 * nb < nb
    · rw [if_pos h2, List.getD_append _ _ _ _ (by simp; omega), List.getD_eq_getElem?_getD, List.getElem?_take_of_lt h2,
        List.getElem?_drop, List.getD_eq_getElem?_getD]
      congr 2; omega
    · rw [if_neg h2, List.getD_append_right _ _ _ _ (by simp; omega), List.getD_eq_getElem?_getD, List.getElem?_replicate]
      split <;> rfl

theorem kicks_two {l : Log K} {ref : List K} {m : List (Option K)} {nb n : Nat} (h : twoTurns l nb n = .ok m)
    (hy : l.y.length = l.x.length) (hr : ref.length = 4 * nb) :
    coef (kicksFor mplus (m.map (fun v => v.getD 0)) (secondTurnZero ref nb)) =
      correction mplus (twoTurnReading nb n l) (firstTurnReference nb ref) (4 * nb) := by
  obtain ⟨hm, -, -, hc⟩ := twoTurns_eq_ok h hy
  obtain ⟨hz, hzc⟩ := secondTurnZero_coef hr
  funext k
  rw [kicksFor_coef (by rw [List.length_map, hm, hz]), hz]
  exact congrFun (correction_congr hc hzc) k

theorem stitchLoop_ok {nB n : Nat} {hist logs : List (Log K)} {l : Log K} {s0 s' : SC K}
    (hr : stitchLoop E B bpms cms mplus (secondTurnZero ref bpms.length) nB n hist l l.after = .ok logs s')
    (h1 : cms.1.Nodup) (h2 : cms.2.Nodup) (hm : mplus.length = cms.1.length + cms.2.length)
    (href : ref.length = 4 * bpms.length)
    (hl1 : ∀ i ∈ cms.1, Lim.Nonneg (kickLimit s0.RING i false)) (hl2 : ∀ i ∈ cms.2, Lim.Nonneg (kickLimit s0.RING i true))
    {step : List (Log K) → Log K → Log K → Prop} (hstep : ∀ h a b, TwoTurnStep bpms cms mplus ref nB h a b → h.getLast? = some a →
      hist.length ≤ h.length → step h a b)
    (hi : RunInv E B bpms cms [] step s0 hist l) :
    ∃ l', RunInv E B bpms cms [] step s0 logs l' ∧ l'.after = s' ∧
      logs.length ≤ hist.length + n ∧ 5 ≤ logs.length ∧ (∀ a ∈ tail 5 logs, Complete a) ∧ hist <+: logs := by
  induction n generalizing hist l with
  | zero => cases hr
  | succ n ih =>
    unfold stitchLoop at hr
    obtain ⟨m, hmeas, hr⟩ := bindLift_eq_ok.1 hr
    obtain ⟨u1, s1, hs1, hr⟩ := bind_eq_ok.1 hr
    obtain ⟨l', s3, hs3, hr⟩ := bind_eq_ok.1 hr
    obtain ⟨g, gb, ga⟩ := inject_ok hs3
    have os := hi.after
    have o1 : OnlyCorrectors cms.1 cms.2 [] l.after s1 := (stepAll_only cms _).ok hs1
    have hlen := hi.length hi.mem
    have hst := stepAll_steered hs1 h1 h2 (by rw [kicksFor_length]; exact hm) (fun i hi => nonneg_limits os (hl1 i hi))
      (fun i hi => nonneg_limits os (hl2 i hi))
    rw [kicks_two hmeas (by omega) href] at hst
    have hi' : RunInv E B bpms cms [] step s0 (hist ++ [l']) l' := by
      refine hi.snoc g (hstep _ _ _ ⟨?_, ?_⟩ hi.last (le_refl _)) ?_
      · rw [gb]; exact hst
      · rw [gb]; exact o1
      · rw [gb]; exact os.trans o1
    by_cases hc : (isRepro ((hist ++ [l']).map Log.reached) NREPRO && decide (l'.reached = l'.x.length)) = true
    · rw [if_pos hc] at hr
      cases hr
      rw [Bool.and_eq_true, decide_eq_true_eq] at hc
      obtain ⟨c1, c2⟩ := repro_complete hi' hc.1 hc.2
      exact ⟨l', hi', ga, by rw [List.length_append, List.length_singleton]; omega, c1, c2, List.prefix_append _ _⟩
    · rw [if_neg hc, ← ga] at hr
      obtain ⟨a, b1, b2, b3, b4, b5, b6⟩ := ih hr (fun h a b h1 h2 h3 => hstep h a b h1 h2 (by simp at h3; omega)) hi'
      exact ⟨a, b1, b2, by simp at b3; omega, b4, b5, (List.prefix_append _ _).trans b6⟩

/-! #### Stability -/

theorem rmsOf_eq_some {B : BeamEnv K} (hs : SqrtSound B.sqrt) {v : List (Option K)} {r : K} (h : rmsOf B v = some r) :
    v ≠ [] ∧ (∀ x ∈ v, x.isSome = true) ∧ 0 ≤ r ∧ r ^ 2 = mean ((v.filterMap id).map (fun x => x ^ 2)) := by
  unfold rmsOf at h
  split at h
  · cases h
  · rename_i hc
    have hc' : ¬ v.isEmpty = true ∧ ¬ (v.any (fun x => x.isNone)) = true := by
      rw [Bool.or_eq_true, not_or] at hc; exact hc
    obtain ⟨a, b⟩ := hs _ _ h
    refine ⟨fun he => hc'.1 (by rw [he]; rfl), fun x hx => ?_, a, ?_⟩
    · by_contra hn
      exact hc'.2 (List.any_eq_true.2 ⟨x, hx, by simpa using hn⟩)
    · rw [b]
      unfold mean
      rw [List.length_map]
      congr 2
      exact List.map_congr_left (fun x _ => by ring)

theorem all_some_map {v : List (Option K)} (h : ∀ x ∈ v, x.isSome = true) :
    v = (v.map (fun x => x.getD 0)).map some ∧ v.filterMap id = v.map (fun x => x.getD 0) := by
  induction v with
  | nil => exact ⟨rfl, rfl⟩
  | cons a v ih =>
    obtain ⟨i1, i2⟩ := ih (fun x hx => h x (by simp [hx]))
    have ha := h a (by simp)
    cases a with
    | none => cases ha
    | some a =>
      refine ⟨?_, ?_⟩
      · rw [List.map_cons, List.map_cons, ← i1]; rfl
      · rw [List.filterMap_cons, i2]; rfl

theorem rms_isRms {B : BeamEnv K} (hs : SqrtSound B.sqrt) {l : Log K} {a b : K} (h : l.rms B = (some a, some b)) : IsRms l (a, b) := by
  unfold Log.rms at h
  simp only [Prod.mk.injEq] at h
  obtain ⟨h1, h2⟩ := h
  set cols := (l.x.zip l.y).filter (fun p => p.1.isSome) with hcols
  obtain ⟨a1, a2, a3, a4⟩ := rmsOf_eq_some hs h1
  obtain ⟨b1, b2, b3, b4⟩ := rmsOf_eq_some hs h2
  refine ⟨cols.map (fun p => (p.1.getD 0, p.2.getD 0)), fun he => a1 (by simpa using he), ?_, a3, b3, ?_, ?_⟩
  · rw [List.map_map, ← hcols]
    conv_lhs => rw [← List.map_id cols]
    refine List.map_congr_left (fun p hp => ?_)
    have e1 := a2 p.1 (List.mem_map_of_mem hp)
    have e2 := b2 p.2 (List.mem_map_of_mem hp)
    obtain ⟨x, y⟩ := p
    cases x with
    | none => cases e1
    | some x => cases y with
      | none => cases e2
      | some y => rfl
  · rw [a4, (all_some_map a2).2, List.map_map, List.map_map, List.map_map]; rfl
  · rw [b4, (all_some_map b2).2, List.map_map, List.map_map, List.map_map]; rfl

theorem isStable_spec {B : BeamEnv K} (hs : SqrtSound B.sqrt) {n : Nat} {eps : K} {hist : List (Log K)} (hn : n ≠ 0)
    (h : isStable B n eps (hist.map (Log.rms B)) = true) : n ≤ hist.length ∧ SpreadBelow eps (tail n hist) := by
  unfold isStable at h
  by_cases h1 : (hist.map (Log.rms B)).length < n
  · rw [if_pos h1] at h; cases h
  rw [if_neg h1] at h
  simp only at h
  have hlast : lastN n (hist.map (Log.rms B)) = (tail n hist).map (Log.rms B) := by
    rw [lastN_eq_tail hn]; unfold tail; rw [List.length_map, List.map_drop]
  rw [hlast] at h
  set T := tail n hist with hT
  by_cases h2 : (((T.map (Log.rms B)).flatMap (fun p => [p.1, p.2])).any (fun x => x.isNone)) = true
  · rw [if_pos h2] at h; cases h
  rw [if_neg h2] at h
  have hall : ∀ l ∈ T, ∃ a b, l.rms B = (some a, some b) := by
    intro l hl
    have hmem : ∀ x, (x = (l.rms B).1 ∨ x = (l.rms B).2) → x.isSome = true := by
      intro x hx
      by_contra hc
      refine h2 (List.any_eq_true.2 ⟨x, List.mem_flatMap.2 ⟨l.rms B, List.mem_map_of_mem hl, by simpa using hx⟩, by simpa using hc⟩)
    obtain ⟨a, ha⟩ := Option.isSome_iff_exists.1 (hmem _ (Or.inl rfl))
    obtain ⟨b, hb⟩ := Option.isSome_iff_exists.1 (hmem _ (Or.inr rfl))
    exact ⟨a, b, by rw [← ha, ← hb]⟩
  have hw : ((T.map (Log.rms B)).flatMap (fun p => [p.1, p.2])).filterMap id =
      (T.map (fun l => ((l.rms B).1.getD 0, (l.rms B).2.getD 0))).flatMap (fun p => [p.1, p.2]) := by
    have : ∀ T' : List (Log K), (∀ l ∈ T', ∃ a b, l.rms B = (some a, some b)) →
        ((T'.map (Log.rms B)).flatMap (fun p => [p.1, p.2])).filterMap id =
        (T'.map (fun l => ((l.rms B).1.getD 0, (l.rms B).2.getD 0))).flatMap (fun p => [p.1, p.2]) := by
      intro T'
      induction T' with
      | nil => intro _; rfl
      | cons l T' ih =>
        intro hT'
        obtain ⟨a, b, hab⟩ := hT' l (by simp)
        rw [List.map_cons, List.flatMap_cons, List.filterMap_append, ih (fun l hl => hT' l (by simp [hl])), List.map_cons, List.flatMap_cons, hab]
        rfl
    exact this T hall
  rw [hw] at h
  set ps := T.map (fun l => ((l.rms B).1.getD 0, (l.rms B).2.getD 0)) with hps
  set w := ps.flatMap (fun p => [p.1, p.2]) with hwd
  have hvar : (w.map (fun x => (x - w.sum / (w.length : K)) * (x - w.sum / (w.length : K)))).sum / (w.length : K) = variance w := by
    unfold variance mean
    rw [List.length_map]
    congr 2
    exact List.map_congr_left (fun x _ => by ring)
  rw [hvar] at h
  cases hsq : B.sqrt (variance w) with
  | none => rw [hsq] at h; cases h
  | some sd =>
    rw [hsq] at h
    simp only at h
    by_cases hz : sd = 0
    · rw [if_pos hz] at h; cases h
    rw [if_neg hz, decide_eq_true_eq] at h
    obtain ⟨q1, q2⟩ := hs _ _ hsq
    refine ⟨by simpa using h1, sd, ⟨ps, ?_, q1, q2⟩, lt_of_le_of_ne q1 (Ne.symm hz), ?_⟩
    · rw [hps, List.forall₂_map_right_iff, List.forall₂_same]
      intro l hl
      obtain ⟨a, b, hab⟩ := hall l hl
      rw [hab]; exact rms_isRms hs hab
    · rw [← q2] at h
      have : sd ^ 2 / sd = sd := by field_simp
      rwa [this] at h

theorem balanceLoop_ok {eps : K} {n : Nat} {hist logs : List (Log K)} {l : Log K} {s0 s' : SC K} (hsq : SqrtSound B.sqrt)
    (hr : balanceLoop E B bpms cms mplus (secondTurnZero ref bpms.length) eps n hist l l.after = .ok logs s')
    (h1 : cms.1.Nodup) (h2 : cms.2.Nodup) (hm : mplus.length = cms.1.length + cms.2.length)
    (href : ref.length = 4 * bpms.length)
    (hl1 : ∀ i ∈ cms.1, Lim.Nonneg (kickLimit s0.RING i false)) (hl2 : ∀ i ∈ cms.2, Lim.Nonneg (kickLimit s0.RING i true))
    (hi : RunInv E B bpms cms [] (TwoTurnStep bpms cms mplus ref bpms.length) s0 hist l) (hcomp : ∀ a ∈ hist, Complete a) :
    ∃ l', RunInv E B bpms cms [] (TwoTurnStep bpms cms mplus ref bpms.length) s0 logs l' ∧ l'.after = s' ∧
      logs.length ≤ hist.length + n ∧ (∀ a ∈ logs, Complete a) ∧ 5 ≤ logs.length ∧ SpreadBelow eps (tail 5 logs) := by
  induction n generalizing hist l with
  | zero => cases hr
  | succ n ih =>
    unfold balanceLoop at hr
    obtain ⟨m, hmeas, hr⟩ := bindLift_eq_ok.1 hr
    obtain ⟨m', hnan, hr⟩ := bindLift_eq_ok.1 hr
    obtain ⟨u1, s1, hs1, hr⟩ := bind_eq_ok.1 hr
    obtain ⟨l', s3, hs3, hr⟩ := bind_eq_ok.1 hr
    obtain ⟨g, gb, ga⟩ := inject_ok hs3
    have os := hi.after
    have o1 : OnlyCorrectors cms.1 cms.2 [] l.after s1 := (stepAll_only cms _).ok hs1
    have hlen := hi.length hi.mem
    have hst := stepAll_steered hs1 h1 h2 (by rw [kicksFor_length]; exact hm) (fun i hi => nonneg_limits os (hl1 i hi))
      (fun i hi => nonneg_limits os (hl2 i hi))
    rw [(noNan_eq_ok hnan).1, kicks_two hmeas (by omega) href] at hst
    have hi' : RunInv E B bpms cms [] (TwoTurnStep bpms cms mplus ref bpms.length) s0 (hist ++ [l']) l' := by
      refine hi.snoc g ⟨?_, ?_⟩ ?_
      · rw [gb]; exact hst
      · rw [gb]; exact o1
      · rw [gb]; exact os.trans o1
    by_cases hc : l'.reached < l'.x.length
    · rw [if_pos hc] at hr; cases hr
    rw [if_neg hc] at hr
    have hle : l'.reached ≤ l'.x.length := List.length_filter_le _ _
    have hcomp' : ∀ a ∈ hist ++ [l'], Complete a := by
      intro a ha
      rcases List.mem_append.1 ha with ha | ha
      · exact hcomp a ha
      · rw [List.mem_singleton.1 ha]; exact reached_complete (by omega)
    by_cases hst : isStable B NREPRO eps ((hist ++ [l']).map (Log.rms B)) = true
    · rw [if_pos hst] at hr
      cases hr
      obtain ⟨c1, c2⟩ := isStable_spec hsq (by simp [NREPRO]) hst
      exact ⟨l', hi', ga, by rw [List.length_append, List.length_singleton]; omega, hcomp', c1, c2⟩
    · rw [if_neg hst, ← ga] at hr
      obtain ⟨a, b1, b2, b3, b4⟩ := ih hr hi' hcomp'
      exact ⟨a, b1, b2, by simp at b3; omega, b4⟩

/-! #### `correct` -/

omit [LinearOrder K] [FloorRing K] [IsStrictOrderedRing K] in
theorem exists_lastAt (l : List Nat) {i : Nat} (h : i ∈ l) : ∃ k, LastAt l k i := by
  induction l with
  | nil => simp at h
  | cons a l ih =>
    by_cases hil : i ∈ l
    · obtain ⟨n, hn1, hn2⟩ := ih hil
      refine ⟨n + 1, by simpa using hn1, fun j hj => ?_⟩
      cases j with
      | zero => omega
      | succ j => simpa using hn2 j (by omega)
    · refine ⟨0, by simpa [hil, eq_comm] using h, fun j hj => ?_⟩
      cases j with
      | zero => omega
      | succ j =>
        rw [List.getElem?_cons_succ]
        exact fun hc => hil (List.mem_of_getElem? hc)

theorem Spec.Steered.congr {cms : CMs} {used : Nat → Prop} {d d' : Nat → K} {a b c : SC K} (h : Steered cms used d b c)
    (hd : ∀ k < cms.1.length + cms.2.length, d k = d' k)
    (hset : ∀ i sk n, setpoint b.RING i sk n = setpoint a.RING i sk n)
    (hkick : ∀ i sk, kick b.RING i sk = kick a.RING i sk) (hlim : ∀ i sk, kickLimit b.RING i sk = kickLimit a.RING i sk) :
    Steered cms used d' a c := by
  refine ⟨fun k i hk hu => ?_, fun k i hk hu => ?_, fun i hu sk n => ?_, fun i sk n hn => ?_⟩
  · have := (List.getElem?_eq_some_iff.1 hk).1
    rw [h.hor k i hk hu, hkick, hlim, hd k (by omega)]
  · have := (List.getElem?_eq_some_iff.1 hk).1
    rw [h.ver k i hk hu, hkick, hlim, hd _ (by omega)]
  · rw [h.rest i hu, hset]
  · rw [h.higher i sk n hn, hset]

theorem correctStep_ok {cms : CMs} {scaleDisp : K} {d : List K} {s s' : SC K} {u : Unit} (h : correctStep cms scaleDisp d s = .ok u s')
    (hn1 : cms.1.Nodup) (hn2 : cms.2.Nodup) (hd : d.length = cms.1.length + cms.2.length + if scaleDisp = 0 then 0 else 1)
    (hl1 : ∀ i ∈ cms.1, Lim.Nonneg (kickLimit s.RING i false)) (hl2 : ∀ i ∈ cms.2, Lim.Nonneg (kickLimit s.RING i true)) :
    Steered cms (fun i => i ∈ cms.1 ++ cms.2) (coef d) s s' ∧
    (scaleDisp ≠ 0 → ∀ i ∈ s.ORD.RF, s'.RING.attr i "FrequencySetPoint" =
      some (.num (numAt s.RING i "FrequencySetPoint" - scaleDisp * coef d (cms.1.length + cms.2.length)))) := by
  unfold correctStep at h
  by_cases hz : scaleDisp = 0
  · rw [if_neg (not_not.2 hz)] at h
    rw [if_pos hz] at hd
    exact ⟨stepAll_steered h hn1 hn2 hd hl1 hl2, fun h => absurd hz h⟩
  · rw [if_pos (c := scaleDisp ≠ 0) hz] at h
    rw [if_neg hz] at hd
    have h := bindGet_eq_ok.1 h
    obtain ⟨⟨⟩, s1, h1, h⟩ := bind_eq_ok.1 h
    have f := (setCavitySetpoints_modifies s.ORD.RF ⟨false, [-scaleDisp * d.getLastD 0]⟩ "Frequency" "add").ok h1
    have keep : ∀ i a, a ∈ ["SetPointA", "SetPointB", "PassMethod", "Length", "CMlimit"] → s1.RING.attr i a = s.RING.attr i a := by
      intro i a ha
      refine f.attr i a ?_
      simp only [List.mem_cons, List.not_mem_nil, or_false] at ha
      rcases ha with rfl | rfl | rfl | rfl | rfl <;> simp [rfProperties]
    have hset : ∀ i sk n, setpoint s1.RING i sk n = setpoint s.RING i sk n :=
      fun i sk n => setpoint_congr (keep i _ (by cases sk <;> simp [plane]))
    have hkick : ∀ i sk, kick s1.RING i sk = kick s.RING i sk := by
      intro i sk
      unfold kick kickFactor
      rw [hset, keep i "PassMethod" (by simp), numAt_congr (keep i "Length" (by simp))]
    have hlim : ∀ i sk, kickLimit s1.RING i sk = kickLimit s.RING i sk := fun i sk => kickLimit_congr (keep i "CMlimit" (by simp))
    have hst := stepAll_steered h hn1 hn2 (by simp; omega) (fun i hi => by rw [hlim]; exact hl1 i hi) (fun i hi => by rw [hlim]; exact hl2 i hi)
    refine ⟨hst.congr ?_ hset hkick hlim, fun _ i hi => ?_⟩
    · intro k hk
      unfold coef
      rw [List.getD_eq_getElem?_getD, List.getElem?_dropLast, if_pos (by omega), List.getD_eq_getElem?_getD]
    · obtain ⟨k, hk⟩ := exists_lastAt _ hi
      have hv := C11_cavities s.ORD.RF _ "Frequency" "add" s s1 h1 k i hk
      have o : OnlyCorrectors cms.1 cms.2 [] s1 s' := (stepAll_only cms _).ok h
      have e : "Frequency" ++ "SetPoint" = "FrequencySetPoint" := by decide
      rw [e] at hv
      rw [o.frame.attr i "FrequencySetPoint" (by
        rintro (⟨-, h⟩ | ⟨-, h⟩ | ⟨-, h⟩ | ⟨h, -⟩) <;> simp at h), hv]
      have hlast : d.getLastD 0 = coef d (cms.1.length + cms.2.length) := by
        unfold coef
        rw [List.getLastD_eq_getLast?, List.getLast?_eq_getElem?, List.getD_eq_getElem?_getD, hd, Nat.add_sub_cancel]
      simp only [asked, valueFor, coef, hlast]
      simp
      ring

theorem correctLoop_ok {eps target scaleDisp : K} {maxsteps n : Nat} {hist logs : List (Log K)} {l : Log K} {s0 s' : SC K}
    (hsq : SqrtSound B.sqrt) (hmax : maxsteps ≠ 0)
    (hr : correctLoop E B bpms cms mplus ref eps target scaleDisp maxsteps n hist l l.after = .ok logs s')
    (h1 : cms.1.Nodup) (h2 : cms.2.Nodup)
    (hm : mplus.length = cms.1.length + cms.2.length + if scaleDisp = 0 then 0 else 1)
    (hl1 : ∀ i ∈ cms.1, Lim.Nonneg (kickLimit s0.RING i false)) (hl2 : ∀ i ∈ cms.2, Lim.Nonneg (kickLimit s0.RING i true))
    {F : List Nat} (hF : F = if scaleDisp = 0 then [] else s0.ORD.RF)
    (hi : RunInv E B bpms cms F (CorrectStep cms mplus ref scaleDisp) s0 hist l) :
    ∃ l', RunInv E B bpms cms F (CorrectStep cms mplus ref scaleDisp) s0 logs l' ∧
      l'.after = s' ∧ logs.length ≤ hist.length + n ∧ (∀ k, hist.length ≤ k → ∀ a, logs[k]? = some a → Complete a) ∧
      hist <+: logs ∧ (n ≠ 0 → hist.length < logs.length) ∧
      ((maxsteps = 1 ∧ logs.length = hist.length + n) ∨
       (min 5 maxsteps ≤ logs.length ∧ SpreadBelow eps (tail (min 5 maxsteps) logs) ∧
          (logs.length = hist.length + n ∨ ∃ a b, IsRms l' (a, b) ∧ a < target ∧ b < target)) ∨
       (5 ≤ logs.length ∧ SpreadBelow eps (tail 5 logs))) := by
  have hmin : min NREPRO maxsteps ≠ 0 := by unfold NREPRO; omega
  induction n generalizing hist l with
  | zero =>
    unfold correctLoop at hr
    split at hr
    · rename_i hc
      cases hr
      have hcomp : ∀ k, logs.length ≤ k → ∀ a, logs[k]? = some a → Complete a := by
        intro k hk a ha
        have := (List.getElem?_eq_some_iff.1 ha).1
        omega
      refine ⟨l, hi, rfl, by simp, hcomp, List.prefix_refl _, by simp, ?_⟩
      rw [Bool.or_eq_true, decide_eq_true_eq] at hc
      rcases hc with hc | hc
      · obtain ⟨c1, c2⟩ := isStable_spec hsq hmin hc
        exact Or.inr (Or.inl ⟨c1, c2, Or.inl rfl⟩)
      · exact Or.inl ⟨hc, rfl⟩
    · cases hr
  | succ n ih =>
    unfold correctLoop at hr
    obtain ⟨m, hmeas, hr⟩ := bindLift_eq_ok.1 hr
    obtain ⟨m', hnan, hr⟩ := bindLift_eq_ok.1 hr
    obtain ⟨u1, s1, hs1, hr⟩ := bind_eq_ok.1 hr
    obtain ⟨l', s3, hs3, hr⟩ := bind_eq_ok.1 hr
    obtain ⟨g, gb, ga⟩ := inject_ok hs3
    have os := hi.after
    have o1 := correctStep_only cms scaleDisp (kicksFor mplus m' ref) l.after
    rw [hs1] at o1
    have hRF : l.after.ORD.RF = s0.ORD.RF := by rw [os.frame.ord]
    obtain ⟨hst, hfreq⟩ := correctStep_ok hs1 h1 h2 (by rw [kicksFor_length]; exact hm)
      (fun i hi => nonneg_limits os (hl1 i hi)) (fun i hi => nonneg_limits os (hl2 i hi))
    rw [(noNan_eq_ok hnan).1, kicks_all hmeas] at hst hfreq
    have hi' : RunInv E B bpms cms F (CorrectStep cms mplus ref scaleDisp) s0 (hist ++ [l']) l' := by
      refine hi.snoc g ⟨?_, ?_, ?_⟩ ?_
      · rw [gb]; exact hst
      · rw [gb]; exact o1
      · rw [gb]; exact hfreq
      · rw [gb, hF]; rw [hRF] at o1; rw [hF] at os; exact os.trans o1
    by_cases hc : (l'.x.any (fun v => v.isNone)) = true
    · rw [if_pos hc] at hr; cases hr
    rw [if_neg hc] at hr
    have hcl : Complete l' := by
      intro v hv
      by_contra hn
      exact hc (List.any_eq_true.2 ⟨v, hv, by simpa using hn⟩)
    have hcomp' : ∀ k, hist.length ≤ k → ∀ a, (hist ++ [l'])[k]? = some a → Complete a := by
      intro k hk a ha
      rw [List.getElem?_append_right hk] at ha
      have : a ∈ [l'] := List.mem_of_getElem? ha
      rw [List.mem_singleton.1 this]; exact hcl
    have hlen : (hist ++ [l']).length = hist.length + 1 := by simp
    split at hr
    · rename_i ht
      cases hr
      rw [Bool.and_eq_true] at ht
      obtain ⟨c1, c2⟩ := isStable_spec hsq hmin ht.2
      refine ⟨l', hi', ga, by omega, hcomp', List.prefix_append _ _, by omega, Or.inr (Or.inl ⟨c1, c2, Or.inr ?_⟩)⟩
      have ht1 := ht.1
      unfold below at ht1
      split at ht1
      · rename_i a b ha hb
        rw [decide_eq_true_eq, max_lt_iff] at ht1
        exact ⟨a, b, rms_isRms hsq (by rw [← ha, ← hb]), ht1.1, ht1.2⟩
      · cases ht1
    · split at hr
      · rename_i ht
        cases hr
        obtain ⟨c1, c2⟩ := isStable_spec hsq (by simp [NREPRO]) ht
        exact ⟨l', hi', ga, by omega, hcomp', List.prefix_append _ _, by omega, Or.inr (Or.inr ⟨c1, c2⟩)⟩
      · rw [← ga] at hr
        obtain ⟨a, b1, b2, b3, b4, b0, b5, b6⟩ := ih hr hi'
        have hge := b0.length_le
        rw [hlen] at b3 b4 b5 b6 hge
        refine ⟨a, b1, b2, by omega, ?_, (List.prefix_append _ _).trans b0, fun _ => by omega, ?_⟩
        · intro k hk x hx
          rcases Nat.lt_or_ge k (hist.length + 1) with hlt | hge2
          · refine hcomp' k hk x ?_
            obtain ⟨r, rfl⟩ := b0
            rwa [List.getElem?_append_left (by omega)] at hx
          · exact b4 k hge2 x hx
        · rcases b6 with b6 | ⟨b6, b7, b8⟩ | b6
          · exact Or.inl ⟨b6.1, by omega⟩
          · exact Or.inr (Or.inl ⟨b6, b7, b8.imp (fun h => by omega) id⟩)
          · exact Or.inr (Or.inr b6)

end loops

end PySC
