import Verif.Spec.Equivalent
import Verif.Lemmas.Instruments
import Verif.Lemmas.Records
import Verif.Lemmas.SameLaw
/-
Equivalent machines behave the same (C112).
-/
namespace PySC
set_option linter.unusedSectionVars false
variable {K : Type} [Field K] [LinearOrder K] [FloorRing K]
open Py Spec

theorem Spec.Equivalent.refl (s : SC K) : Equivalent s s :=
  ⟨rfl, rfl, rfl, rfl, rfl, fun _ => rfl, fun _ => rfl, fun _ => rfl, fun _ => rfl, rfl, rfl, rfl⟩
theorem Spec.Equivalent.symm {s t : SC K} (h : Equivalent s t) : Equivalent t s :=
  ⟨h.ring.symm, h.design.symm, h.injection.symm, h.ord.symm, h.rng.symm, fun i => (h.bpm i).symm, fun i => (h.rf i).symm,
    fun i => (h.magnet i).symm, fun i => (h.support i).symm, h.randomInjection.symm, h.staticInjection.symm, h.circumference.symm⟩
theorem Spec.Equivalent.trans {s t u : SC K} (h : Equivalent s t) (g : Equivalent t u) : Equivalent s u :=
  ⟨h.ring.trans g.ring, h.design.trans g.design, h.injection.trans g.injection, h.ord.trans g.ord, h.rng.trans g.rng,
    fun i => (h.bpm i).trans (g.bpm i), fun i => (h.rf i).trans (g.rf i), fun i => (h.magnet i).trans (g.magnet i),
    fun i => (h.support i).trans (g.support i), h.randomInjection.trans g.randomInjection,
    h.staticInjection.trans g.staticInjection, h.circumference.trans g.circumference⟩
theorem Spec.Alike.equivalent {s t : SC K} (h : Alike s t) : Equivalent s t :=
  ⟨h.ring, h.design, h.injection, h.ord, h.rng, h.bpm, h.rf, h.magnet, fun i => by rw [h.support], h.randomInjection, h.staticInjection,
    h.circumference⟩
theorem Spec.AlikeSupports.equivalent {s t : SC K} (h : AlikeSupports s t) : Equivalent s t :=
  ⟨h.1.ring, h.1.design, h.1.injection, h.1.ord, h.1.rng, h.1.bpm, h.1.rf, h.1.magnet, h.2, h.1.randomInjection, h.1.staticInjection,
    h.1.circumference⟩

/-- both runs return the same value or raise the same exception on equivalent machines, which stay so -/
abbrev Same {α : Type} (m : Py (SC K) α) : Prop := Sync (Equivalent (K := K)) Eq m m

theorem same_rd {α : Type} (f : Ring K → Except Err α) : Same (rd f) := Sync.rd (fun s t h => by rw [h.ring])
theorem same_setAttr (i : Nat) (a : String) (v : Attr K) : Same (setAttr i a v) := by
  intro s t h
  rw [setAttr_run, setAttr_run, h.ring]
  split
  · refine Or.inl ⟨(), (), _, _, rfl, rfl, rfl, ?_⟩
    rw [← h.ring]
    exact ⟨rfl, h.design, h.injection, h.ord, h.rng, h.bpm, h.rf, h.magnet, h.support, h.randomInjection, h.staticInjection, h.circumference⟩
  · exact Or.inr ⟨_, _, _, rfl, rfl, h⟩
theorem same_randnc (E : Env K) (c : K) (n : Nat) : Same (randnc E c n) := by
  intro s t h
  unfold randnc
  rw [h.rng]
  cases randncFrom E c n t.rng with
  | ok p => exact Or.inl ⟨_, _, _, _, rfl, rfl, rfl, h.ring, h.design, h.injection, h.ord, rfl, h.bpm, h.rf, h.magnet, h.support,
      h.randomInjection, h.staticInjection, h.circumference⟩
  | error e => exact Or.inr ⟨_, _, _, rfl, rfl, h⟩
theorem same_modOrd (f : Ords → Ords) : Same (modOrd (K := K) f) := Sync.modify (fun _ _ h =>
  ⟨h.ring, h.design, h.injection, congrArg f h.ord, h.rng, h.bpm, h.rf, h.magnet, h.support, h.randomInjection, h.staticInjection, h.circumference⟩)
theorem same_inj (f : Inj K → Inj K) : Same (modify (fun s => { s with INJ := f s.INJ })) := Sync.modify (fun _ _ h =>
  ⟨h.ring, h.design, congrArg f h.injection, h.ord, h.rng, h.bpm, h.rf, h.magnet, h.support, h.randomInjection, h.staticInjection, h.circumference⟩)
theorem same_ring (r : Ring K) : Same (modify (fun s => { s with RING := r })) := Sync.modify (fun _ _ h =>
  ⟨rfl, h.design, h.injection, h.ord, h.rng, h.bpm, h.rf, h.magnet, h.support, h.randomInjection, h.staticInjection, h.circumference⟩)

/-- go through the definition of a method -/
macro "same" : tactic => `(tactic| repeat' (first
  | with_reducible exact Sync.pure rfl | with_reducible exact Sync.throw _ | with_reducible exact Sync.lift _ | with_reducible exact same_rd _
  | with_reducible exact same_setAttr _ _ _ | with_reducible exact same_randnc _ _ _ | with_reducible exact same_modOrd _ | with_reducible assumption
  | with_reducible refine Sync.when ?_ | with_reducible refine Sync.ite ?_ ?_
  | with_reducible refine Sync.forEach (fun _ _ => ?_) | with_reducible refine Sync.mapEach (fun _ _ => ?_)
  | (with_reducible refine Sync.bind Sync.get (fun s t h => ?_)
     try simp only [Spec.Equivalent.ring h, Spec.Equivalent.design h, Spec.Equivalent.injection h, Spec.Equivalent.ord h])
  | with_reducible refine Sync.seq ?_ (fun _ => ?_)))

theorem same_updateMagnet (a b : Nat) : Same (updateMagnet (K := K) a b) := by
  unfold updateMagnet
  have h : ∀ x : Option K, Same (addTerm b x) := fun x => by
    cases x <;> unfold addTerm <;> (try unfold addToPolynomB0) <;> same
  have h1 := h
  same <;> exact h _
theorem same_updateMagnets (o : Option (List Nat)) : Same (updateMagnets (K := K) o) := by
  unfold updateMagnets updateMagnetAndChildren
  same <;> exact same_updateMagnet _ _
theorem same_updateCavities (o : Option (List Nat)) : Same (updateCavities (K := K) o) := by
  unfold updateCavities updateCavityField
  same
theorem same_updateSupports (E : Env K) (b m : Bool) : Same (updateSupports E b m) := by
  unfold updateSupports updateMagnetSupport updateBpmSupport updateTransformation copyTransformation
  same

/-! ### Measurements -/

theorem same_generateBunches (E : Env K) (B : BeamEnv K) (n : Option Nat) : Same (generateBunches E B n) := by
  unfold generateBunches
  same
theorem same_tracking (E : Env K) (B : BeamEnv K) (l : List Nat) : Same (tracking E B l) := by
  unfold tracking
  same
  exact same_generateBunches _ _ _
theorem same_realBpmReading (E : Env K) (B : BeamEnv K) (l : List Nat) (n : Nat) (trk : Nat → Nat → List (Option K × Option K)) :
    Same (realBpmReading E B l n trk) := by
  unfold realBpmReading
  same
theorem same_bpmReading (E : Env K) (B : BeamEnv K) (b : Option (List Nat)) (c : Bool) : Same (bpmReading E B b c) := by
  unfold bpmReading
  same
  · exact same_tracking _ _ _
  · exact same_realBpmReading _ _ _ _ _
  · exact same_realBpmReading _ _ _ _ _
theorem same_beamTransmission (E : Env K) (B : BeamEnv K) (n t : Option Nat) : Same (beamTransmission E B n t) := by
  unfold beamTransmission
  same
  exact same_generateBunches _ _ _
theorem same_allElementsReading (E : Env K) (B : BeamEnv K) : Same (allElementsReading E B) := by
  unfold allElementsReading allShot
  same
  · exact same_tracking _ _ _
  · exact same_realBpmReading _ _ _ _ _
  · exact same_realBpmReading _ _ _ _ _

/-! ### Registration -/

theorem same_modSig {f : Sigs K → Sigs K}
    (hb : ∀ g g' : Sigs K, (∀ i, g.BPM.get? i = g'.BPM.get? i) → ∀ i, (f g).BPM.get? i = (f g').BPM.get? i)
    (hr : ∀ g g' : Sigs K, (∀ i, g.RF.get? i = g'.RF.get? i) → ∀ i, (f g).RF.get? i = (f g').RF.get? i)
    (hm : ∀ g g' : Sigs K, (∀ i, g.Magnet.get? i = g'.Magnet.get? i) → ∀ i, (f g).Magnet.get? i = (f g').Magnet.get? i)
    (hs : ∀ g g' : Sigs K, (∀ i, g.Support.get? i = g'.Support.get? i) → ∀ i, (f g).Support.get? i = (f g').Support.get? i)
    (h1 : ∀ g, (f g).randomInjectionZ = g.randomInjectionZ) (h2 : ∀ g, (f g).staticInjectionZ = g.staticInjectionZ)
    (h3 : ∀ g, (f g).Circumference = g.Circumference) : Same (modSig f) := Sync.modify (fun s t h =>
  ⟨h.ring, h.design, h.injection, h.ord, h.rng, hb _ _ h.bpm, hr _ _ h.rf, hm _ _ h.magnet, hs _ _ h.support,
    by show (f _).randomInjectionZ = (f _).randomInjectionZ; rw [h1, h1, h.randomInjection],
    by show (f _).staticInjectionZ = (f _).staticInjectionZ; rw [h2, h2, h.staticInjection],
    by show (f _).Circumference = (f _).Circumference; rw [h3, h3, h.circumference]⟩)

theorem sigUpdate_same {d d' : Dict Nat (Kwargs K)} (h : ∀ i, d.get? i = d'.get? i) (j : Nat) (kw : Kwargs K) (i : Nat) :
    (sigUpdate d j kw).get? i = (sigUpdate d' j kw).get? i := by
  unfold sigUpdate
  rw [Dict.get?_set, Dict.get?_set, h j, h i]

theorem same_registerBpms (o : List Nat) (kw : Kwargs K) : Same (registerBpms o kw) := by
  unfold registerBpms registerBpm1
  same
  exact same_modSig (fun _ _ h => sigUpdate_same h _ _) (fun _ _ h => h) (fun _ _ h => h) (fun _ _ h => h) (fun _ => rfl) (fun _ => rfl) (fun _ => rfl)
theorem same_registerCavities (o : List Nat) (kw : Kwargs K) : Same (registerCavities o kw) := by
  unfold registerCavities registerCavity1 registerRfField
  same
  exact same_modSig (fun _ _ h => h) (fun _ _ h => sigUpdate_same h _ _) (fun _ _ h => h) (fun _ _ h => h) (fun _ => rfl) (fun _ => rfl) (fun _ => rfl)
theorem same_withKey (kw : Kwargs K) (key : String) {f : Attr K → Py (SC K) Unit} (hf : ∀ v, Same (f v)) : Same (withKey kw key f) := by
  unfold withKey
  split
  · exact hf _
  · exact Sync.pure rfl
theorem same_registerMagnets (o : List Nat) (kw : Kwargs K) : Same (registerMagnets o kw) := by
  unfold registerMagnets registerMagnet1 registerZeros addPolynom optionalMagnetFields ensureCMlimit setCMlimit
  same
  · exact same_modSig (fun _ _ h => h) (fun _ _ h => h) (fun _ _ h => sigUpdate_same h _ _) (fun _ _ h => h) (fun _ => rfl) (fun _ => rfl) (fun _ => rfl)
  all_goals (refine same_withKey _ _ (fun _ => ?_); same)
theorem same_setSupportSig (i : Nat) (n : String) (v : Attr K) : Same (setSupportSig i n v) :=
  same_modSig (fun _ _ h => h) (fun _ _ h => h) (fun _ _ h => h)
    (fun g g' h j => by simp only [Dict.get?_set, h]) (fun _ => rfl) (fun _ => rfl) (fun _ => rfl)
theorem same_storeSupportSig (t : String) (p : Nat × Nat) (kv : String × Attr K) : Same (storeSupportSig t p kv) := by
  unfold storeSupportSig
  split <;> same <;> exact same_setSupportSig _ _ _
theorem same_registerSupports (rows : List (List Nat)) (t : String) (kw : Kwargs K) : Same (registerSupports rows t kw) := by
  unfold registerSupports initSupport
  same
  · exact same_modSig (fun _ _ h => h) (fun _ _ h => h) (fun _ _ h => h) (fun g g' h j => by simp only [Dict.get?_set, h]) (fun _ => rfl) (fun _ => rfl)
      (fun _ => rfl)
  · exact same_storeSupportSig _ _ _
theorem same_regCall (c : RegCall K) : Same c.run := by
  cases c with
  | bpms o kw => exact same_registerBpms _ _
  | cavities o kw => exact same_registerCavities _ _
  | magnets o kw => exact same_registerMagnets _ _
  | supports r t kw => exact same_registerSupports _ _ _

/-! ### Errors -/

theorem same_scaledRandn (E : Env K) (c : K) (v : Attr K) : Same (scaledRandn E c v) := by
  unfold scaledRandn
  split <;> same
theorem same_drawInto (E : Env K) (n : K) (i : Nat) (a : String) (v : Attr K) : Same (drawInto E n i a v) := by
  unfold drawInto randnCutoff
  same
  split <;> exact same_scaledRandn _ _ _
theorem same_randomMultipoles (E : Env K) (o : List Nat) (BA : List (K × K)) : Same (setRandomMultipoles E o BA) := by
  unfold setRandomMultipoles randomMultipole1 addToOffset
  same
theorem same_systematicMultipoles (o : List Nat) (BA : List (K × K)) (k : Nat) (sk : Bool) : Same (setSystematicMultipoles o BA k sk) := by
  unfold setSystematicMultipoles setSysPol
  same

theorem intersect_keys {d d' : Dict Nat (Kwargs K)} (h : ∀ i, d.get? i = d'.get? i) (l : List Nat) : intersect l d.keys = intersect l d'.keys := by
  unfold intersect
  congr 1
  funext i
  rw [decide_eq_decide, ← Dict.get?_isSome_iff, ← Dict.get?_isSome_iff, h]
theorem entries_same {d d' : Dict Nat (Kwargs K)} (h : ∀ i, d.get? i = d'.get? i) : entries d = entries d' := by
  funext i
  unfold entries
  rw [h]
theorem isEmpty_same {d d' : Dict Nat (Kwargs K)} (h : ∀ i, d.get? i = d'.get? i) : d.isEmpty = d'.isEmpty := by
  cases d with
  | nil =>
    cases d' with
    | nil => rfl
    | cons p r => have := h p.1; simp [Dict.get?] at this
  | cons p r =>
    cases d' with
    | nil => have := h p.1; simp [Dict.get?] at this
    | cons p' r' => rfl

theorem same_applyErrors (E : Env K) (n : K) : Same (applyErrors E n) := by
  have h1 : Same (applyRf E n) := by
    unfold applyRf
    refine Sync.bind Sync.get (fun s t h => ?_)
    rw [h.ord, intersect_keys h.rf, entries_same h.rf]
    same; exact same_drawInto _ _ _ _ _
  have h2 : Same (applyBpm E n) := by
    unfold applyBpm
    refine Sync.bind Sync.get (fun s t h => ?_)
    rw [h.ord, intersect_keys h.bpm, entries_same h.bpm]
    same; exact same_drawInto _ _ _ _ _
  have h3 : Same (applyMagnet E n) := by
    unfold applyMagnet
    refine Sync.bind Sync.get (fun s t h => ?_)
    rw [h.ord, intersect_keys h.magnet, entries_same h.magnet]
    same; exact same_drawInto _ _ _ _ _
  have h4 : Same (applyInjection E n) := by
    unfold applyInjection
    refine Sync.seq (same_randnc _ _ _) (fun z => Sync.bind Sync.get (fun s t h => ?_))
    rw [h.staticInjection, h.injection]
    refine Sync.seq (Sync.lift _) (fun _ => Sync.seq (Sync.lift _) (fun z0 => Sync.modify (fun s t h => ?_)))
    exact ⟨h.ring, h.design, by simp only [h.injection, h.randomInjection], h.ord, h.rng, h.bpm, h.rf, h.magnet, h.support, h.randomInjection,
      h.staticInjection, h.circumference⟩
  have h5 : Same (applyCircumference E n) := by
    unfold applyCircumference
    refine Sync.seq (same_randnc _ _ _) (fun z => Sync.bind Sync.get (fun s t h => ?_))
    rw [h.ring, h.circumference]
    exact Sync.seq (Sync.lift _) (fun _ => same_ring _)
  have h6 : ∀ sPos t p, Same (applySupport E n sPos t p) := by
    intro sPos tt p
    unfold applySupport
    refine Sync.bind Sync.get (fun s t h => ?_)
    rw [h.support, h.support]
    cases t.SIG.Support.get? p.1 with
    | none => exact Sync.pure rfl
    | some sig0 =>
      dsimp only
      unfold drawSupport
      same
      · exact same_drawInto _ _ _ _ _
      · split
        · exact Sync.throw _
        · same; exact same_drawInto _ _ _ _ _
  have h7 : Same (applySupports E n) := by
    unfold applySupports
    same
    exact h6 _ _ _
  have h8 := same_updateSupports E true true
  unfold applyErrors
  refine Sync.seq h1 (fun _ => Sync.seq h2 (fun _ => Sync.seq h3 (fun _ => Sync.seq h4 (fun _ => Sync.seq h5 (fun _ => Sync.seq h7 (fun _ =>
    Sync.seq h8 (fun _ => Sync.bind Sync.get (fun s t h => ?_))))))))
  rw [h.ord, isEmpty_same h.rf]
  same
  · exact same_updateMagnets _
  · exact same_updateCavities _

/-! ### Set-points -/

theorem same_setCM (o : List Nat) (sp : NpArr K) (sk : Bool) (m : String) : Same (setCMSetpoints o sp sk m) := by
  unfold setCMSetpoints setCM1
  same
  exact same_updateMagnets _
theorem same_setMagnet (o : List Nat) (sp : NpArr K) (sk : Bool) (k : Nat) (m : String) (d : Bool) : Same (setMagnetSetpoints o sp sk k m d) := by
  unfold setMagnetSetpoints setMagnet1 dipoleCompensation
  same
  · exact same_setCM _ _ _ _
  · exact same_updateMagnets _
theorem same_setCavity (o : List Nat) (sp : NpArr K) (p m : String) : Same (setCavitySetpoints o sp p m) := by
  unfold setCavitySetpoints
  same
  exact same_updateCavities _

theorem equivalent_instruments (E : Env K) (B : BeamEnv K) : SameInstruments E B (Equivalent (K := K)) where
  view := fun s t h => ⟨h.ord, by rw [h.injection], h.design, by rw [h.ring], fun i a _ => by rw [h.ring], fun i => by rw [h.ring]⟩
  reading := fun b c => (same_bpmReading E B b c).sameRun
  transmission := fun n m => (same_beamTransmission E B n m).sameRun
  correctors := fun l sp sk m => (same_setCM l sp sk m).sameRun
  magnets := fun l sp sk k m d => (same_setMagnet l sp sk k m d).sameRun
  cavities := fun l sp p m => (same_setCavity l sp p m).sameRun
  refresh := fun l => (same_updateMagnets l).sameRun
  injection := fun f _ s t h => ⟨h.ring, h.design, congrArg f h.injection, h.ord, h.rng, h.bpm, h.rf, h.magnet, h.support, h.randomInjection,
    h.staticInjection, h.circumference⟩
  stored := fun i v a _ => (same_setAttr i a _).sameRun
  bpmOffset := fun i p d => Sync.sameRun (by unfold changeOffset; same)
  bpmGain := fun i p d => Sync.sameRun (by unfold addCalError; same)
  bpmRoll := fun i d => Sync.sameRun (by unfold changeRoll; same)

/-! ### All calls and steps -/

theorem same_onRing {α : Type} (m : Py (Ring K) α) : Same (onRing m) := by
  intro s t h
  unfold onRing
  rw [h.ring]
  cases m t.RING with
  | ok a r => exact Or.inl ⟨_, _, _, _, rfl, rfl, rfl, rfl, h.design, h.injection, h.ord, h.rng, h.bpm, h.rf, h.magnet, h.support,
      h.randomInjection, h.staticInjection, h.circumference⟩
  | error e r => exact Or.inr ⟨_, _, _, rfl, rfl, rfl, h.design, h.injection, h.ord, h.rng, h.bpm, h.rf, h.magnet, h.support,
      h.randomInjection, h.staticInjection, h.circumference⟩

theorem verifyStructure_same {s t : SC K} (h : Equivalent s t) : verifyStructure s = verifyStructure t := by
  have hv : ∀ {d d' : Dict Nat (Dict String (Attr K))}, (∀ i, d.get? i = d'.get? i) → verifyEntry d = verifyEntry d' := fun {d d'} hd => by
    funext i
    unfold verifyEntry Dict.has
    have : (i ∈ d.keys) = (i ∈ d'.keys) := propext (by rw [← Dict.get?_isSome_iff, ← Dict.get?_isSome_iff, hd i])
    simp only [this]
  have hm : verifyMagnet s = verifyMagnet t := by
    funext i
    unfold verifyMagnet
    rw [h.ring, hv h.magnet]
  unfold verifyStructure
  simp only [h.ord, h.ring, hm, hv h.rf, h.rf, h.injection, h.randomInjection, h.staticInjection]

theorem same_verify : Same (verify (K := K)) := by
  unfold verify
  refine Sync.bind Sync.get (fun s t h => ?_)
  rw [verifyStructure_same h]
  exact Sync.lift _

theorem veryDeepCopy_sync : Sync (Equivalent (K := K)) Equivalent veryDeepCopy veryDeepCopy := by
  unfold veryDeepCopy
  refine Sync.bind Sync.get (fun s t h => ?_)
  simp only [h.ring, h.design]
  refine Sync.ite (Sync.throw _) (Sync.pure ?_)
  exact ⟨rfl, rfl, h.injection, h.ord, h.rng, h.bpm, h.rf, h.magnet, h.support, h.randomInjection, h.staticInjection, h.circumference⟩

theorem same_call (W : World K) (c : Call K) : Same (c.run W) := by
  by_cases hc : c.InControlRoom
  · exact (equivalent_instruments W.E W.B).call (O := W.O) hc (fun _ _ => Or.inr trivial)
  · cases c with
    | register c => exact same_regCall c
    | systematicMultipoles o ba k sk => exact Sync.dropped (same_systematicMultipoles _ _ _ _)
    | randomMultipoles o ba => exact same_randomMultipoles _ _ _
    | applyErrors n => exact same_applyErrors _ _
    | updateCavities o => exact same_updateCavities _
    | updateMagnets o => exact same_updateMagnets _
    | updateSupports b m => exact same_updateSupports _ _ _
    | veryDeepCopy => exact Sync.dropped veryDeepCopy_sync
    | verify => exact same_verify
    | switches a => exact same_onRing _
    | bunches n => exact Sync.dropped (same_generateBunches _ _ _)
    | _ => exact absurd trivial hc

theorem same_minimise (m : Minimiser K) (x0 : List K) {f : List K → Py (SC K) (Option K)} (hf : ∀ x, Same (f x)) (fuel : Nat) :
    ∀ hist, Same (minimise m x0 f fuel hist) := by
  induction fuel with
  | zero => intro hist; unfold minimise; split <;> same
  | succ n ih =>
    intro hist
    unfold minimise
    split
    · exact Sync.pure rfl
    · exact Sync.seq (hf _) (fun _ => ih _)

theorem same_chromaSet (x : List K) (n : Nat) (fams : List (List Nat)) (sp0 : List (List K)) : Same (chromaSet x n fams sp0) := by
  induction fams generalizing n sp0 with
  | nil => exact Sync.pure rfl
  | cons fam fams ih =>
    unfold chromaSet
    refine Sync.seq (Sync.lift _) (fun _ => ?_)
    cases sp0 with
    | nil => exact Sync.throw _
    | cons s0 sp0 => exact Sync.seq (same_setMagnet _ _ _ _ _ _) (fun _ => ih _ _)

theorem same_fitChroma (m : Minimiser K) (fuel : Nat) (merit : K × K → Ring K → Option K) (design : Ring K → Option K × Option K) (fams : List (List Nat))
    (target : Option (Option K × Option K)) (x0 : List K) : Same (fitChroma m fuel merit design fams target x0) := by
  unfold fitChroma
  refine Sync.bind Sync.get (fun s t h => ?_)
  rw [h.design]
  split
  · refine Sync.seq (same_rd _) (fun _ => Sync.seq (same_minimise _ _ (fun x => ?_) _ _) (fun _ => Sync.pure rfl))
    unfold chromaFun
    refine Sync.seq (same_chromaSet _ _ _ _) (fun _ => Sync.bind Sync.get (fun s t h => Sync.pure (by rw [h.ring])))
  · exact Sync.pure rfl

theorem same_fitTune (tune : Ring K → Except Err Unit) (fams : List (List Nat)) (given : Bool) : Same (fitTune tune fams given) := by
  unfold fitTune
  same

theorem same_fakeBba (E : Env K) (S : StatsEnv K) (b m : List (List Nat)) (e : Option (List (List Bool))) (f : Option (List (Option K))) :
    Same (fakeBba E S b m e f) := by
  unfold fakeBba fakeEntry
  refine Sync.ite (Sync.throw _) (Sync.seq ?_ (fun _ => ?_))
  · split
    · exact Sync.pure rfl
    · exact same_rd _
  · same
    split
    · exact Sync.pure rfl
    · unfold changeOffset; same

theorem same_locoMeasurement (E : Env K) (B : BeamEnv K) (amp : List K × List K) (d : K) (b : List Nat) (c : List Nat × List Nat) :
    Same (locoMeasurement E B amp d b c) := by
  unfold locoMeasurement
  same
  · exact (equivalent_instruments E B).responseMatrix _ _ _ _ _
  · exact (equivalent_instruments E B).dispersion _ _ _ _ _

theorem same_rampUp (E : Env K) (B : BeamEnv K) (n : Nat) : Same (rampUpErrors B n) := by
  unfold rampUpErrors rampSupport
  same
  · exact (equivalent_instruments E B).modelRM _ _ _ _ _ _ _ _
  · split <;> exact Sync.throw _

theorem same_step (L : Lab K) (c : Step K) : Same (c.run L) := by
  by_cases hc : c.InControlRoom
  · exact (equivalent_instruments L.E L.B).step hc (fun _ _ => Or.inr trivial)
  · cases c with
    | call c => exact same_call _ c
    | allElements => exact Sync.dropped (same_allElementsReading _ _)
    | fitTune f g => exact same_fitTune _ _ _
    | fitChroma f t x => exact same_fitChroma _ _ _ _ _ _ _
    | fakeBba b m e f => exact same_fakeBba _ _ _ _ _ _
    | locoMeasurement a d b c => exact Sync.dropped (same_locoMeasurement _ _ _ _ _ _)
    | rampUp n => exact same_rampUp L.E _ _
    | _ => exact absurd trivial hc
end PySC
