import Verif.Spec.History
import Verif.Lemmas.Register
import Verif.Lemmas.ApplyErrors
import Verif.Lemmas.Multipoles
import Verif.Lemmas.LatticeSetting
import Verif.Lemmas.Orbit
/-
What single calls keep, for histories of calls.
-/
namespace PySC
set_option linter.unusedSectionVars false
variable {K : Type} [Field K] [LinearOrder K] [FloorRing K]
open Py Spec

/-! ### rings grow -/

/-- same number of elements, no attribute disappears -/
structure RGrow (r r' : Ring K) : Prop where
  len : r'.length = r.length
  some : ∀ i a, (r.attr i a).isSome → (r'.attr i a).isSome

theorem RGrow.rfl' (r : Ring K) : RGrow r r := ⟨rfl, fun _ _ h => h⟩
theorem RGrow.trans {a b c : Ring K} (h1 : RGrow a b) (h2 : RGrow b c) : RGrow a c :=
  ⟨h2.len.trans h1.len, fun i x h => h2.some i x (h1.some i x h)⟩
instance : PreRel (RGrow (K := K)) := ⟨RGrow.rfl', fun _ _ _ => RGrow.trans⟩

theorem Ring.isSome_lt {r : Ring K} {i : Nat} {a : String} (h : (r.attr i a).isSome) : i < r.length := by
  unfold Ring.attr at h
  by_contra hn
  rw [List.getElem?_eq_none (by omega)] at h
  simp at h

theorem RGrow.setAttr (r : Ring K) (i : Nat) (a : String) (v : Attr K) : RGrow r (r.setAttr i a v) := by
  refine ⟨by simp, fun j b h => ?_⟩
  have hl := Ring.isSome_lt h
  rw [Ring.attr_setAttr]
  split
  · rename_i hh; obtain ⟨rfl, rfl⟩ := hh
    try rw [if_pos hl]
    first | rfl | simp [List.getElem?_eq_getElem hl]
  · exact h

/-- the object keeps its design lattice and its attributes -/
structure Grow (s s' : SC K) : Prop where
  ideal : s'.IDEALRING = s.IDEALRING
  ring : RGrow s.RING s'.RING
instance : PreRel (Grow (K := K)) :=
  ⟨fun _ => ⟨rfl, RGrow.rfl' _⟩, fun _ _ _ h1 h2 => ⟨h2.ideal.trans h1.ideal, h1.ring.trans h2.ring⟩⟩
theorem Grow.setAttr {s : SC K} {i : Nat} {a : String} {v : Attr K} : Grow s { s with RING := s.RING.setAttr i a v } :=
  ⟨rfl, RGrow.setAttr _ _ _ _⟩
theorem Grow.recs {s : SC K} {o g} : Grow s { s with ORD := o, SIG := g } := ⟨rfl, RGrow.rfl' _⟩

/-- as `Grow`, and the registrations stay -/
structure Keeps (s s' : SC K) : Prop extends Grow s s' where
  sig : s'.SIG = s.SIG
  ord : s'.ORD = s.ORD
instance : PreRel (Keeps (K := K)) :=
  ⟨fun _ => ⟨PreRel.refl _, rfl, rfl⟩, fun _ _ _ h1 h2 =>
    ⟨PreRel.trans (R := Grow) _ _ _ h1.toGrow h2.toGrow, h2.sig.trans h1.sig, h2.ord.trans h1.ord⟩⟩
theorem Keeps.setAttr {s : SC K} {i : Nat} {a : String} {v : Attr K} : Keeps s { s with RING := s.RING.setAttr i a v } :=
  ⟨Grow.setAttr, rfl, rfl⟩
theorem Keeps.ofRing {s : SC K} {r : Ring K} (h : RGrow s.RING r) : Keeps s { s with RING := r } := ⟨⟨rfl, h⟩, rfl, rfl⟩
theorem Keeps.inj {s : SC K} {i : Inj K} : Keeps s { s with INJ := i } := ⟨⟨rfl, RGrow.rfl' _⟩, rfl, rfl⟩

theorem OnlyRng.hk {s s' : SC K} (h : OnlyRng s s') : Keeps s s' := by
  obtain ⟨h1, -⟩ := h
  rw [h1]; exact ⟨⟨rfl, RGrow.rfl' _⟩, rfl, rfl⟩

theorem hk_of_onlyRng {α : Type} {m : Py (SC K) α} (h : Rel OnlyRng m) : Rel Keeps m := Rel.mono (fun _ _ h => h.hk) h

/-! ### calls which register nothing -/

theorem updateMagnet_hk (i j : Nat) : Rel (Keeps (K := K)) (updateMagnet i j) := by
  have hadd : ∀ o : Option K, Rel (Keeps (K := K)) (addTerm j o) := by
    intro o; cases o with
    | none => exact Rels.pure' _
    | some x => unfold addTerm addToPolynomB0; rels; exact Keeps.setAttr
  unfold updateMagnet
  rels <;> first | exact Keeps.setAttr | exact hadd _

theorem updateMagnets_hk (o : Option (List Nat)) : Rel (Keeps (K := K)) (updateMagnets o) := by
  unfold updateMagnets updateMagnetAndChildren
  rels <;> exact updateMagnet_hk _ _

theorem updateCavities_hk (o : Option (List Nat)) : Rel (Keeps (K := K)) (updateCavities o) := by
  unfold updateCavities updateCavityField
  rels; exact Keeps.setAttr

theorem updateSupports_hk (E : Env K) (b m : Bool) : Rel (Keeps (K := K)) (updateSupports E b m) := by
  unfold updateSupports updateMagnetSupport updateBpmSupport updateTransformation copyTransformation
  rels <;> exact Keeps.setAttr

theorem setCMSetpoints_hk (ords : List Nat) (sp : NpArr K) (sk : Bool) (m : String) :
    Rel (Keeps (K := K)) (setCMSetpoints ords sp sk m) := by
  unfold setCMSetpoints setCM1
  rels
  · exact Keeps.setAttr
  · exact updateMagnets_hk _

theorem setMagnetSetpoints_hk (ords : List Nat) (sp : NpArr K) (sk : Bool) (k : Nat) (m : String) (d : Bool) :
    Rel (Keeps (K := K)) (setMagnetSetpoints ords sp sk k m d) := by
  unfold setMagnetSetpoints setMagnet1 dipoleCompensation
  rels
  · exact setCMSetpoints_hk _ _ _ _
  · exact Keeps.setAttr
  · exact updateMagnets_hk _

theorem setCavitySetpoints_hk (ords : List Nat) (sp : NpArr K) (p m : String) :
    Rel (Keeps (K := K)) (setCavitySetpoints ords sp p m) := by
  unfold setCavitySetpoints
  rels
  · exact Keeps.setAttr
  · exact updateCavities_hk _

theorem drawInto_hk (E : Env K) (n : K) (i : Nat) (name : String) (sig : Attr K) :
    Rel (Keeps (K := K)) (drawInto E n i name sig) := by
  have hs : ∀ (cut : K) (v : Attr K), Rel (Keeps (K := K)) (scaledRandn E cut v) := by
    intro cut v
    cases v with
    | num x => unfold scaledRandn; rels; exact hk_of_onlyRng (randnc_onlyRng _ _ _)
    | vec x => unfold scaledRandn; rels <;> exact hk_of_onlyRng (randnc_onlyRng _ _ _)
    | _ => exact Rels.throw _
  unfold drawInto
  refine Rels.bind ?_ (fun _ => Rels.setAttr (fun _ => Keeps.setAttr))
  unfold randnCutoff
  split <;> exact hs _ _

theorem scaleCircumference_grow {r r' : Ring K} {c : K} {mode : String} (h : scaleCircumference r c mode = .ok r') : RGrow r r' := by
  unfold scaleCircumference at h
  split at h
  · cases h
  simp only at h
  split at h
  · cases h; exact RGrow.rfl' _
  rw [Except.bind_eq_ok'] at h
  obtain ⟨q, -, h⟩ := h
  cases h
  refine ⟨by simp, fun i a hs => ?_⟩
  unfold Ring.attr at hs ⊢
  rw [List.getElem?_map]
  cases hr : r[i]? with
  | none => rw [hr] at hs; simp at hs
  | some e =>
    rw [hr] at hs
    simp only [Option.map_some, Option.bind_some] at hs ⊢
    split
    · unfold Elem.set; split
      · rfl
      · exact hs
    · exact hs

theorem applyErrors_hk (E : Env K) (n : K) : Rel (Keeps (K := K)) (applyErrors E n) := by
  have hr : ∀ c m, Rel (Keeps (K := K)) (randnc E c m) := fun c m => hk_of_onlyRng (randnc_onlyRng _ _ _)
  unfold applyErrors
  refine Rels.bind ?_ (fun _ => Rels.bind ?_ (fun _ => Rels.bind ?_ (fun _ => Rels.bind ?_ (fun _ => Rels.bind ?_ (fun _ =>
    Rels.bind ?_ (fun _ => Rels.bind (updateSupports_hk _ _ _) (fun _ => Rels.bind Rels.get (fun _ =>
    Rels.bind (Rels.when (updateMagnets_hk _)) (fun _ => Rels.when (updateCavities_hk _))))))))))
  · unfold applyRf; rels; exact drawInto_hk _ _ _ _ _
  · unfold applyBpm; rels
    · exact Keeps.setAttr
    · exact drawInto_hk _ _ _ _ _
  · unfold applyMagnet; rels; exact drawInto_hk _ _ _ _ _
  · unfold applyInjection; rels
    · exact hr _ _
    · exact Keeps.inj
  · unfold applyCircumference
    intro s
    rw [bind_apply]
    have h1 := hr n 1 s
    cases hz : randnc E n 1 s with
    | error e s1 => rw [hz] at h1; exact h1
    | ok z s1 =>
      rw [hz] at h1
      refine PreRel.trans (R := Keeps) _ _ _ h1 ?_
      change Keeps s1 ((lift (scaleCircumference s1.RING (1 + s1.SIG.Circumference * z.headD 0) "rel") >>= fun r =>
        modify (fun s => { s with RING := r })) s1).state
      cases hc : scaleCircumference s1.RING (1 + s1.SIG.Circumference * z.headD 0) "rel" with
      | error e => exact PreRel.refl s1
      | ok r => exact Keeps.ofRing (scaleCircumference_grow hc)
  · unfold applySupports
    refine Rels.bind Rels.get (fun _ => Rels.forEach (fun tp _ => ?_))
    unfold applySupport
    refine Rels.bind Rels.get (fun s => ?_)
    split
    · exact Rels.pure' _
    · refine Rels.bind (Rels.forEach (fun kv _ => ?_)) (fun _ => ?_)
      · unfold drawSupport
        refine Rels.ite (Rels.bind (drawInto_hk _ _ _ _ _) (fun _ => ?_)) (Rels.pure' _)
        split
        · exact Rels.throw _
        · exact Rels.ite (drawInto_hk _ _ _ _ _) (Rels.bind (Rels.rd _) (fun _ => Rels.setAttr (fun _ => Keeps.setAttr)))
      · rels <;> exact Keeps.setAttr

theorem setSystematicMultipoles_hk (ords : List Nat) (BA : List (K × K)) (k : Nat) (sk : Bool) :
    Rel (Keeps (K := K)) (setSystematicMultipoles ords BA k sk) := by
  unfold setSystematicMultipoles setSysPol
  rels <;> exact Keeps.setAttr

theorem setRandomMultipoles_hk (E : Env K) (ords : List Nat) (BA : List (K × K)) :
    Rel (Keeps (K := K)) (setRandomMultipoles E ords BA) := by
  unfold setRandomMultipoles randomMultipole1 addToOffset
  rels <;> first | exact Keeps.setAttr | exact hk_of_onlyRng (randnc_onlyRng _ _ _)

theorem onRing_hk {m : Py (Ring K) Unit} (h : Rel RGrow m) : Rel (Keeps (K := K)) (onRing m) := by
  intro s
  have := h s.RING
  unfold onRing
  cases hm : m s.RING <;> rw [hm] at this <;> exact Keeps.ofRing this

theorem onInj_hk (m : Py (Inj K) Unit) : Rel (Keeps (K := K)) (onInj m) := by
  intro s
  unfold onInj
  cases hm : m s.INJ <;> exact Keeps.inj

theorem setPassMethod_grow (i : Nat) (m : String) : Rel (RGrow (K := K)) (setPassMethod i m) := by
  intro r; unfold setPassMethod
  split
  · exact RGrow.setAttr _ _ _ _
  · exact RGrow.rfl' _

theorem switch_grow (args : List String) : Rel (RGrow (K := K)) (switchCavityAndRadiation args) := by
  have h1 : ∀ ms o n, Rel (RGrow (K := K)) (replacePass ms o n) := by
    intro ms o n; unfold replacePass
    refine Rels.bind Rels.get (fun r => Rels.forEach (fun i _ => Rels.bind ?_ (fun _ => Rels.ite (setPassMethod_grow _ _) (Rels.pure' _))))
    intro r; unfold passMethod
    split
    · exact RGrow.rfl' _
    · split <;> exact RGrow.rfl' _
  have h2 : ∀ o b, Rel (RGrow (K := K)) (switchRf o b) := by
    intro o b; unfold switchRf
    exact Rels.bind Rels.get (fun r => Rels.ite (Rels.forEach (fun i _ => setPassMethod_grow _ _)) (Rels.throw _))
  unfold switchCavityAndRadiation
  refine Rels.ite (Rels.throw _) ?_
  rels <;> first | exact h1 _ _ _ | exact h2 _ _

theorem beamTransmission_hk (E : Env K) (B : BeamEnv K) (n t : Option Nat) : Rel (Keeps (K := K)) (beamTransmission E B n t) := by
  unfold beamTransmission
  refine Rels.bind Rels.get (fun s => Rels.bind (hk_of_onlyRng (generateBunches_onlyRng _ _ _)) (fun z => ?_))
  rels

/-! ### corrections -/

section
variable (E : Env K) (B : BeamEnv K) (O : OrbitEnv K) (bpms : List Nat) (cms : CMs) (mplus : List (List K)) (ref : List K)

theorem inject_hk : Rel (Keeps (K := K)) (inject E B bpms) := hk_of_onlyRng (inject_onlyRng E B bpms)

theorem wiggleInner_hk (limit : Nat) (h v : List Nat) (ds : List (K × K)) (hist : List (Log K)) :
    Rel (Keeps (K := K)) (wiggleInner E B bpms limit h v ds hist) := by
  induction ds generalizing hist with
  | nil => exact Rels.pure' _
  | cons d ds ih =>
    unfold wiggleInner
    refine Rels.bind (setCMSetpoints_hk _ _ _ _) (fun _ => Rels.bind (setCMSetpoints_hk _ _ _ _) (fun _ =>
      Rels.bind (inject_hk E B bpms) (fun l => Rels.ite ?_ (ih _))))
    refine Rels.bind (inject_hk E B bpms) (fun l1 => Rels.bind (inject_hk E B bpms) (fun l2 => ?_))
    exact Rels.ite (Rels.pure' _) (ih _)

theorem wiggling_hk (limit : Nat) : Rel (Keeps (K := K)) (wiggling E B O bpms cms limit) := by
  have ho : ∀ ns hist, Rel (Keeps (K := K)) (wiggleOuter E B O bpms cms limit ns hist) := by
    intro ns
    induction ns with
    | nil => intro hist; unfold wiggleOuter; exact Rels.ite (Rels.pure' _) (Rels.throw _)
    | cons n ns ih =>
      intro hist
      unfold wiggleOuter
      refine Rels.bind (Rels.lift _) (fun h => Rels.bind (Rels.lift _) (fun v => Rels.bind (wiggleInner_hk E B bpms _ _ _ _ _) (fun r => ?_)))
      exact Rels.ite (Rels.pure' _) (ih _)
  unfold wiggling
  exact Rels.bind (inject_hk E B bpms) (fun _ => ho _ _)

theorem stepCM_hk (ords : List Nat) (dphi : List K) (sk : Bool) : Rel (Keeps (K := K)) (stepCM ords dphi sk) :=
  setCMSetpoints_hk _ _ _ _

theorem stepAll_hk (dphi : List K) : Rel (Keeps (K := K)) (stepAll cms dphi) :=
  Rels.bind (stepCM_hk _ _ _) (fun _ => stepCM_hk _ _ _)

theorem firstTurnLoop_hk (n : Nat) (hist : List (Log K)) (l : Log K) :
    Rel (Keeps (K := K)) (firstTurnLoop E B O bpms cms mplus ref n hist l) := by
  induction n generalizing hist l with
  | zero => exact Rels.throw _
  | succ n ih =>
    unfold firstTurnLoop
    refine Rels.ite (Rels.throw _) (Rels.bind (Rels.lift _) (fun m => Rels.bind (Rels.lift _) (fun h => Rels.bind (Rels.lift _) (fun v =>
      Rels.bind (stepCM_hk _ _ _) (fun _ => Rels.bind (stepCM_hk _ _ _) (fun _ => Rels.bind (inject_hk E B bpms) (fun l' => ?_)))))))
    exact Rels.ite (Rels.pure' _) (Rels.ite (Rels.bind (wiggling_hk E B O bpms cms _) (fun _ => ih _ _)) (ih _ _))

theorem stitchLoop_hk (nb n : Nat) (hist : List (Log K)) (l : Log K) :
    Rel (Keeps (K := K)) (stitchLoop E B bpms cms mplus ref nb n hist l) := by
  induction n generalizing hist l with
  | zero => exact Rels.throw _
  | succ n ih =>
    unfold stitchLoop
    refine Rels.bind (Rels.lift _) (fun m => Rels.bind (stepAll_hk cms _) (fun _ => Rels.bind (inject_hk E B bpms) (fun l' => ?_)))
    exact Rels.ite (Rels.pure' _) (ih _ _)

theorem balanceLoop_hk (eps : K) (n : Nat) (hist : List (Log K)) (l : Log K) :
    Rel (Keeps (K := K)) (balanceLoop E B bpms cms mplus ref eps n hist l) := by
  induction n generalizing hist l with
  | zero => exact Rels.throw _
  | succ n ih =>
    unfold balanceLoop
    refine Rels.bind (Rels.lift _) (fun m => Rels.bind (Rels.lift _) (fun m' => Rels.bind (stepAll_hk cms _) (fun _ =>
      Rels.bind (inject_hk E B bpms) (fun l' => ?_))))
    exact Rels.ite (Rels.throw _) (Rels.ite (Rels.pure' _) (ih _ _))

theorem correctStep_hk (scaleDisp : K) (dphi : List K) : Rel (Keeps (K := K)) (correctStep cms scaleDisp dphi) := by
  unfold correctStep
  refine Rels.ite (Rels.bind Rels.get (fun s => ?_)) (stepAll_hk cms _)
  exact Rels.bind (setCavitySetpoints_hk _ _ _ _) (fun _ => stepAll_hk cms _)

theorem correctLoop_hk (eps target scaleDisp : K) (maxsteps n : Nat) (hist : List (Log K)) (l : Log K) :
    Rel (Keeps (K := K)) (correctLoop E B bpms cms mplus ref eps target scaleDisp maxsteps n hist l) := by
  induction n generalizing hist l with
  | zero => unfold correctLoop; exact Rels.ite (Rels.pure' _) (Rels.throw _)
  | succ n ih =>
    unfold correctLoop
    refine Rels.bind (Rels.lift _) (fun m => Rels.bind (Rels.lift _) (fun m' => Rels.bind (correctStep_hk cms _ _) (fun _ =>
      Rels.bind (inject_hk E B bpms) (fun l' => ?_))))
    exact Rels.ite (Rels.throw _) (Rels.ite (Rels.pure' _) (Rels.ite (Rels.pure' _) (ih _ _)))

end

/-- calls other than registrations keep the registrations, the design lattice and every attribute -/
theorem run_keeps (W : World K) (c : Call K) (h : ¬ c.IsRegistration) : Rel (Keeps (K := K)) (c.run W) := by
  have hd : ∀ {α : Type} {m : Py (SC K) α}, Rel (Keeps (K := K)) m → Rel (Keeps (K := K)) (do let _ ← m; Py.pure ()) :=
    fun hm => Rels.bind hm (fun _ => Rels.pure' _)
  cases c with
  | register c => exact absurd trivial h
  | systematicMultipoles o ba k sk => exact hd (setSystematicMultipoles_hk _ _ _ _)
  | randomMultipoles o ba => exact setRandomMultipoles_hk _ _ _
  | applyErrors n => exact applyErrors_hk _ _
  | updateCavities o => exact updateCavities_hk _
  | updateMagnets o => exact updateMagnets_hk _
  | updateSupports b m => exact updateSupports_hk _ _ _
  | setCavity o sp p m => exact setCavitySetpoints_hk _ _ _ _
  | getCM o sk => exact hd (Rels.rd _)
  | setCM o sp sk m => exact setCMSetpoints_hk _ _ _ _
  | setMagnet o sp sk k m d => exact setMagnetSetpoints_hk _ _ _ _ _ _
  | veryDeepCopy =>
    refine hd ?_
    unfold veryDeepCopy
    exact Rels.bind Rels.get (fun s => Rels.ite (Rels.throw _) (Rels.pure' _))
  | verify => exact Rels.bind Rels.get (fun s => Rels.lift _)
  | switches a => exact onRing_hk (switch_grow a)
  | trackMode m => exact onInj_hk _
  | setInjection f => exact Rels.modify (fun s => Keeps.inj)
  | bunches n => exact hd (hk_of_onlyRng (generateBunches_onlyRng _ _ _))
  | transmission n t => exact hd (beamTransmission_hk _ _ _ _)
  | reading b cc => exact hd (hk_of_onlyRng (bpmReading_onlyRng _ _ _ _))
  | firstTurn rm r c b n =>
    refine hd ?_
    unfold firstTurn
    exact Rels.bind Rels.get (fun s => Rels.bind (Rels.lift _) (fun _ => Rels.bind (inject_hk _ _ _) (fun _ =>
      Rels.bind (Rels.lift _) (fun _ => firstTurnLoop_hk _ _ _ _ _ _ _ _ _ _))))
  | stitch rm r c b k n =>
    refine hd ?_
    unfold stitch
    refine Rels.bind Rels.get (fun s => Rels.ite (Rels.throw _) (Rels.bind (Rels.lift _) (fun c => Rels.bind (inject_hk _ _ _) (fun l =>
      Rels.ite (Rels.throw _) (Rels.ite ?_ ?_)))))
    · exact Rels.bind (wiggling_hk _ _ _ _ _ _) (fun _ => Rels.bind (inject_hk _ _ _) (fun _ => Rels.ite (Rels.throw _)
        (Rels.bind (Rels.lift _) (fun _ => stitchLoop_hk _ _ _ _ _ _ _ _ _ _))))
    · exact Rels.bind (Rels.lift _) (fun _ => stitchLoop_hk _ _ _ _ _ _ _ _ _ _)
  | balance rm r c b e n =>
    refine hd ?_
    unfold balance
    exact Rels.bind Rels.get (fun s => Rels.ite (Rels.throw _) (Rels.bind (Rels.lift _) (fun c => Rels.bind (inject_hk _ _ _) (fun l =>
      Rels.ite (Rels.throw _) (Rels.bind (Rels.lift _) (fun _ => balanceLoop_hk _ _ _ _ _ _ _ _ _ _))))))
  | correct rm r c b e t n d =>
    refine hd ?_
    unfold correct
    exact Rels.bind Rels.get (fun s => Rels.bind (Rels.lift _) (fun _ => Rels.bind (inject_hk _ _ _) (fun _ =>
      Rels.bind (Rels.lift _) (fun _ => correctLoop_hk _ _ _ _ _ _ _ _ _ _ _ _ _))))

end PySC
