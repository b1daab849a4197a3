import Verif.Lemmas.Requests
/-
Relations between the machine before and after any operation.
-/
namespace PySC
set_option linter.unusedSectionVars false
variable {K : Type} [Field K] [LinearOrder K] [FloorRing K]
open Py Spec

/-- a relation which every elementary operation other than changing magnets respects -/
structure Steers (E : Env K) (R : SC K → SC K → Prop) : Prop where
  setCM : ∀ o sp sk m, Rel R (setCMSetpoints (K := K) o sp sk m)
  setCavity : ∀ o sp p m, Rel R (setCavitySetpoints (K := K) o sp p m)
  magnets : ∀ o, Rel R (updateMagnets (K := K) o)
  cavities : ∀ o, Rel R (updateCavities (K := K) o)
  supports : ∀ b m, Rel R (updateSupports (K := K) E b m)
  rng : ∀ s s', OnlyRng s s' → R s s'
  inj : ∀ (s : SC K) i, R s { s with INJ := i }

/-- a relation which every elementary operation respects -/
structure Operates (E : Env K) (R : SC K → SC K → Prop) : Prop extends Steers E R where
  setMagnet : ∀ o sp sk k m d, Rel R (setMagnetSetpoints (K := K) o sp sk k m d)

section
variable {R : SC K → SC K → Prop} [PreRel R] {E0 : Env K} (H : Steers E0 R)
variable (E : Env K) (B : BeamEnv K) (O : OrbitEnv K) (bpms : List Nat) (cms : CMs) (mplus : List (List K)) (ref : List K)
include H

theorem Steers.inject : Rel R (PySC.inject E B bpms) := Rel.mono H.rng (inject_onlyRng E B bpms)

theorem Steers.wiggleInner (limit : Nat) (h v : List Nat) (ds : List (K × K)) (hist : List (Log K)) :
    Rel R (PySC.wiggleInner E B bpms limit h v ds hist) := by
  induction ds generalizing hist with
  | nil => exact Rels.pure' _
  | cons d ds ih =>
    unfold PySC.wiggleInner
    refine Rels.bind (H.setCM _ _ _ _) (fun _ => Rels.bind (H.setCM _ _ _ _) (fun _ =>
      Rels.bind (H.inject E B bpms) (fun l => Rels.ite ?_ (ih _))))
    refine Rels.bind (H.inject E B bpms) (fun l1 => Rels.bind (H.inject E B bpms) (fun l2 => ?_))
    exact Rels.ite (Rels.pure' _) (ih _)

theorem Steers.wiggling (limit : Nat) : Rel R (PySC.wiggling E B O bpms cms limit) := by
  have ho : ∀ ns hist, Rel R (wiggleOuter E B O bpms cms limit ns hist) := by
    intro ns
    induction ns with
    | nil => intro hist; unfold wiggleOuter; exact Rels.ite (Rels.pure' _) (Rels.throw _)
    | cons n ns ih =>
      intro hist
      unfold wiggleOuter
      refine Rels.bind (Rels.lift _) (fun h => Rels.bind (Rels.lift _) (fun v => Rels.bind (H.wiggleInner E B bpms _ _ _ _ _) (fun r => ?_)))
      exact Rels.ite (Rels.pure' _) (ih _)
  unfold PySC.wiggling
  exact Rels.bind (H.inject E B bpms) (fun _ => ho _ _)

theorem Steers.stepCM (ords : List Nat) (dphi : List K) (sk : Bool) : Rel R (PySC.stepCM ords dphi sk) := H.setCM _ _ _ _

theorem Steers.stepAll (dphi : List K) : Rel R (PySC.stepAll cms dphi) :=
  Rels.bind (H.stepCM _ _ _) (fun _ => H.stepCM _ _ _)

theorem Steers.firstTurnLoop (n : Nat) (hist : List (Log K)) (l : Log K) :
    Rel R (PySC.firstTurnLoop E B O bpms cms mplus ref n hist l) := by
  induction n generalizing hist l with
  | zero => exact Rels.throw _
  | succ n ih =>
    unfold PySC.firstTurnLoop
    refine Rels.ite (Rels.throw _) (Rels.bind (Rels.lift _) (fun m => Rels.bind (Rels.lift _) (fun h => Rels.bind (Rels.lift _) (fun v =>
      Rels.bind (H.stepCM _ _ _) (fun _ => Rels.bind (H.stepCM _ _ _) (fun _ => Rels.bind (H.inject E B bpms) (fun l' => ?_)))))))
    exact Rels.ite (Rels.pure' _) (Rels.ite (Rels.bind (H.wiggling E B O bpms cms _) (fun _ => ih _ _)) (ih _ _))

theorem Steers.stitchLoop (nb n : Nat) (hist : List (Log K)) (l : Log K) :
    Rel R (PySC.stitchLoop E B bpms cms mplus ref nb n hist l) := by
  induction n generalizing hist l with
  | zero => exact Rels.throw _
  | succ n ih =>
    unfold PySC.stitchLoop
    refine Rels.bind (Rels.lift _) (fun m => Rels.bind (H.stepAll cms _) (fun _ => Rels.bind (H.inject E B bpms) (fun l' => ?_)))
    exact Rels.ite (Rels.pure' _) (ih _ _)

theorem Steers.balanceLoop (eps : K) (n : Nat) (hist : List (Log K)) (l : Log K) :
    Rel R (PySC.balanceLoop E B bpms cms mplus ref eps n hist l) := by
  induction n generalizing hist l with
  | zero => exact Rels.throw _
  | succ n ih =>
    unfold PySC.balanceLoop
    refine Rels.bind (Rels.lift _) (fun m => Rels.bind (Rels.lift _) (fun m' => Rels.bind (H.stepAll cms _) (fun _ =>
      Rels.bind (H.inject E B bpms) (fun l' => ?_))))
    exact Rels.ite (Rels.throw _) (Rels.ite (Rels.pure' _) (ih _ _))

theorem Steers.correctStep (scaleDisp : K) (dphi : List K) : Rel R (PySC.correctStep cms scaleDisp dphi) := by
  unfold PySC.correctStep
  refine Rels.ite (Rels.bind Rels.get (fun s => ?_)) (H.stepAll cms _)
  exact Rels.bind (H.setCavity _ _ _ _) (fun _ => H.stepAll cms _)

theorem Steers.correctLoop (eps target scaleDisp : K) (maxsteps n : Nat) (hist : List (Log K)) (l : Log K) :
    Rel R (PySC.correctLoop E B bpms cms mplus ref eps target scaleDisp maxsteps n hist l) := by
  induction n generalizing hist l with
  | zero => unfold PySC.correctLoop; exact Rels.ite (Rels.pure' _) (Rels.throw _)
  | succ n ih =>
    unfold PySC.correctLoop
    refine Rels.bind (Rels.lift _) (fun m => Rels.bind (Rels.lift _) (fun m' => Rels.bind (H.correctStep cms _ _) (fun _ =>
      Rels.bind (H.inject E B bpms) (fun l' => ?_))))
    exact Rels.ite (Rels.throw _) (Rels.ite (Rels.pure' _) (Rels.ite (Rels.pure' _) (ih _ _)))

/-- then every operation which does so where it changes magnets respects it, whatever its outcome -/
theorem Steers.run (W : World K) (hE : W.E = E0) (c : Call K) (h : c.IsOperation)
    (hm : ∀ o sp sk k m d, c = .setMagnet o sp sk k m d → Rel R (setMagnetSetpoints (K := K) o sp sk k m d)) : Rel R (c.run W) := by
  subst hE
  have hd : ∀ {α : Type} {m : Py (SC K) α}, Rel R m → Rel R (do let _ ← m; Py.pure ()) :=
    fun hm => Rels.bind hm (fun _ => Rels.pure' _)
  cases c with
  | register c => exact absurd h id
  | systematicMultipoles o ba k sk => exact absurd h id
  | randomMultipoles o ba => exact absurd h id
  | applyErrors n => exact absurd h id
  | switches a => exact absurd h id
  | updateCavities o => exact H.cavities _
  | updateMagnets o => exact H.magnets _
  | updateSupports b m => exact H.supports _ _
  | setCavity o sp p m => exact H.setCavity _ _ _ _
  | getCM o sk => exact hd (Rels.rd _)
  | setCM o sp sk m => exact H.setCM _ _ _ _
  | setMagnet o sp sk k m d => exact hm _ _ _ _ _ _ rfl
  | veryDeepCopy =>
    refine hd ?_
    unfold veryDeepCopy
    exact Rels.bind Rels.get (fun s => Rels.ite (Rels.throw _) (Rels.pure' _))
  | verify => exact Rels.bind Rels.get (fun s => Rels.lift _)
  | trackMode m =>
    intro s
    show R s (onInj (setTrackMode m) s).state
    unfold onInj
    cases setTrackMode m s.INJ <;> exact H.inj _ _
  | setInjection f => exact Rels.modify (fun s => H.inj _ _)
  | bunches n => exact hd (Rel.mono H.rng (generateBunches_onlyRng _ _ _))
  | transmission n t =>
    refine hd ?_
    unfold beamTransmission
    refine Rels.bind Rels.get (fun s => Rels.bind (Rel.mono H.rng (generateBunches_onlyRng _ _ _)) (fun z => ?_))
    rels
  | reading b cc => exact hd (Rel.mono H.rng (bpmReading_onlyRng _ _ _ _))
  | firstTurn rm r c b n =>
    refine hd ?_
    unfold firstTurn
    exact Rels.bind Rels.get (fun s => Rels.bind (Rels.lift _) (fun _ => Rels.bind (H.inject _ _ _) (fun _ =>
      Rels.bind (Rels.lift _) (fun _ => H.firstTurnLoop _ _ _ _ _ _ _ _ _ _))))
  | stitch rm r c b k n =>
    refine hd ?_
    unfold stitch
    refine Rels.bind Rels.get (fun s => Rels.ite (Rels.throw _) (Rels.bind (Rels.lift _) (fun c => Rels.bind (H.inject _ _ _) (fun l =>
      Rels.ite (Rels.throw _) (Rels.ite ?_ ?_)))))
    · exact Rels.bind (H.wiggling _ _ _ _ _ _) (fun _ => Rels.bind (H.inject _ _ _) (fun _ => Rels.ite (Rels.throw _)
        (Rels.bind (Rels.lift _) (fun _ => H.stitchLoop _ _ _ _ _ _ _ _ _ _))))
    · exact Rels.bind (Rels.lift _) (fun _ => H.stitchLoop _ _ _ _ _ _ _ _ _ _)
  | balance rm r c b e n =>
    refine hd ?_
    unfold balance
    exact Rels.bind Rels.get (fun s => Rels.ite (Rels.throw _) (Rels.bind (Rels.lift _) (fun c => Rels.bind (H.inject _ _ _) (fun l =>
      Rels.ite (Rels.throw _) (Rels.bind (Rels.lift _) (fun _ => H.balanceLoop _ _ _ _ _ _ _ _ _ _))))))
  | correct rm r c b e t n d =>
    refine hd ?_
    unfold correct
    exact Rels.bind Rels.get (fun s => Rels.bind (Rels.lift _) (fun _ => Rels.bind (H.inject _ _ _) (fun _ =>
      Rels.bind (Rels.lift _) (fun _ => H.correctLoop _ _ _ _ _ _ _ _ _ _ _ _ _))))
end

/-- then every operation respects it, whatever its outcome -/
theorem Operates.run {R : SC K → SC K → Prop} [PreRel R] {E0 : Env K} (H : Operates E0 R) (W : World K) (hE : W.E = E0) (c : Call K)
    (h : c.IsOperation) : Rel R (c.run W) :=
  H.toSteers.run W hE c h (fun _ _ _ _ _ _ _ => H.setMagnet _ _ _ _ _ _)

/-! ### operations keep the shape of the arrays and everything the readiness of magnets depends on -/

/-- the shape of the lattice and the registrations are kept -/
def ShapeKept (s s' : SC K) : Prop := SameShape s.RING s'.RING ∧ s'.ORD = s.ORD ∧ s'.SIG = s.SIG

instance : PreRel (ShapeKept (K := K)) :=
  ⟨fun s => ⟨SameShape.rfl' s.RING, rfl, rfl⟩, fun _ _ _ h1 h2 => ⟨h1.1.trans h2.1, h2.2.1.trans h1.2.1, h2.2.2.trans h1.2.2⟩⟩

/-- names which must not be written -/
def shapeNames : List String := "SetPointA" :: "SetPointB" :: keptNames

theorem shape_of_frame {W : Nat → String → Prop} {s s' : SC K} (h : Frame W s s') (hw : ∀ i, ∀ a ∈ shapeNames, ¬ W i a) : ShapeKept s s' := by
  refine ⟨⟨h.len, fun i a ha => h.attr i a (hw i a (by simp [shapeNames, ha])), fun i ab hab v hv => ⟨v, ?_, rfl⟩⟩, h.ord, h.sig⟩
  rw [h.attr i _ (hw i _ ?_)]
  · exact hv
  · simp only [List.mem_cons, List.not_mem_nil, or_false] at hab
    rcases hab with rfl | rfl <;> decide +kernel

theorem letter_mem (sk : Bool) : letter sk ∈ ["A", "B"] := by cases sk <;> decide

/-- replacing an entry of an array of set-points -/
theorem shape_setpoint {s : SC K} {i k : Nat} {sk : Bool} {v : List K} {x : K} (hv : s.RING.attr i ("SetPoint" ++ letter sk) = some (.vec v)) :
    ShapeKept s { s with RING := s.RING.setAttr i ("SetPoint" ++ letter sk) (.vec (v.set k x)) } := by
  refine ⟨⟨Ring.length_setAttr .., fun j a ha => ?_, fun j ab hab w hw => ?_⟩, rfl, rfl⟩
  · refine Ring.attr_setAttr_ne (fun he => ?_)
    rw [he] at ha
    revert ha
    cases sk <;> decide +kernel
  · show ∃ v', (s.RING.setAttr i _ _).attr j _ = _ ∧ _
    by_cases hj : j = i
    · subst hj
      by_cases he : "SetPoint" ++ ab = "SetPoint" ++ letter sk
      · rw [he] at hw ⊢
        rw [hv] at hw
        cases hw
        exact ⟨_, Ring.attr_setAttr_same (Ring.attr_some_lt hv), List.length_set ..⟩
      · exact ⟨w, by rw [Ring.attr_setAttr_ne he]; exact hw, rfl⟩
    · exact ⟨w, by rw [Ring.attr_setAttr_ne' hj]; exact hw, rfl⟩

theorem newCM_shape {r : Ring K} {sk isInt : Bool} {m : String} {o : Nat} {x : K} {w : List K} (h : newCM r sk m isInt o x = .ok w) :
    ∃ v y, r.attr o ("SetPoint" ++ letter sk) = some (.vec v) ∧ w = v.set 0 y := by
  simp only [newCM, Except.bind_eq_ok', Ring.getVec_eq_ok] at h
  obtain ⟨-, -, v, hv, -, -, -, -, y, -, h⟩ := h
  cases h
  exact ⟨v, y, hv, rfl⟩

theorem newSetpoint_shape {r : Ring K} {sk : Bool} {k o : Nat} {x : K} {w : List K} (h : newSetpoint r sk k o x = .ok w) :
    ∃ v, r.attr o ("SetPoint" ++ letter sk) = some (.vec v) ∧ w = v.set k x := by
  simp only [newSetpoint, Except.bind_eq_ok', Ring.getVec_eq_ok] at h
  obtain ⟨v, hv, -, -, h⟩ := h
  cases h
  exact ⟨v, hv, rfl⟩

theorem write_shape {f : Ring K → Except Err (List K)} {o : Nat} {sk : Bool}
    (hf : ∀ r w, f r = .ok w → ∃ v k y, r.attr o ("SetPoint" ++ letter sk) = some (.vec v) ∧ w = v.set k y) :
    Rel (ShapeKept (K := K)) (do let v ← rd f; setAttr o ("SetPoint" ++ letter sk) (.vec v)) := by
  intro s
  rw [bind_apply]
  cases hn : f s.RING with
  | error e =>
    have : rd f s = .error e s := by unfold PySC.rd; rw [hn]
    rw [this]; exact PreRel.refl s
  | ok w =>
    rw [rd_apply_ok hn]
    obtain ⟨v, k, y, hv, rfl⟩ := hf _ _ hn
    have : setAttr o ("SetPoint" ++ letter sk) (.vec (v.set k y)) s = .ok () _ := setAttr_eq_ok.2 ⟨Ring.attr_some_lt hv, rfl⟩
    show ShapeKept s (setAttr o _ _ s).state
    rw [this]
    exact shape_setpoint hv

theorem setCM1_shape (sk : Bool) (m : String) (isInt : Bool) (o : Nat) (x : K) : Rel (ShapeKept (K := K)) (setCM1 sk m isInt o x) :=
  write_shape (fun _ _ h => by obtain ⟨v, y, h1, h2⟩ := newCM_shape h; exact ⟨v, 0, y, h1, h2⟩)

theorem updateMagnets_shape (o : Option (List Nat)) : Rel (ShapeKept (K := K)) (updateMagnets o) :=
  Rel.mono (fun _ _ h => shape_of_frame h (fun _ => (by decide +kernel : ∀ a ∈ shapeNames, ¬ a ∈ magnetWrites))) (updateMagnets_modifies o)

theorem setCM_shape (o : List Nat) (sp : NpArr K) (sk : Bool) (m : String) : Rel (ShapeKept (K := K)) (setCMSetpoints o sp sk m) :=
  Rels.bind (Rels.lift _) (fun _ => Rels.bind (Rels.forEach (fun _ _ => setCM1_shape _ _ _ _ _)) (fun _ => updateMagnets_shape _))

theorem setMagnet1_shape (sk : Bool) (k : Nat) (isInt d : Bool) (o : Nat) (x : K) : Rel (ShapeKept (K := K)) (setMagnet1 sk k isInt d o x) := by
  unfold setMagnet1
  refine Rels.bind (Rels.rd _) (fun y => Rels.bind (Rels.when ?_) (fun _ => ?_))
  · unfold dipoleCompensation
    exact Rels.bind (Rels.rd _) (fun _ => Rels.bind Rels.get (fun _ => Rels.when (Rels.bind (Rels.rd _) (fun _ => setCM_shape _ _ _ _))))
  · exact write_shape (fun _ _ h => by obtain ⟨v, h1, h2⟩ := newSetpoint_shape h; exact ⟨v, k, y, h1, h2⟩)

theorem setPoint_not_shape (p : String) : p ++ "SetPoint" ∉ shapeNames := by
  have hl : ∀ q : String, (q ++ "SetPoint").toList.reverse.take 3 = ['t', 'n', 'i'] := by
    intro q
    rw [String.toList_append, List.reverse_append]
    rfl
  intro h
  have hall : ∀ a ∈ shapeNames, a.toList.reverse.take 3 ≠ ['t', 'n', 'i'] := by decide +kernel
  exact hall _ h (hl p)

theorem operates_shape (E : Env K) : Operates E (ShapeKept (K := K)) where
  setCM := setCM_shape
  setMagnet o sp sk k m d := by
    unfold setMagnetSetpoints
    exact Rels.bind (Rels.rd _) (fun _ => Rels.bind (Rels.forEach (fun _ _ => setMagnet1_shape _ _ _ _ _ _)) (fun _ => updateMagnets_shape _))
  setCavity o sp p m := Rel.mono (fun _ _ h => shape_of_frame h (fun i a ha hh => by
      rcases hh.2 with rfl | hh
      · exact setPoint_not_shape p ha
      · exact (by decide +kernel : ∀ a ∈ shapeNames, ¬ a ∈ rfProperties) a ha hh)) (setCavitySetpoints_modifies o sp p m)
  magnets := updateMagnets_shape
  cavities o := Rel.mono (fun _ _ h => shape_of_frame h (fun _ => (by decide +kernel : ∀ a ∈ shapeNames, ¬ a ∈ rfProperties)))
    (updateCavities_frame o)
  supports b m := Rel.mono (fun _ _ h => shape_of_frame h (fun _ => (by decide +kernel : ∀ a ∈ shapeNames, ¬ a ∈ supportWrites)))
    (updateSupports_frame E b m)
  rng s s' h := by rw [h.1]; exact ⟨SameShape.rfl' _, rfl, rfl⟩
  inj s i := ⟨SameShape.rfl' _, rfl, rfl⟩

end PySC
