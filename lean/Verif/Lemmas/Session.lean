import Verif.Spec.Session
import Verif.Lemmas.RequestsRun
import Verif.Lemmas.AllElements
/-
Relations between the machine before and after any step of a session.
-/
namespace PySC
set_option linter.unusedSectionVars false
variable {K : Type} [Field K] [LinearOrder K] [FloorRing K]
open Py Spec

/-- a relation which every elementary change made by corrections and measurements respects; `P` are the multipoles of magnets which
may be changed -/
structure Works (E : Env K) (P : Nat → Prop) (R : SC K → SC K → Prop) : Prop extends Steers E R where
  setMagnet : ∀ o sp sk k m d, P k → Rel R (setMagnetSetpoints (K := K) o sp sk k m d)
  bpm : ∀ (s : SC K) i a v, a ∈ ["Offset", "CalError", "Roll"] → R s { s with RING := s.RING.setAttr i a v }
  model : ∀ i, Rel R (modelElem (K := K) i)

section
variable {R : SC K → SC K → Prop} [PreRel R] {E0 : Env K} {P : Nat → Prop} (H : Works E0 P R)
variable (E : Env K) (B : BeamEnv K) (bpms : List Nat)

theorem Rels.dropped {α : Type} {m : Py (SC K) α} (h : Rel R m) : Rel R (dropped m) := Rels.bind h (fun _ => Rels.pure' _)
include H

theorem Works.reading (b : Option (List Nat)) (c : Bool) : Rel R (bpmReading E B b c) := Rel.mono H.rng (bpmReading_onlyRng E B b c)
theorem Works.ravel : Rel R (ravelReading E B bpms) := Rels.bind (H.reading E B _ _) (fun _ => Rels.pure' _)

theorem Works.transmission (n t : Option Nat) : Rel R (beamTransmission E B n t) := by
  unfold beamTransmission
  refine Rels.bind Rels.get (fun s => Rels.bind (Rel.mono H.rng (generateBunches_onlyRng _ _ _)) (fun z => ?_))
  rels

theorem Works.allElements : Rel R (allElementsReading E B) := by
  unfold allElementsReading
  refine Rels.bind Rels.get (fun s => Rels.bind (Rels.mapEach (fun _ _ => ?_)) (fun _ => Rels.pure' _))
  unfold allShot
  exact Rels.bind (Rel.mono H.rng (tracking_onlyRng _ _ _)) (fun _ => Rels.ite (Rels.throw _) (Rels.ite
    (Rels.bind (Rel.mono H.rng (realBpmReading_onlyRng _ _ _ _ _)) (fun _ => Rels.pure' _))
    (Rels.bind (Rel.mono H.rng (realBpmReading_onlyRng _ _ _ _ _)) (fun _ => Rels.pure' _))))

theorem Works.energyShift : Rel R (tbtEnergyShift E B bpms) := by
  unfold tbtEnergyShift
  refine Rels.bind Rels.get (fun s => Rels.bind (H.reading E B _ _) (fun r => Rels.ite (Rels.throw _) (Rels.ite (Rels.pure' _)
    (Rels.bind (Rels.lift _) (fun pts => Rels.bind (Rels.lift _) (fun f => ?_))))))
  cases B.sqrt f.varSlope with
  | none => exact Rels.throw _
  | some e => exact Rels.pure' _

theorem Works.scan (cavs : List Nat) (field : String) (v : K) : Rel R (scanStep E B cavs bpms field v) :=
  Rels.bind (H.setCavity _ _ _ _) (fun _ => Rels.bind (H.energyShift E B bpms) (fun _ => Rels.bind (H.setCavity _ _ _ _) (fun _ => Rels.pure' _)))

theorem Works.rfFrequency (c b : Option (List Nat)) (n : Nat) (r : K × K) : Rel R (correctRfFrequency E B c b n r) := by
  unfold correctRfFrequency
  exact Rels.bind Rels.get (fun s => Rels.bind (Rels.lift _) (fun x => Rels.bind (Rels.mapEach (fun v _ => H.scan E B _ _ _ v)) (fun m =>
    Rels.bind (Rels.lift _) (fun _ => Rels.bind (Rels.lift _) (fun _ => Rels.bind (Rels.lift _) (fun _ => Rels.bind (Rels.lift _) (fun _ =>
    H.setCavity _ _ _ _)))))))

theorem Works.rfPhase (Q : RfEnv K) (c b : Option (List Nat)) (n : Nat) : Rel R (correctRfPhase E B Q c b n) := by
  unfold correctRfPhase
  refine Rels.bind Rels.get (fun s => Rels.bind (Rels.lift _) (fun x => Rels.bind (Rels.lift _) (fun cav => Rels.bind (Rels.rd _) (fun f =>
    Rels.bind (Rels.lift _) (fun lam => Rels.bind (Rels.mapEach (fun v _ => H.scan E B _ _ _ v)) (fun m =>
    Rels.bind (Rels.lift _) (fun _ => Rels.bind (Rels.rd _) (fun d => ?_))))))))
  rcases d with ⟨_ | d, p⟩
  · exact Rels.throw _
  · exact Rels.bind (H.setCavity _ _ _ _) (fun _ => Rels.ite (Rels.pure' _) (Rels.throw _))

theorem Works.tuneScan (h1 : P 1) (T : TuneEnv K) (q : List Nat × List Nat) (rel : List K × List K) (target : K) (n : Nat)
    (np nt : Option Nat) (full : Bool) : Rel R (tuneScan E B T q rel target n np nt full) := by
  have loop : ∀ a b inds res, Rel R (scanLoop E B q rel target a b full inds res) := by
    intro a b inds
    induction inds with
    | nil => intro res; exact Rels.pure' _
    | cons i l ih =>
      intro res
      unfold scanLoop
      refine Rels.bind (Rels.lift _) (fun _ => Rels.bind (Rels.lift _) (fun _ => Rels.bind (H.setMagnet _ _ _ _ _ _ h1) (fun _ =>
        Rels.bind (H.transmission E B _ _) (fun _ => Rels.bind (Rels.lift _) (fun _ => Rels.bind (Rels.lift _) (fun _ =>
        Rels.bind (H.setMagnet _ _ _ _ _ _ h1) (fun _ => Rels.ite (Rels.bind (H.setMagnet _ _ _ _ _ _ h1) (fun _ => Rels.pure' _)) (ih _))))))))
  unfold PySC.tuneScan
  refine Rels.bind Rels.get (fun s => Rels.bind (Rels.lift _) (fun _ => Rels.bind (Rels.lift _) (fun _ => Rels.bind (Rels.rd _) (fun _ =>
    Rels.bind (Rels.lift _) (fun _ => Rels.bind (Rels.rd _) (fun _ => Rels.bind (loop _ _ _ _) (fun out => ?_)))))))
  rcases out with ⟨_ | f, l⟩
  · exact Rels.bind (Rels.lift _) (fun _ => Rels.bind (Rels.lift _) (fun _ => Rels.bind (Rels.lift _) (fun _ => Rels.bind (Rels.lift _) (fun _ =>
      Rels.bind (H.setMagnet _ _ _ _ _ _ h1) (fun _ => Rels.pure' _)))))
  · exact Rels.pure' _

theorem Works.fitTune (tune : Ring K → Except Err Unit) (f : List (List Nat)) (g : Bool) : Rel R (fitTune tune f g) := by
  unfold PySC.fitTune
  rels

theorem Works.minimise (m : Minimiser K) (x0 : List K) (f : List K → Py (SC K) (Option K)) (hf : ∀ x, Rel R (f x)) (fuel : Nat) :
    ∀ hist, Rel R (minimise m x0 f fuel hist) := by
  induction fuel with
  | zero =>
    intro hist
    unfold PySC.minimise
    cases m.next x0 hist with
    | inr x => exact Rels.pure' _
    | inl x => exact Rels.throw _
  | succ n ih =>
    intro hist
    unfold PySC.minimise
    cases m.next x0 hist with
    | inr x => exact Rels.pure' _
    | inl x => exact Rels.bind (hf x) (fun _ => ih _)

theorem Works.chromaSet (h2 : P 2) (x : List K) (fams : List (List Nat)) : ∀ n sp0, Rel R (chromaSet x n fams sp0) := by
  induction fams with
  | nil => intro n sp0; exact Rels.pure' _
  | cons f l ih =>
    intro n sp0
    unfold PySC.chromaSet
    refine Rels.bind (Rels.lift _) (fun _ => ?_)
    cases sp0 with
    | nil => exact Rels.throw _
    | cons s sp0 => exact Rels.bind (H.setMagnet _ _ _ _ _ _ h2) (fun _ => ih _ _)

theorem Works.fitChroma (h2 : P 2) (m : Minimiser K) (fuel : Nat) (merit : K × K → Ring K → Option K) (design : Ring K → Option K × Option K)
    (f : List (List Nat)) (t : Option (Option K × Option K)) (x0 : List K) : Rel R (fitChroma m fuel merit design f t x0) := by
  unfold PySC.fitChroma
  refine Rels.bind Rels.get (fun s => ?_)
  rcases t.getD (design s.IDEALRING) with ⟨_ | a, _ | b⟩
  · exact Rels.pure' _
  · exact Rels.pure' _
  · exact Rels.pure' _
  · refine Rels.bind (Rels.rd _) (fun sp0 => Rels.bind (H.minimise m x0 _ (fun x => ?_) fuel []) (fun _ => Rels.pure' _))
    exact Rels.bind (H.chromaSet h2 x f 0 sp0) (fun _ => Rels.bind Rels.get (fun _ => Rels.pure' _))

theorem Works.injectionDrift : Rel R (fitInjectionDrift E B) := by
  unfold fitInjectionDrift
  refine Rels.bind Rels.get (fun s => Rels.bind (H.reading E B _ _) (fun r => ?_))
  rels

theorem Works.injectionTrajectory (J : InjEnv K) (inds : List Nat) : Rel R (fitInjectionTrajectory E B J inds) := by
  unfold fitInjectionTrajectory
  refine Rels.bind Rels.get (fun s => Rels.bind (H.reading E B _ _) (fun r => Rels.bind (Rels.lift _) (fun bx => Rels.bind (Rels.lift _) (fun by_ =>
    Rels.bind (Rels.lift _) (fun ords => ?_)))))
  dsimp only
  split
  · exact Rels.ite (Rels.throw _) (Rels.bind (Rels.modify (fun s => H.inj s _)) (fun _ => Rels.pure' _))
  · exact Rels.throw _

theorem Works.changeOffset (ord p : Nat) (v : K → K) : Rel R (changeOffset ord p v) :=
  Rels.bind (Rels.rd _) (fun _ => Rels.bind (Rels.lift _) (fun _ => Rels.setAttr (fun s => H.bpm s _ _ _ (by simp))))

theorem Works.bpmOffsets (b : List (List Nat)) (o e : List (List (Option K))) : Rel R (applyBpmOffsets b o e) := by
  unfold applyBpmOffsets
  refine Rels.ite (Rels.throw _) (Rels.forEach (fun x _ => ?_))
  split
  · exact Rels.pure' _
  · exact Rels.ite (Rels.pure' _) (Rels.bind (Rels.lift _) (fun _ => H.changeOffset _ _ _))

theorem Works.fakeBba (S : StatsEnv K) (b m : List (List Nat)) (e : Option (List (List Bool))) (f : Option (List (Option K))) :
    Rel R (fakeBba E S b m e f) := by
  unfold PySC.fakeBba
  refine Rels.ite (Rels.throw _) (Rels.bind ?_ (fun sizes => Rels.forEach (fun x _ => Rels.ite ?_ (Rels.pure' _))))
  · cases f with
    | none => exact Rels.rd _
    | some f => exact Rels.pure' _
  · unfold fakeEntry
    refine Rels.bind (Rels.lift _) (fun _ => Rels.bind (Rels.lift _) (fun _ => Rels.bind (Rels.rd _) (fun _ => Rels.bind (Rels.rd _) (fun _ =>
      Rels.bind (Rels.rd _) (fun _ => Rels.bind (Rels.lift _) (fun f => Rels.bind (Rel.mono H.rng (randnc_onlyRng _ _ _)) (fun z => ?_)))))))
    cases f with
    | none => exact Rels.pure' _
    | some f => exact H.changeOffset _ _ _

theorem Works.injectAt (z0 : List K) (p : Nat) (d : K × K) : Rel R (injectAt z0 p d) :=
  Rels.ite (Rels.throw _) (Rels.modify (fun s => H.inj s _))

theorem Works.scaleTrials (z0 : List K) (nBpm last p : Nat) (m : K × K) (n : Nat) : ∀ f, Rel R (scaleTrials E B z0 nBpm last p m n f) := by
  have trial : ∀ d, Rel R (trialReading E B z0 nBpm p d) := fun d =>
    Rels.bind (H.injectAt _ _ _) (fun _ => Rels.bind (H.reading E B _ _) (fun _ => Rels.bind (Rels.lift _) (fun _ =>
      Rels.ite (Rels.pure' _) (Rels.throw _))))
  induction n with
  | zero => intro f; exact Rels.pure' _
  | succ n ih =>
    intro f
    unfold PySC.scaleTrials
    exact Rels.bind (trial _) (fun _ => Rels.bind (trial _) (fun _ => Rels.bind (Rels.modify (fun s => H.inj s _)) (fun _ =>
      Rels.ite (Rels.pure' _) (ih _))))

theorem Works.scaleInjection (p last : Nat) (m : K × K) : Rel R (scaleInjection E B p last m) :=
  Rels.bind Rels.get (fun _ => Rels.bind (Rels.modify (fun s => H.inj s _)) (fun _ => Rels.bind (H.scaleTrials E B _ _ _ _ _ _ _) (fun _ =>
    Rels.bind (Rels.modify (fun s => H.inj s _)) (fun _ => Rels.pure' _))))

theorem Works.restoreQuads (h1 : P 1) (o : List Nat) (q : List K) : Rel R (restoreQuads o q) :=
  Rels.ite (Rels.pure' _) (H.setMagnet _ _ _ _ _ _ h1)

theorem Works.dataMeasurement (par : BbaPar K) (hp : P par.order) (mOrd bpmInd j p : Nat) (sc : K) :
    Rel R (dataMeasurementTbt E B par mOrd bpmInd j p sc) := by
  unfold dataMeasurementTbt
  refine Rels.bind Rels.get (fun s => Rels.bind (Rels.lift _) (fun _ => Rels.bind (Rels.rd _) (fun _ => Rels.bind (Rels.mapEach (fun q _ =>
    Rels.bind (H.setMagnet _ _ _ _ _ _ hp) (fun _ => Rels.mapEach (fun d _ => ?_)))) (fun _ => Rels.bind (Rels.modify (fun s => H.inj s _)) (fun _ =>
    Rels.bind (H.setMagnet _ _ _ _ _ _ hp) (fun _ => Rels.pure' _))))))
  unfold measureStep
  refine Rels.bind (H.injectAt _ _ _) (fun _ => Rels.bind (H.reading E B _ _) (fun _ => ?_))
  rels

theorem Works.trajectoryBba (h1 : P 1) (Q : BbaEnv K) (b m : List (List Nat)) (par : BbaPar K) (hp : P par.order) :
    Rel R (trajectoryBba E B Q b m par) := by
  unfold PySC.trajectoryBba
  refine Rels.bind Rels.get (fun s => Rels.bind (Rels.lift _) (fun _ => Rels.ite (Rels.throw _) (Rels.bind (Rels.rd _) (fun q0 =>
    Rels.bind (Rels.mapEach (fun e _ => ?_)) (fun _ => Rels.bind (H.bpmOffsets _ _ _) (fun _ => Rels.pure' _))))))
  unfold bbaPlane
  refine Rels.bind Rels.get (fun s => Rels.bind (Rels.lift _) (fun _ => Rels.bind (Rels.lift _) (fun _ => Rels.bind ?_ (fun scan =>
    Rels.mapEach (fun e _ => ?_)))))
  · unfold phaseAdvanceScan
    exact Rels.bind (Rels.rd _) (fun _ => Rels.bind (Rels.mapEach (fun q _ => Rels.bind (H.setMagnet _ _ _ _ _ _ h1) (fun _ =>
      H.scaleInjection E B _ _ _))) (fun _ => Rels.bind (H.restoreQuads h1 _ _) (fun _ => Rels.pure' _)))
  · unfold bbaEntry
    exact Rels.bind Rels.get (fun _ => Rels.bind (Rels.lift _) (fun _ => Rels.bind (Rels.lift _) (fun _ => Rels.bind (Rels.lift _) (fun _ =>
      Rels.bind (H.setMagnet _ _ _ _ _ _ h1) (fun _ => Rels.bind (Rels.lift _) (fun _ => Rels.bind (H.dataMeasurement E B par hp _ _ _ _ _) (fun _ =>
      Rels.bind (H.restoreQuads h1 _ _) (fun _ => Rels.bind (Rels.lift _) (fun _ => Rels.rd _)))))))))

theorem Works.orbitBba (b m : List (List Nat)) (f : Nat) (u : Bool) (rm : Option RMstruct) : Rel R (orbitBba E B b m f u rm) := by
  unfold PySC.orbitBba
  refine Rels.bind Rels.get (fun s => Rels.ite (Rels.throw _) (Rels.ite (Rels.throw _) (Rels.ite (Rels.throw _) ?_)))
  split
  · refine Rels.bind (Rels.lift _) (fun _ => ?_)
    cases rm with
    | none => exact Rels.throw _
    | some r => exact Rels.ite (Rels.bind (H.reading E B _ _) (fun _ => Rels.throw _)) (Rels.throw _)
  · exact Rels.throw _

theorem Works.modelRing : Rel R (modelRing (K := K)) := Rels.bind Rels.get (fun _ => Rels.mapEach (fun i _ => H.model i))

theorem Works.chooseModel (u : Bool) : Rel R (chooseModel (K := K) u) := Rels.bind Rels.get (fun _ => Rels.ite (Rels.pure' _) H.modelRing)

theorem Works.modelRM (c : List Nat × List Nat) (m : String) (z : List K) (n : Nat) (d : K) (u : Bool) : Rel R (modelRM B bpms c m z n d u) :=
  Rels.bind (H.chooseModel u) (fun _ => Rels.ite (Rels.throw _) (Rels.ite (Rels.throw _) (Rels.lift _)))

theorem Works.modelDispersion (c : List Nat) (m : String) (z : List K) (n : Nat) (d : K) (u : Bool) : Rel R (modelDispersion B bpms c m z n d u) :=
  Rels.bind (H.chooseModel u) (fun _ => Rels.ite (Rels.throw _) (Rels.ite (Rels.throw _) (Rels.bind (Rels.lift _) (fun _ =>
    Rels.ite (Rels.throw _) (Rels.pure' _)))))

theorem Works.dispersion (i : Bool) (st : K) (b c : Option (List Nat)) (n : Nat) : Rel R (dispersion E B i st b c n) := by
  unfold PySC.dispersion
  refine Rels.bind Rels.get (fun s => Rels.bind (H.ravel E B _) (fun _ => Rels.ite ?_ ?_))
  · exact Rels.bind (H.setCavity _ _ _ _) (fun _ => Rels.bind (H.ravel E B _) (fun _ => Rels.bind (H.setCavity _ _ _ _) (fun _ =>
      Rels.ite (Rels.throw _) (Rels.pure' _))))
  · exact Rels.bind (Rels.rd _) (fun _ => Rels.bind (Rels.rd _) (fun _ => Rels.bind (Rels.forEach (fun k _ =>
      Rels.bind (H.setCavity _ _ _ _) (fun _ => Rels.bind (H.ravel E B _) (fun _ => Rels.pure' _)))) (fun _ =>
      Rels.bind (H.setCavity _ _ _ _) (fun _ => Rels.throw _))))

theorem Works.orbitResponse (c : List Nat × List Nat) (i : Bool) (d : K) : Rel R (measureOrbitResponse E B bpms c i d) := by
  unfold measureOrbitResponse
  refine Rels.bind (Rels.modify (fun s => H.inj s _)) (fun _ => Rels.bind (H.ravel E B _) (fun _ => Rels.mapEach (fun x _ => ?_)))
  unfold orbitColumn
  exact Rels.bind (H.setCM _ _ _ _) (fun _ => Rels.bind (H.ravel E B _) (fun _ => Rels.bind (H.setCM _ _ _ _) (fun _ =>
    Rels.ite (Rels.throw _) (Rels.ite (Rels.throw _) (Rels.pure' _)))))

theorem Works.kickLoop (bref : List (Option K)) (cm : Nat) (start amp : K) (sk : Bool) (mode : String) (n : Nat) :
    ∀ step, Rel R (kickLoop E B bref bpms cm start amp sk mode n step) := by
  induction n with
  | zero => intro step; exact Rels.pure' _
  | succ n ih =>
    intro step
    unfold PySC.kickLoop
    refine Rels.bind ?_ (fun x => Rels.ite (Rels.ite (Rels.bind (Rels.lift _) (fun _ => Rels.bind (Rels.lift _) (fun _ => ih _)))
      (Rels.pure' _)) (Rels.throw _))
    unfold trySetpoint
    exact Rels.bind (H.setCM _ _ _ _) (fun _ => Rels.bind (Rels.rd _) (fun _ => Rels.bind (Rels.lift _) (fun _ =>
      Rels.bind (Rels.when (H.setCM _ _ _ _)) (fun _ => Rels.bind (H.ravel E B _) (fun _ => Rels.pure' _)))))

theorem Works.responsePlane (bref : List (Option K)) (rows : Nat) (mode : String) (n : Nat) (sk : Bool) (cms : List Nat) (amp : List K) :
    Rel R (responsePlane E B bref bpms rows mode n sk cms amp) := by
  unfold PySC.responsePlane
  refine Rels.bind (Rels.rd _) (fun _ => Rels.mapEach (fun c _ => ?_))
  unfold responseColumn
  refine Rels.bind ?_ (fun x => Rels.ite (Rels.throw _) (Rels.ite (Rels.throw _) (Rels.bind (Rels.mapEach (fun y _ => ?_)) (fun steps => ?_))))
  · unfold kickAmplitude
    exact Rels.bind (Rels.rd _) (fun _ => Rels.bind (Rels.lift _) (fun _ => Rels.bind (Rels.ite (Rels.pure' _) (Rels.ite (Rels.pure' _)
      (Rels.throw _))) (fun _ => Rels.bind (H.kickLoop E B bpms _ _ _ _ _ _ _ _) (fun _ => Rels.bind (H.ravel E B _) (fun _ => Rels.pure' _)))))
  · unfold kickStep
    exact Rels.ite (Rels.bind (H.setCM _ _ _ _) (fun _ => Rels.bind (Rels.rd _) (fun _ => Rels.bind (Rels.lift _) (fun _ =>
      Rels.bind (H.ravel E B _) (fun _ => Rels.pure' _))))) (Rels.pure' _)
  · split
    · exact Rels.ite (Rels.throw _) (Rels.ite (Rels.throw _) (Rels.bind (H.setCM _ _ _ _) (fun _ => Rels.pure' _)))
    · exact Rels.throw _

theorem Works.responseMatrix (a : List K × List K) (c : List Nat × List Nat) (m : String) (n : Nat) :
    Rel R (responseMatrix E B a bpms c m n) := by
  unfold PySC.responseMatrix
  exact Rels.bind Rels.get (fun s => Rels.ite (Rels.throw _) (Rels.bind (H.ravel E B _) (fun _ => Rels.ite (Rels.throw _)
    (Rels.bind (H.responsePlane E B bpms _ _ _ _ _ _ _) (fun _ => Rels.bind (H.responsePlane E B bpms _ _ _ _ _ _ _) (fun _ => Rels.pure' _))))))

theorem Works.families (r : NpArr K) (f : List (List Nat)) (sk : Bool) (k : Nat) (hk : P k) (m : String) (c : Bool) :
    Rel R (setCorrectionFamilies r f sk k m c) :=
  Rels.forEach (fun _ _ => Rels.bind (Rels.lift _) (fun _ => H.setMagnet _ _ _ _ _ _ hk))

theorem Works.lattice (h1 : P 1) (f : FitParameters K) (d : Bool) (a : K) : Rel R (applyLatticeCorrection f d a) := by
  unfold applyLatticeCorrection
  refine Rels.bind (Rels.forEach (fun g _ => Rels.forEach (fun p _ => ?_))) (fun _ => Rels.bind Rels.get (fun s => H.magnets _))
  unfold correctElement
  exact Rels.bind (Rels.lift _) (fun _ => Rels.bind (Rels.lift _) (fun _ => Rels.bind (Rels.lift _) (fun _ =>
    Rels.ite (H.setMagnet _ _ _ _ _ _ h1) (Rels.ite (H.setMagnet _ _ _ _ _ _ h1) (Rels.pure' _)))))

theorem Works.diagnostic (c : CmData K) (d : BpmData K) (m : Bool) (o : Outliers K) : Rel R (applyDiagnosticCorrection c d m o) := by
  unfold applyDiagnosticCorrection
  refine Rels.bind (Rels.forEach (fun p _ => Rels.bind (Rels.when (Rels.ite (Rels.pure' _) (Rels.throw _))) (fun _ => Rels.when ?_))) (fun _ => ?_)
  · unfold correctGains addCalError
    exact Rels.bind (Rels.lift _) (fun _ => Rels.bind (Rels.lift _) (fun _ => Rels.forEach (fun x _ => Rels.bind (Rels.lift _) (fun _ =>
      Rels.bind (Rels.rd _) (fun _ => Rels.bind (Rels.lift _) (fun _ => Rels.setAttr (fun s => H.bpm s _ _ _ (by simp))))))))
  · rcases d.fitCoupling with _ | _ | _
    · exact Rels.throw _
    · exact Rels.pure' _
    · unfold correctRolls
      exact Rels.ite (Rels.throw _) (Rels.forEach (fun x _ => Rels.bind (Rels.lift _) (fun _ => Rels.bind (Rels.lift _) (fun _ =>
        Rels.bind (Rels.rd _) (fun _ => Rels.setAttr (fun s => H.bpm s _ _ _ (by simp)))))))

theorem Works.locoMeasurement (a : List K × List K) (d : K) (c : List Nat × List Nat) : Rel R (locoMeasurement E B a d bpms c) :=
  Rels.bind Rels.get (fun _ => Rels.bind (Rels.lift _) (fun _ => Rels.bind (Rels.rd _) (fun _ => Rels.bind (H.responseMatrix E B bpms _ _ _ _) (fun _ =>
    Rels.bind (H.dispersion E B _ _ _ _ _) (fun _ => Rels.pure' _)))))

theorem Works.rampUp (n : Nat) : Rel R (rampUpErrors B n) := by
  unfold rampUpErrors
  refine Rels.bind Rels.get (fun s => Rels.bind (H.modelRM B _ _ _ _ _ _ _) (fun _ => Rels.ite (Rels.throw _) ?_))
  unfold rampSupport
  refine Rels.bind Rels.get (fun s => ?_)
  split <;> exact Rels.throw _

/-- then every correction and measurement respects it, whatever its outcome -/
theorem Works.run (h1 : P 1) (h2 : P 2) (L : Lab K) (t : Step K) (hc : ∀ c, t ≠ .call c) (hP : ∀ k, t.chosenOrder = some k → P k) :
    Rel R (t.run L) := by
  cases t with
  | call c => exact absurd rfl (hc c)
  | allElements => exact Rels.dropped (H.allElements _ _)
  | rfFrequency c b n r => exact H.rfFrequency _ _ _ _ _ _
  | rfPhase c b n => exact H.rfPhase _ _ _ _ _ _
  | tuneScan q r t n p u f => exact Rels.dropped (H.tuneScan _ _ h1 _ _ _ _ _ _ _ _)
  | fitTune f g => exact H.fitTune _ _ _
  | fitChroma f t x => exact H.fitChroma h2 _ _ _ _ _ _ _
  | injectionDrift => exact Rels.dropped (H.injectionDrift _ _)
  | injectionTrajectory b => exact Rels.dropped (H.injectionTrajectory _ _ _ _)
  | bpmOffsets b o e => exact H.bpmOffsets _ _ _
  | fakeBba b m e f => exact H.fakeBba _ _ _ _ _ _
  | trajectoryBba b m p => exact Rels.dropped (H.trajectoryBba _ _ h1 _ _ _ _ (hP _ rfl))
  | orbitBba b m f u r => exact H.orbitBba _ _ _ _ _ _ _
  | modelRing => exact Rels.dropped H.modelRing
  | modelRM b c m z n d u => exact Rels.dropped (H.modelRM _ _ _ _ _ _ _ _)
  | modelDispersion b c m z n d u => exact Rels.dropped (H.modelDispersion _ _ _ _ _ _ _ _)
  | dispersion i s b c n => exact Rels.dropped (H.dispersion _ _ _ _ _ _ _)
  | orbitResponse b c i d => exact Rels.dropped (H.orbitResponse _ _ _ _ _ _)
  | responseMatrix a b c m n => exact Rels.dropped (H.responseMatrix _ _ _ _ _ _ _)
  | jacobian rows C b c ch d k m u s o me di f =>
    refine Rels.dropped ?_
    unfold jacobian
    exact Rels.bind Rels.get (fun _ => Rels.bind (Rels.lift _) (fun _ => Rels.ite (Rels.throw _) (Rels.ite (Rels.bind (Rels.lift _) (fun _ =>
      Rels.bind (Rels.lift _) (fun _ => Rels.ite (Rels.throw _) (Rels.pure' _)))) (Rels.pure' _))))
  | setCorrection r o s k m c => exact H.setMagnet _ _ _ _ _ _ (hP _ rfl)
  | setCorrectionFamilies r o s k m c => exact H.families _ _ _ _ (hP _ rfl) _ _
  | latticeCorrection f d a => exact H.lattice h1 _ _ _
  | diagnosticCorrection c d m o => exact H.diagnostic _ _ _ _
  | locoMeasurement a d b c => exact Rels.dropped (H.locoMeasurement _ _ _ _ _ _)
  | synchEnergy n => exact Rels.bind (Rels.modify (fun s => H.inj s _)) (fun _ => Rels.throw _)
  | synchPhase c n t =>
    exact Rels.bind Rels.get (fun _ => Rels.bind (Rels.modify (fun s => H.inj s _)) (fun _ => Rels.bind (H.rfPhase _ _ _ _ _ _) (fun _ =>
      Rels.modify (fun s => H.inj s _))))
  | rampUp n => exact H.rampUp _ _
end

end PySC
