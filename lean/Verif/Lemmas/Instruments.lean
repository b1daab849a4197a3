import Verif.Lemmas.Sync
import Verif.Lemmas.Ring
/-
Operations of the control room do the same on machines which their instruments do not tell apart.
-/
namespace PySC
set_option linter.unusedSectionVars false
variable {K : Type} [Field K] [LinearOrder K] [FloorRing K]
open Py Spec

/-! ### What is read from the lattice is shown in the control room -/

/-- the part of `SameView` about the lattice -/
structure RingView (r r' : Ring K) : Prop where
  length : r.length = r'.length
  panel : ∀ i, ∀ a ∈ panelNames, r.attr i a = r'.attr i a
  cavities : ∀ i, (r.attr i "Frequency").isSome = (r'.attr i "Frequency").isSome

theorem Spec.SameView.ring {s t : SC K} (h : SameView s t) : RingView s.RING t.RING := ⟨h.length, h.panel, h.cavities⟩

namespace RingView
variable {r r' : Ring K} (h : RingView r r')
include h

theorem getA (i : Nat) {a : String} (ha : a ∈ panelNames) : r.getA i a = r'.getA i a := Ring.getA_congr h.length (h.panel i a ha)
theorem hasA (i : Nat) {a : String} (ha : a ∈ panelNames) : r.hasA i a = r'.hasA i a := Ring.hasA_congr h.length (h.panel i a ha)
theorem getNum (i : Nat) {a : String} (ha : a ∈ panelNames) : r.getNum i a = r'.getNum i a := by unfold Ring.getNum; rw [h.getA i ha]
theorem getVec (i : Nat) {a : String} (ha : a ∈ panelNames) : r.getVec i a = r'.getVec i a := by unfold Ring.getVec; rw [h.getA i ha]
theorem getVecAt (i : Nat) {a : String} (ha : a ∈ panelNames) (k : Nat) : r.getVecAt i a k = r'.getVecAt i a k := by
  unfold Ring.getVecAt; rw [h.getVec i ha]
theorem getStr (i : Nat) {a : String} (ha : a ∈ panelNames) : r.getStr i a = r'.getStr i a := by unfold Ring.getStr; rw [h.getA i ha]

theorem hasFrequency (i : Nat) : r.hasA i "Frequency" = r'.hasA i "Frequency" := by
  have hc := h.cavities i
  have hl := h.length
  unfold Ring.hasA Ring.getE
  unfold Ring.attr at hc
  by_cases hi : i < r.length
  · have hi' : i < r'.length := hl ▸ hi
    simp [hi, hi'] at hc
    simp [hi, hi', Elem.has, hc]
  · have hi' : ¬ i < r'.length := hl ▸ hi
    simp [hi, hi']

theorem setPoint (i : Nat) (sk : Bool) (k : Nat) : r.getVecAt i ("SetPoint" ++ letter sk) k = r'.getVecAt i ("SetPoint" ++ letter sk) k := by
  cases sk
  · exact h.getVecAt i (a := "SetPointB") (by simp [panelNames]) k
  · exact h.getVecAt i (a := "SetPointA") (by simp [panelNames]) k

theorem normBy (i : Nat) (sk : Bool) : PySC.normBy r i sk = PySC.normBy r' i sk := by
  unfold PySC.normBy
  rw [h.getStr i (a := "PassMethod") (by simp [panelNames]), h.getNum i (a := "Length") (by simp [panelNames])]

theorem getCM (sk : Bool) (i : Nat) : getCM1 r sk i = getCM1 r' sk i := by
  unfold getCM1
  rw [h.setPoint, h.normBy]

theorem fieldValues (l : List Nat) {a : String} (ha : a ∈ panelNames) (k : Nat) : PySC.fieldValues r l a k = PySC.fieldValues r' l a k := by
  unfold PySC.fieldValues
  simp only [h.getVecAt _ ha k]

theorem bendingShift (c : Bool) (p i : Nat) : PySC.bendingShift r c p i = PySC.bendingShift r' c p i := by
  unfold PySC.bendingShift PySC.bendingAngleOr0
  rw [h.getVecAt i (a := "NomPolynomB") (by simp [panelNames]), h.hasA i (a := "BendingAngle") (by simp [panelNames]),
    h.getNum i (a := "BendingAngle") (by simp [panelNames]), h.getNum i (a := "Length") (by simp [panelNames])]

theorem evaluation (Q : BbaEnv K) (par : BbaPar K) (data : List (List (Option K × List (Option K)))) (v : List K) (p i : Nat) :
    dataEvaluation Q r par data v p i = dataEvaluation Q r' par data v p i := by
  unfold dataEvaluation
  rw [h.bendingShift]

theorem checkCavity (i : Nat) : PySC.checkCavity r i = PySC.checkCavity r' i := by
  unfold PySC.checkCavity
  rw [h.hasFrequency, h.getStr i (a := "PassMethod") (by simp [panelNames])]

theorem findspos : PySC.findspos r = PySC.findspos r' := by
  unfold PySC.findspos lengths
  congr 1
  apply List.ext_getElem?
  intro i
  have hp := h.panel i "Length" (by simp [panelNames])
  have hl := h.length
  unfold Ring.attr at hp
  rw [List.getElem?_map, List.getElem?_map]
  by_cases hi : i < r.length
  · have hi' : i < r'.length := hl ▸ hi
    simp [hi, hi'] at hp
    simp [hi, hi', hp]
  · have hi' : ¬ i < r'.length := hl ▸ hi
    simp [hi, hi']
end RingView

section
variable {R : SC K → SC K → Prop} {E : Env K} {B : BeamEnv K} {A : (Inj K → Inj K) → Prop} (H : SameInstruments E B R A)
include H

/-- the same value is read in both machines -/
theorem Spec.SameInstruments.rd {α : Type} {f f' : Ring K → Except Err α} (h : ∀ r r', RingView r r' → f r = f' r') :
    Sync R Eq (rd f) (rd f') := Sync.rd (fun s t hr => h _ _ (H.view s t hr).ring)

theorem Spec.SameInstruments.getCM (o : List Nat) (sk : Bool) : Sync R Eq (getCMSetpoints o sk) (getCMSetpoints (K := K) o sk) :=
  H.rd (fun r r' h => by rw [funext (h.getCM sk)])

theorem Spec.SameInstruments.read (b : Option (List Nat)) (c : Bool) : Sync R Eq (bpmReading E B b c) (bpmReading E B b c) :=
  sync_of_sameRun (H.reading b c)
theorem Spec.SameInstruments.setCM (o : List Nat) (sp : NpArr K) (sk : Bool) (m : String) :
    Sync R Eq (setCMSetpoints o sp sk m) (setCMSetpoints o sp sk m) := sync_of_sameRun (H.correctors o sp sk m)
theorem Spec.SameInstruments.setMagnet (o : List Nat) (sp : NpArr K) (sk : Bool) (k : Nat) (m : String) (d : Bool) :
    Sync R Eq (setMagnetSetpoints o sp sk k m d) (setMagnetSetpoints o sp sk k m d) := sync_of_sameRun (H.magnets o sp sk k m d)
theorem Spec.SameInstruments.setCavity (o : List Nat) (sp : NpArr K) (p m : String) :
    Sync R Eq (setCavitySetpoints o sp p m) (setCavitySetpoints o sp p m) := sync_of_sameRun (H.cavities o sp p m)
theorem Spec.SameInstruments.survive (n t : Option Nat) : Sync R Eq (beamTransmission E B n t) (beamTransmission E B n t) :=
  sync_of_sameRun (H.transmission n t)
theorem Spec.SameInstruments.inj (f : Inj K → Inj K) (hf : KeepsBeam f) :
    Sync R Eq (modify (fun s : SC K => { s with INJ := f s.INJ })) (modify (fun s => { s with INJ := f s.INJ })) :=
  Sync.modify (H.injection f (Or.inl hf))

/-! ### Orbit and trajectory correction -/

/-- the readings of a log -/
def readOff (l : Log K) : List (Option K) × List (Option K) := (l.x, l.y)
omit H in
theorem readOff_reached {l l' : Log K} (h : readOff l = readOff l') : l.reached = l'.reached := by
  cases l; cases l'; cases h; rfl
omit H in
theorem readOff_hist {h h' : List (Log K)} (e : h.map readOff = h'.map readOff) : h.map Log.reached = h'.map Log.reached := by
  have : ∀ x : List (Log K), x.map Log.reached = (x.map readOff).map (fun p => (p.1.filter (fun v => v.isSome)).length) := fun x => by
    rw [List.map_map]; rfl
  rw [this, this, e]
omit H in
theorem readOff_rms {h h' : List (Log K)} (e : h.map readOff = h'.map readOff) : h.map (Log.rms B) = h'.map (Log.rms B) := by
  have : ∀ x : List (Log K), x.map (Log.rms B) = (x.map readOff).map (fun p =>
      (rmsOf B (((p.1.zip p.2).filter (fun p => p.1.isSome)).map Prod.fst), rmsOf B (((p.1.zip p.2).filter (fun p => p.1.isSome)).map Prod.snd))) := fun x => by
    rw [List.map_map]; rfl
  rw [this, this, e]
omit H in
theorem readOff_append {h h' g g' : List (Log K)} (e : h.map readOff = h'.map readOff) (e' : g.map readOff = g'.map readOff) :
    (h ++ g).map readOff = (h' ++ g').map readOff := by rw [List.map_append, List.map_append, e, e']

/-- lists of logs with the same readings -/
def SeenAlike (h h' : List (Log K)) : Prop := h.map readOff = h'.map readOff

theorem Spec.SameInstruments.inject (bpms : List Nat) : Sync R (fun l l' => readOff l = readOff l') (inject E B bpms) (inject E B bpms) := by
  unfold PySC.inject
  exact Sync.bind Sync.get (fun s t h => Sync.seq (H.read _ _) (fun r => Sync.bind Sync.get (fun s' t' h' => Sync.pure rfl)))

theorem Spec.SameInstruments.wiggleInner (bpms : List Nat) (limit : Nat) (h v : List Nat) (ds : List (K × K)) : ∀ hist hist', SeenAlike hist hist' →
    Sync R (fun a b => a.1 = b.1 ∧ SeenAlike a.2 b.2) (wiggleInner E B bpms limit h v ds hist) (wiggleInner E B bpms limit h v ds hist') := by
  induction ds with
  | nil => intro hist hist' e; exact Sync.pure ⟨rfl, e⟩
  | cons d ds ih =>
    intro hist hist' e
    unfold PySC.wiggleInner
    refine Sync.seq (H.setCM _ _ _ _) (fun _ => Sync.seq (H.setCM _ _ _ _) (fun _ => Sync.bind (H.inject bpms) (fun l l' hl => ?_)))
    rw [readOff_reached hl]
    refine Sync.ite (Sync.bind (H.inject bpms) (fun l1 l1' hl1 => Sync.bind (H.inject bpms) (fun l2 l2' hl2 => ?_))) (ih _ _ (readOff_append e (by simp [hl])))
    have e2 : SeenAlike (hist ++ [l, l1, l2]) (hist' ++ [l', l1', l2']) := readOff_append e (by simp [hl, hl1, hl2])
    dsimp only
    rw [readOff_hist e2]
    exact Sync.ite (Sync.pure ⟨rfl, e2⟩) (ih _ _ e2)

theorem Spec.SameInstruments.wiggleOuter (O : OrbitEnv K) (bpms : List Nat) (cms : CMs) (limit : Nat) (ns : List Nat) : ∀ hist hist', SeenAlike hist hist' →
    Sync R SeenAlike (wiggleOuter E B O bpms cms limit ns hist) (wiggleOuter E B O bpms cms limit ns hist') := by
  induction ns with
  | nil =>
    intro hist hist' e
    unfold PySC.wiggleOuter lastReached
    rw [readOff_hist e]
    exact Sync.ite (Sync.pure e) (Sync.throw _)
  | cons n ns ih =>
    intro hist hist' e
    unfold PySC.wiggleOuter lastReached
    rw [readOff_hist e]
    refine Sync.seq (Sync.lift _) (fun h => Sync.seq (Sync.lift _) (fun v => Sync.bind (H.wiggleInner bpms limit _ _ _ _ _ e) (fun a b hab => ?_)))
    rw [hab.1]
    exact Sync.ite (Sync.pure hab.2) (ih _ _ hab.2)

theorem Spec.SameInstruments.wiggling (O : OrbitEnv K) (bpms : List Nat) (cms : CMs) (limit : Nat) :
    Sync R SeenAlike (wiggling E B O bpms cms limit) (wiggling E B O bpms cms limit) := by
  unfold PySC.wiggling
  exact Sync.bind (H.inject bpms) (fun l l' hl => H.wiggleOuter _ _ _ _ _ _ _ (by simp [SeenAlike, hl]))

theorem Spec.SameInstruments.stepAll (cms : CMs) (dphi : List K) : Sync R Eq (stepAll cms dphi) (stepAll cms dphi) :=
  Sync.seq (H.setCM _ _ _ _) (fun _ => H.setCM _ _ _ _)

omit H in
theorem readOff_measured {l l' : Log K} (h : readOff l = readOff l') (ref : List K) : measured l ref = measured l' ref := by
  cases l; cases l'; cases h; rfl
omit H in
theorem readOff_lastIndex {l l' : Log K} (h : readOff l = readOff l') (b c : List Nat) : lastIndex l b c = lastIndex l' b c := by
  cases l; cases l'; cases h; rfl
omit H in
theorem readOff_x {l l' : Log K} (h : readOff l = readOff l') : l.x = l'.x := congrArg Prod.fst h
omit H in
theorem readOff_twoTurns {l l' : Log K} (h : readOff l = readOff l') (a b : Nat) : twoTurns l a b = twoTurns l' a b := by
  cases l; cases l'; cases h; rfl
omit H in
theorem readOff_rms1 {l l' : Log K} (h : readOff l = readOff l') : l.rms B = l'.rms B := by
  cases l; cases l'; cases h; rfl

theorem Spec.SameInstruments.firstTurnLoop (O : OrbitEnv K) (bpms : List Nat) (cms : CMs) (mplus : List (List K)) (ref : List K) (n : Nat) :
    ∀ hist hist' l l', SeenAlike hist hist' → readOff l = readOff l' →
    Sync R SeenAlike (firstTurnLoop E B O bpms cms mplus ref n hist l) (firstTurnLoop E B O bpms cms mplus ref n hist' l') := by
  induction n with
  | zero => intro _ _ _ _ _ _; exact Sync.throw _
  | succ n ih =>
    intro hist hist' l l' e hl
    unfold PySC.firstTurnLoop
    rw [readOff_reached hl, readOff_measured hl, readOff_lastIndex hl, readOff_lastIndex hl]
    refine Sync.ite (Sync.throw _) (Sync.seq (Sync.lift _) (fun m => Sync.seq (Sync.lift _) (fun h => Sync.seq (Sync.lift _) (fun v =>
      Sync.seq (H.setCM _ _ _ _) (fun _ => Sync.seq (H.setCM _ _ _ _) (fun _ => Sync.bind (H.inject bpms) (fun k k' hk => ?_)))))))
    have e2 : SeenAlike (hist ++ [k]) (hist' ++ [k']) := readOff_append e (by simp [hk])
    dsimp only
    rw [readOff_hist e2, readOff_reached hk, readOff_x hk]
    exact Sync.ite (Sync.pure e2) (Sync.ite (Sync.bind (H.wiggling O bpms cms _) (fun _ _ _ => ih _ _ _ _ e2 hk)) (ih _ _ _ _ e2 hk))

theorem Spec.SameInstruments.stitchLoop (bpms : List Nat) (cms : CMs) (mplus : List (List K)) (ref : List K) (nB n : Nat) :
    ∀ hist hist' l l', SeenAlike hist hist' → readOff l = readOff l' →
    Sync R SeenAlike (stitchLoop E B bpms cms mplus ref nB n hist l) (stitchLoop E B bpms cms mplus ref nB n hist' l') := by
  induction n with
  | zero => intro _ _ _ _ _ _; exact Sync.throw _
  | succ n ih =>
    intro hist hist' l l' e hl
    unfold PySC.stitchLoop
    rw [readOff_twoTurns hl]
    refine Sync.seq (Sync.lift _) (fun m => Sync.seq (H.stepAll _ _) (fun _ => Sync.bind (H.inject bpms) (fun k k' hk => ?_)))
    have e2 : SeenAlike (hist ++ [k]) (hist' ++ [k']) := readOff_append e (by simp [hk])
    dsimp only
    rw [readOff_hist e2, readOff_reached hk, readOff_x hk]
    exact Sync.ite (Sync.pure e2) (ih _ _ _ _ e2 hk)

theorem Spec.SameInstruments.balanceLoop (bpms : List Nat) (cms : CMs) (mplus : List (List K)) (ref : List K) (eps : K) (n : Nat) :
    ∀ hist hist' l l', SeenAlike hist hist' → readOff l = readOff l' →
    Sync R SeenAlike (balanceLoop E B bpms cms mplus ref eps n hist l) (balanceLoop E B bpms cms mplus ref eps n hist' l') := by
  induction n with
  | zero => intro _ _ _ _ _ _; exact Sync.throw _
  | succ n ih =>
    intro hist hist' l l' e hl
    unfold PySC.balanceLoop
    rw [readOff_twoTurns hl]
    refine Sync.seq (Sync.lift _) (fun m => Sync.seq (Sync.lift _) (fun m => Sync.seq (H.stepAll _ _) (fun _ => Sync.bind (H.inject bpms) (fun k k' hk => ?_))))
    have e2 : SeenAlike (hist ++ [k]) (hist' ++ [k']) := readOff_append e (by simp [hk])
    dsimp only
    rw [readOff_rms e2, readOff_reached hk, readOff_x hk]
    exact Sync.ite (Sync.throw _) (Sync.ite (Sync.pure e2) (ih _ _ _ _ e2 hk))

theorem Spec.SameInstruments.correctStep (cms : CMs) (sc : K) (dphi : List K) : Sync R Eq (correctStep cms sc dphi) (correctStep cms sc dphi) := by
  unfold PySC.correctStep
  refine Sync.ite (Sync.bind Sync.get (fun s t h => ?_)) (H.stepAll _ _)
  rw [(H.view s t h).ords]
  exact Sync.seq (H.setCavity _ _ _ _) (fun _ => H.stepAll _ _)

theorem Spec.SameInstruments.correctLoop (bpms : List Nat) (cms : CMs) (mplus : List (List K)) (ref : List K) (eps target sc : K) (ms n : Nat) :
    ∀ hist hist' l l', SeenAlike hist hist' → readOff l = readOff l' →
    Sync R SeenAlike (correctLoop E B bpms cms mplus ref eps target sc ms n hist l) (correctLoop E B bpms cms mplus ref eps target sc ms n hist' l') := by
  induction n with
  | zero =>
    intro hist hist' _ _ e _
    unfold PySC.correctLoop
    rw [readOff_rms e]
    exact Sync.ite (Sync.pure e) (Sync.throw _)
  | succ n ih =>
    intro hist hist' l l' e hl
    unfold PySC.correctLoop
    rw [readOff_measured hl]
    refine Sync.seq (Sync.lift _) (fun m => Sync.seq (Sync.lift _) (fun m => Sync.seq (H.correctStep _ _ _) (fun _ => Sync.bind (H.inject bpms) (fun k k' hk => ?_))))
    have e2 : SeenAlike (hist ++ [k]) (hist' ++ [k']) := readOff_append e (by simp [hk])
    dsimp only
    rw [readOff_rms e2, readOff_rms1 hk, readOff_x hk]
    exact Sync.ite (Sync.throw _) (Sync.ite (Sync.pure e2) (Sync.ite (Sync.pure e2) (ih _ _ _ _ e2 hk)))

omit H in
theorem checkOrds_view {s t : SC K} (h : SameView s t) (a b : Nat) (r : Option (List K)) (bp : Option (List Nat)) (c : Option CMs) :
    checkOrds s a b r bp c = checkOrds t a b r bp c := by
  unfold checkOrds
  rw [h.ords, h.injection]

theorem Spec.SameInstruments.firstTurn (O : OrbitEnv K) (rm : List (List K)) (r : Option (List K)) (c : Option CMs) (b : Option (List Nat)) (n : Nat) :
    Sync R SeenAlike (firstTurn E B O rm r c b n) (firstTurn E B O rm r c b n) := by
  unfold PySC.firstTurn
  refine Sync.bind Sync.get (fun s t h => ?_)
  rw [checkOrds_view (H.view s t h)]
  exact Sync.seq (Sync.lift _) (fun c => Sync.bind (H.inject _) (fun l l' hl => Sync.seq (Sync.lift _) (fun _ =>
    H.firstTurnLoop _ _ _ _ _ _ _ _ _ _ (by simp [SeenAlike, hl]) hl)))

theorem Spec.SameInstruments.stitch (O : OrbitEnv K) (rm : List (List K)) (r : Option (List K)) (c : Option CMs) (b : Option (List Nat)) (k n : Nat) :
    Sync R SeenAlike (stitch E B O rm r c b k n) (stitch E B O rm r c b k n) := by
  unfold PySC.stitch
  refine Sync.bind Sync.get (fun s t h => ?_)
  rw [checkOrds_view (H.view s t h), (H.view s t h).injection]
  refine Sync.ite (Sync.throw _) (Sync.seq (Sync.lift _) (fun c => Sync.bind (H.inject _) (fun l l' hl => ?_)))
  rw [readOff_reached hl]
  refine Sync.ite (Sync.throw _) (Sync.ite (Sync.bind (H.wiggling _ _ _ _) (fun _ _ _ => Sync.bind (H.inject _) (fun m m' hm => ?_))) ?_)
  · rw [readOff_reached hm]
    exact Sync.ite (Sync.throw _) (Sync.seq (Sync.lift _) (fun _ => H.stitchLoop _ _ _ _ _ _ _ _ _ _ (by simp [SeenAlike, hl, hm]) hm))
  · exact Sync.seq (Sync.lift _) (fun _ => H.stitchLoop _ _ _ _ _ _ _ _ _ _ (by simp [SeenAlike, hl]) hl)

theorem Spec.SameInstruments.balance (O : OrbitEnv K) (rm : List (List K)) (r : Option (List K)) (c : Option CMs) (b : Option (List Nat)) (e : K) (n : Nat) :
    Sync R SeenAlike (balance E B O rm r c b e n) (balance E B O rm r c b e n) := by
  unfold PySC.balance
  refine Sync.bind Sync.get (fun s t h => ?_)
  rw [checkOrds_view (H.view s t h), (H.view s t h).injection]
  refine Sync.ite (Sync.throw _) (Sync.seq (Sync.lift _) (fun c => Sync.bind (H.inject _) (fun l l' hl => ?_)))
  rw [readOff_reached hl, readOff_x hl]
  exact Sync.ite (Sync.throw _) (Sync.seq (Sync.lift _) (fun _ => H.balanceLoop _ _ _ _ _ _ _ _ _ _ (by simp [SeenAlike, hl]) hl))

theorem Spec.SameInstruments.correct (O : OrbitEnv K) (rm : List (List K)) (r : Option (List K)) (c : Option CMs) (b : Option (List Nat)) (e tg : K) (n : Nat)
    (d : K) : Sync R SeenAlike (correct E B O rm r c b e tg n d) (correct E B O rm r c b e tg n d) := by
  unfold PySC.correct
  refine Sync.bind Sync.get (fun s t h => ?_)
  rw [checkOrds_view (H.view s t h)]
  exact Sync.seq (Sync.lift _) (fun c => Sync.bind (H.inject _) (fun l l' hl => Sync.seq (Sync.lift _) (fun _ =>
    H.correctLoop _ _ _ _ _ _ _ _ _ _ _ _ _ (by simp [SeenAlike, hl]) hl)))
/-! ### RF, tunes and injection -/

omit H in
theorem checkRfInputs_view {s t : SC K} (h : SameView s t) (c b : Option (List Nat)) (n : Nat) : checkRfInputs s c b n = checkRfInputs t c b n := by
  unfold checkRfInputs
  rw [h.ords, h.injection, funext h.ring.checkCavity]

theorem Spec.SameInstruments.energyShift (bpms : List Nat) : Sync R Eq (tbtEnergyShift E B bpms) (tbtEnergyShift E B bpms) := by
  unfold tbtEnergyShift
  refine Sync.bind Sync.get (fun s t h => ?_)
  rw [(H.view s t h).injection]
  refine Sync.seq (H.read _ _) (fun r => Sync.ite (Sync.throw _) (Sync.ite (Sync.pure rfl) (Sync.seq (Sync.lift _) (fun p => Sync.seq (Sync.lift _) (fun f => ?_)))))
  cases B.sqrt f.varSlope with
  | none => exact Sync.throw _
  | some e => exact Sync.pure rfl

theorem Spec.SameInstruments.scanStep (cavs bpms : List Nat) (f : String) (v : K) : Sync R Eq (scanStep E B cavs bpms f v) (scanStep E B cavs bpms f v) :=
  Sync.seq (H.setCavity _ _ _ _) (fun _ => Sync.seq (H.energyShift _) (fun _ => Sync.seq (H.setCavity _ _ _ _) (fun _ => Sync.pure rfl)))

theorem Spec.SameInstruments.rfFrequency (c b : Option (List Nat)) (n : Nat) (range : K × K) :
    Sync R Eq (correctRfFrequency E B c b n range) (correctRfFrequency E B c b n range) := by
  unfold correctRfFrequency
  refine Sync.bind Sync.get (fun s t h => ?_)
  rw [checkRfInputs_view (H.view s t h)]
  exact Sync.seq (Sync.lift _) (fun _ => Sync.seq (Sync.mapEach (fun v _ => H.scanStep _ _ _ _)) (fun _ => Sync.seq (Sync.lift _) (fun _ =>
    Sync.seq (Sync.lift _) (fun _ => Sync.seq (Sync.lift _) (fun _ => Sync.seq (Sync.lift _) (fun _ => H.setCavity _ _ _ _))))))

theorem Spec.SameInstruments.rfPhase (F : RfEnv K) (c b : Option (List Nat)) (n : Nat) :
    Sync R Eq (correctRfPhase E B F c b n) (correctRfPhase E B F c b n) := by
  unfold correctRfPhase
  refine Sync.bind Sync.get (fun s t h => ?_)
  rw [checkRfInputs_view (H.view s t h)]
  refine Sync.seq (Sync.lift _) (fun cb => Sync.seq (Sync.lift _) (fun cav => Sync.seq
    (H.rd (fun r r' h => h.getNum cav (by simp [panelNames]))) (fun f => Sync.seq (Sync.lift _) (fun lam =>
    Sync.seq (Sync.mapEach (fun v _ => H.scanStep _ _ _ _)) (fun meas => Sync.seq (Sync.lift _) (fun pts => Sync.seq (H.rd (fun r r' h => ?_)) (fun d => ?_)))))))
  · unfold phaseStep
    rw [h.getNum cav (by simp [panelNames])]
  · obtain ⟨d, p⟩ := d
    cases d with
    | none => exact Sync.throw _
    | some d => exact Sync.seq (H.setCavity _ _ _ _) (fun _ => Sync.ite (Sync.pure rfl) (Sync.throw _))

theorem Spec.SameInstruments.scanLoop (q : List Nat × List Nat) (rel : List K × List K) (target : K) (np nt : Nat) (full : Bool) (l : List (Nat × Nat)) :
    ∀ res, Sync R Eq (scanLoop E B q rel target np nt full l res) (scanLoop E B q rel target np nt full l res) := by
  induction l with
  | nil => intro _; exact Sync.pure rfl
  | cons i l ih =>
    intro res
    unfold PySC.scanLoop
    exact Sync.seq (Sync.lift _) (fun _ => Sync.seq (Sync.lift _) (fun _ => Sync.seq (H.setMagnet _ _ _ _ _ _) (fun _ => Sync.seq (H.survive _ _) (fun _ =>
      Sync.seq (Sync.lift _) (fun _ => Sync.seq (Sync.lift _) (fun _ => Sync.seq (H.setMagnet _ _ _ _ _ _) (fun _ =>
        Sync.ite (Sync.seq (H.setMagnet _ _ _ _ _ _) (fun _ => Sync.pure rfl)) (ih _))))))))

theorem Spec.SameInstruments.tuneScan (T : TuneEnv K) (q : List Nat × List Nat) (rel : List K × List K) (target : K) (n : Nat) (np nt : Option Nat) (full : Bool) :
    Sync R Eq (tuneScan E B T q rel target n np nt full) (tuneScan E B T q rel target n np nt full) := by
  unfold PySC.tuneScan
  refine Sync.bind Sync.get (fun s t h => ?_)
  rw [(H.view s t h).injection]
  refine Sync.seq (Sync.lift _) (fun _ => Sync.seq (Sync.lift _) (fun a => Sync.seq (H.rd (fun r r' h => h.getStr a (by simp [panelNames]))) (fun _ =>
    Sync.seq (Sync.lift _) (fun b => Sync.seq (H.rd (fun r r' h => h.getStr b (by simp [panelNames]))) (fun _ => Sync.seq (H.scanLoop _ _ _ _ _ _ _ _) (fun out => ?_))))))
  obtain ⟨f, res⟩ := out
  cases f with
  | some f => exact Sync.pure rfl
  | none => exact Sync.seq (Sync.lift _) (fun _ => Sync.seq (Sync.lift _) (fun _ => Sync.seq (Sync.lift _) (fun _ => Sync.seq (Sync.lift _) (fun _ =>
      Sync.seq (H.setMagnet _ _ _ _ _ _) (fun _ => Sync.pure rfl)))))

theorem Spec.SameInstruments.injectionDrift : Sync R Eq (fitInjectionDrift E B) (fitInjectionDrift E B) := by
  unfold fitInjectionDrift
  refine Sync.bind Sync.get (fun s t h => ?_)
  rw [(H.view s t h).ords, (H.view s t h).ring.findspos]
  exact Sync.seq (H.read _ _) (fun _ => Sync.ite (Sync.throw _) (Sync.seq (Sync.lift _) (fun _ => Sync.seq (Sync.lift _) (fun _ => Sync.seq (Sync.lift _) (fun _ =>
    Sync.seq (Sync.lift _) (fun _ => Sync.seq (Sync.lift _) (fun _ => Sync.seq (Sync.lift _) (fun _ => Sync.lift _))))))))

theorem Spec.SameInstruments.injectionTrajectory (J : InjEnv K) (l : List Nat) :
    Sync R Eq (fitInjectionTrajectory E B J l) (fitInjectionTrajectory E B J l) := by
  unfold fitInjectionTrajectory
  refine Sync.bind Sync.get (fun s t h => ?_)
  rw [(H.view s t h).ords, (H.view s t h).injection, (H.view s t h).design]
  refine Sync.seq (H.read _ _) (fun _ => Sync.seq (Sync.lift _) (fun bx => Sync.seq (Sync.lift _) (fun by_ => Sync.seq (Sync.lift _) (fun ords => ?_))))
  dsimp only
  generalize J.fmin (meritFunction B J t.IDEALRING bx by_ ords) [0, 0, 0, 0] = z
  cases z 0 with
  | none => exact Sync.throw _
  | some a =>
    cases z 1 with
    | none => exact Sync.throw _
    | some b =>
      cases z 2 with
      | none => exact Sync.throw _
      | some c =>
        cases z 3 with
        | none => exact Sync.throw _
        | some d => exact Sync.ite (Sync.throw _) (Sync.seq (H.inj (fun j => { j with Z0 := List.zipWith (· + ·) j.Z0 [-a, -b, -c, -d, 0, 0] }) (fun _ => ⟨rfl, rfl, rfl, fun _ => rfl⟩)) (fun _ => Sync.pure rfl))

/-! ### Beam-based alignment -/

theorem Spec.SameInstruments.bpmOffsets (b : List (List Nat)) (o e : List (List (Option K))) : Sync R Eq (applyBpmOffsets b o e) (applyBpmOffsets b o e) := by
  unfold applyBpmOffsets
  refine Sync.ite (Sync.throw _) (Sync.forEach (fun x _ => ?_))
  obtain ⟨p, j, off, err⟩ := x
  cases off with
  | none => exact Sync.pure rfl
  | some off => exact Sync.ite (Sync.pure rfl) (Sync.seq (Sync.lift _) (fun _ => sync_of_sameRun (H.bpmOffset _ _ _)))

theorem Spec.SameInstruments.injectAt (z0 : List K) (p : Nat) (d : K × K) : Sync R Eq (injectAt z0 p d) (injectAt z0 p d) :=
  Sync.ite (Sync.throw _) (H.inj (fun j => { j with Z0 := (z0.set (2 * p) (z0.getD (2 * p) 0 + d.1)).set (2 * p + 1) (z0.getD (2 * p + 1) 0 + d.2) }) (fun _ => ⟨rfl, rfl, rfl, fun _ => rfl⟩))

theorem Spec.SameInstruments.measureStep (z0 : List K) (i p : Nat) (sk : Bool) (n : Nat) (d : K × K) :
    Sync R Eq (measureStep E B z0 i p sk n d) (measureStep E B z0 i p sk n d) :=
  Sync.seq (H.injectAt _ _ _) (fun _ => Sync.seq (H.read _ _) (fun _ => Sync.seq (Sync.lift _) (fun _ => Sync.seq (Sync.lift _) (fun _ =>
    Sync.seq (Sync.lift _) (fun _ => Sync.seq (Sync.lift _) (fun _ => Sync.pure rfl))))))

theorem Spec.SameInstruments.tbtData (par : BbaPar K) (m i j p : Nat) (sc : K) :
    Sync R Eq (dataMeasurementTbt E B par m i j p sc) (dataMeasurementTbt E B par m i j p sc) := by
  unfold dataMeasurementTbt
  refine Sync.bind Sync.get (fun s t h => ?_)
  rw [(H.view s t h).injection]
  exact Sync.seq (Sync.lift _) (fun _ => Sync.seq (H.rd (fun r r' h => h.setPoint _ _ _)) (fun _ => Sync.seq (Sync.mapEach (fun q _ =>
    Sync.seq (H.setMagnet _ _ _ _ _ _) (fun _ => Sync.mapEach (fun d _ => H.measureStep _ _ _ _ _ _)))) (fun _ =>
    Sync.seq (H.inj (fun j => { j with Z0 := t.INJ.Z0 }) (fun _ => ⟨rfl, rfl, rfl, fun _ => rfl⟩)) (fun _ => Sync.seq (H.setMagnet _ _ _ _ _ _) (fun _ => Sync.pure rfl)))))

theorem Spec.SameInstruments.trialReading (z0 : List K) (n p : Nat) (d : K × K) : Sync R Eq (trialReading E B z0 n p d) (trialReading E B z0 n p d) :=
  Sync.seq (H.injectAt _ _ _) (fun _ => Sync.seq (H.read _ _) (fun _ => Sync.seq (Sync.lift _) (fun _ => Sync.ite (Sync.pure rfl) (Sync.throw _))))

theorem Spec.SameInstruments.scaleTrials (z0 : List K) (nb last p : Nat) (m : K × K) (n : Nat) : ∀ f,
    Sync R Eq (scaleTrials E B z0 nb last p m n f) (scaleTrials E B z0 nb last p m n f) := by
  induction n with
  | zero => intro f; exact Sync.pure rfl
  | succ n ih =>
    intro f
    unfold PySC.scaleTrials
    exact Sync.seq (H.trialReading _ _ _ _) (fun _ => Sync.seq (H.trialReading _ _ _ _) (fun _ => Sync.seq (H.inj (fun j => { j with Z0 := z0 }) (fun _ => ⟨rfl, rfl, rfl, fun _ => rfl⟩)) (fun _ =>
      Sync.ite (Sync.pure rfl) (ih _))))

theorem Spec.SameInstruments.scaleInjection (p last : Nat) (m : K × K) : Sync R Eq (scaleInjection E B p last m) (scaleInjection E B p last m) := by
  unfold PySC.scaleInjection
  refine Sync.bind Sync.get (fun s t h => ?_)
  rw [(H.view s t h).injection, (H.view s t h).ords]
  exact Sync.seq (H.inj (fun j => { j with nTurns := 1 }) (fun _ => ⟨rfl, rfl, rfl, fun _ => rfl⟩)) (fun _ => Sync.seq (H.scaleTrials _ _ _ _ _ _ _) (fun _ =>
    Sync.seq (H.inj (fun j => { j with nTurns := t.INJ.nTurns }) (fun _ => ⟨rfl, rfl, rfl, fun _ => rfl⟩)) (fun _ => Sync.pure rfl)))

theorem Spec.SameInstruments.restoreQuads (q : List Nat) (q0 : List K) : Sync R Eq (restoreQuads q q0) (restoreQuads q q0) :=
  Sync.ite (Sync.pure rfl) (H.setMagnet _ _ _ _ _ _)

theorem Spec.SameInstruments.phaseScan (par : BbaPar K) (p last : Nat) : Sync R Eq (phaseAdvanceScan E B par p last) (phaseAdvanceScan E B par p last) :=
  Sync.seq (H.rd (fun r r' h => h.fieldValues _ (by simp [panelNames]) _)) (fun _ => Sync.seq (Sync.mapEach (fun q _ =>
    Sync.seq (H.setMagnet _ _ _ _ _ _) (fun _ => H.scaleInjection _ _ _))) (fun _ => Sync.seq (H.restoreQuads _ _) (fun _ => Sync.pure rfl)))

theorem Spec.SameInstruments.bbaEntry (Q : BbaEnv K) (par : BbaPar K) (q0 : List K) (scan : List (K × List (Option K))) (p j b m : Nat) :
    Sync R Eq (bbaEntry E B Q par q0 scan p j b m) (bbaEntry E B Q par q0 scan p j b m) := by
  unfold PySC.bbaEntry
  refine Sync.bind Sync.get (fun s t h => ?_)
  rw [(H.view s t h).ords]
  exact Sync.seq (Sync.lift _) (fun _ => Sync.seq (Sync.lift _) (fun _ => Sync.seq (Sync.lift _) (fun _ => Sync.seq (H.setMagnet _ _ _ _ _ _) (fun _ =>
    Sync.seq (Sync.lift _) (fun _ => Sync.seq (H.tbtData _ _ _ _ _ _) (fun _ => Sync.seq (H.restoreQuads _ _) (fun _ => Sync.seq (Sync.lift _) (fun _ =>
    H.rd (fun r r' h => h.evaluation _ _ _ _ _ _)))))))))

theorem Spec.SameInstruments.bbaPlane (Q : BbaEnv K) (par : BbaPar K) (q0 : List K) (p : Nat) (b m : List Nat) :
    Sync R Eq (bbaPlane E B Q par q0 p b m) (bbaPlane E B Q par q0 p b m) := by
  unfold PySC.bbaPlane
  refine Sync.bind Sync.get (fun s t h => ?_)
  rw [(H.view s t h).ords]
  exact Sync.seq (Sync.lift _) (fun _ => Sync.seq (Sync.lift _) (fun _ => Sync.seq (H.phaseScan _ _ _) (fun _ => Sync.mapEach (fun e _ => H.bbaEntry _ _ _ _ _ _ _ _))))

theorem Spec.SameInstruments.trajectoryBba (Q : BbaEnv K) (b m : List (List Nat)) (par : BbaPar K) :
    Sync R Eq (trajectoryBba E B Q b m par) (trajectoryBba E B Q b m par) := by
  unfold PySC.trajectoryBba
  refine Sync.bind Sync.get (fun s t h => ?_)
  rw [(H.view s t h).injection]
  exact Sync.seq (Sync.lift _) (fun _ => Sync.ite (Sync.throw _) (Sync.seq (H.rd (fun r r' h => h.fieldValues _ (by simp [panelNames]) _)) (fun _ =>
    Sync.seq (Sync.mapEach (fun e _ => H.bbaPlane _ _ _ _ _ _)) (fun _ => Sync.seq (H.bpmOffsets _ _ _) (fun _ => Sync.pure rfl)))))

theorem Spec.SameInstruments.orbitBba (b m : List (List Nat)) (f : Nat) (u : Bool) (rm : Option RMstruct) :
    Sync R Eq (orbitBba E B b m f u rm) (orbitBba E B b m f u rm) := by
  unfold PySC.orbitBba
  refine Sync.bind Sync.get (fun s t h => ?_)
  rw [(H.view s t h).injection, (H.view s t h).ords]
  refine Sync.ite (Sync.throw _) (Sync.ite (Sync.throw _) (Sync.ite (Sync.throw _) ?_))
  match b with
  | [] => exact Sync.throw _
  | [] :: _ => exact Sync.throw _
  | (b :: _) :: _ =>
    refine Sync.seq (Sync.lift _) (fun _ => ?_)
    cases rm with
    | none => exact Sync.throw _
    | some rm => exact Sync.ite (Sync.seq (H.read _ _) (fun _ => Sync.throw _)) (Sync.throw _)

/-! ### Responses of the model and of the machine -/

theorem Spec.SameInstruments.modelElem (i : Nat) : Sync R Eq (modelElem i) (modelElem (K := K) i) := by
  unfold PySC.modelElem
  refine Sync.bind Sync.get (fun s t h => ?_)
  rw [(H.view s t h).design, (H.view s t h).ords]
  refine Sync.seq (Sync.lift _) (fun m => Sync.seq (H.rd (fun r r' h => h.hasA i (by simp [panelNames]))) (fun hA =>
    Sync.seq (H.rd (fun r r' h => h.hasA i (by simp [panelNames]))) (fun hB => Sync.seq (Sync.ite ?_ (Sync.pure rfl)) (fun m =>
    Sync.seq (H.rd (fun r r' h => h.hasFrequency i)) (fun hF => Sync.ite ?_ (Sync.pure rfl))))))
  · exact Sync.seq (H.rd (fun r r' h => h.getVec i (by simp [panelNames]))) (fun a => Sync.seq (H.rd (fun r r' h => h.getVec i (by simp [panelNames]))) (fun b =>
      Sync.seq (Sync.lift _) (fun _ => Sync.seq (sync_of_sameRun (H.stored _ _ _ (by simp))) (fun _ => Sync.seq (Sync.lift _) (fun _ =>
      Sync.seq (sync_of_sameRun (H.stored _ _ _ (by simp))) (fun _ => Sync.pure rfl))))))
  · exact Sync.seq (H.rd (fun r r' h => h.getA i (by simp [panelNames]))) (fun _ => Sync.seq (H.rd (fun r r' h => h.getA i (by simp [panelNames]))) (fun _ =>
      Sync.seq (H.rd (fun r r' h => h.getA i (by simp [panelNames]))) (fun _ => Sync.pure rfl)))

theorem Spec.SameInstruments.modelRing : Sync R Eq modelRing (modelRing (K := K)) := by
  unfold PySC.modelRing
  refine Sync.bind Sync.get (fun s t h => ?_)
  rw [(H.view s t h).length]
  exact Sync.mapEach (fun i _ => H.modelElem i)

theorem Spec.SameInstruments.chooseModel (u : Bool) : Sync R Eq (chooseModel u) (chooseModel (K := K) u) := by
  unfold PySC.chooseModel
  refine Sync.bind Sync.get (fun s t h => ?_)
  rw [(H.view s t h).design]
  exact Sync.ite (Sync.pure rfl) H.modelRing

theorem Spec.SameInstruments.modelRM (B' : BeamEnv K) (b : List Nat) (c : List Nat × List Nat) (m : String) (z : List K) (n : Nat) (d : K) (u : Bool) :
    Sync R Eq (modelRM B' b c m z n d u) (modelRM B' b c m z n d u) :=
  Sync.seq (H.chooseModel u) (fun _ => Sync.ite (Sync.throw _) (Sync.ite (Sync.throw _) (Sync.lift _)))

theorem Spec.SameInstruments.modelDispersion (B' : BeamEnv K) (b c : List Nat) (m : String) (z : List K) (n : Nat) (d : K) (u : Bool) :
    Sync R Eq (modelDispersion B' b c m z n d u) (modelDispersion B' b c m z n d u) :=
  Sync.seq (H.chooseModel u) (fun _ => Sync.ite (Sync.throw _) (Sync.ite (Sync.throw _) (Sync.seq (Sync.lift _) (fun _ =>
    Sync.ite (Sync.throw _) (Sync.pure rfl)))))

theorem Spec.SameInstruments.ravel (b : List Nat) : Sync R Eq (ravelReading E B b) (ravelReading E B b) :=
  Sync.seq (H.read _ _) (fun _ => Sync.pure rfl)

theorem Spec.SameInstruments.dispersion (i : Bool) (d : K) (b c : Option (List Nat)) (n : Nat) :
    Sync R Eq (dispersion E B i d b c n) (dispersion E B i d b c n) := by
  unfold PySC.dispersion
  refine Sync.bind Sync.get (fun s t h => ?_)
  rw [(H.view s t h).ords]
  refine Sync.seq (H.ravel _) (fun _ => Sync.ite (Sync.seq (H.setCavity _ _ _ _) (fun _ => Sync.seq (H.ravel _) (fun _ => Sync.seq (H.setCavity _ _ _ _) (fun _ =>
    Sync.ite (Sync.throw _) (Sync.pure rfl))))) (Sync.seq (H.rd (fun r r' h => ?_)) (fun _ => Sync.seq (H.rd (fun r r' h => ?_)) (fun _ =>
    Sync.seq (Sync.forEach (fun k _ => Sync.seq (H.setCavity _ _ _ _) (fun _ => Sync.seq (H.ravel _) (fun _ => Sync.pure rfl)))) (fun _ =>
    Sync.seq (H.setCavity _ _ _ _) (fun _ => Sync.throw _))))))
  · congr 1; funext cav; unfold freqSteps; rw [h.getNum cav (by simp [panelNames])]
  · congr 1; funext cav; rw [h.getNum cav (by simp [panelNames])]

theorem Spec.SameInstruments.orbitResponse (b : List Nat) (c : List Nat × List Nat) (i : Bool) (d : K) :
    Sync R Eq (measureOrbitResponse E B b c i d) (measureOrbitResponse E B b c i d) :=
  Sync.seq (H.inj (fun j => { j with trackMode := "ORB" }) (fun _ => ⟨rfl, rfl, rfl, fun _ => rfl⟩)) (fun _ => Sync.seq (H.ravel _) (fun _ => Sync.mapEach (fun x _ =>
    Sync.seq (H.setCM _ _ _ _) (fun _ => Sync.seq (H.ravel _) (fun _ => Sync.seq (H.setCM _ _ _ _) (fun _ =>
      Sync.ite (Sync.throw _) (Sync.ite (Sync.throw _) (Sync.pure rfl))))))))

theorem Spec.SameInstruments.trySetpoint (b : List Nat) (cm : Nat) (start step : K) (sk : Bool) :
    Sync R Eq (trySetpoint E B b cm start step sk) (trySetpoint E B b cm start step sk) :=
  Sync.seq (H.setCM _ _ _ _) (fun _ => Sync.seq (H.getCM _ _) (fun _ => Sync.seq (Sync.lift _) (fun _ => Sync.seq (Sync.when (H.setCM _ _ _ _)) (fun _ =>
    Sync.seq (H.ravel _) (fun _ => Sync.pure rfl)))))

theorem Spec.SameInstruments.kickLoop (bref : List (Option K)) (b : List Nat) (cm : Nat) (start amp : K) (sk : Bool) (mode : String) (n : Nat) : ∀ step,
    Sync R Eq (kickLoop E B bref b cm start amp sk mode n step) (kickLoop E B bref b cm start amp sk mode n step) := by
  induction n with
  | zero => intro _; exact Sync.pure rfl
  | succ n ih =>
    intro step
    unfold PySC.kickLoop
    exact Sync.seq (H.trySetpoint _ _ _ _ _) (fun _ => Sync.ite (Sync.ite (Sync.seq (Sync.lift _) (fun _ => Sync.seq (Sync.lift _) (fun _ => ih _))) (Sync.pure rfl)) (Sync.throw _))

theorem Spec.SameInstruments.kickAmplitude (bref : List (Option K)) (b : List Nat) (cm : Nat) (amp : K) (sk : Bool) (mode : String) :
    Sync R Eq (kickAmplitude E B bref b cm amp sk mode) (kickAmplitude E B bref b cm amp sk mode) :=
  Sync.seq (H.getCM _ _) (fun _ => Sync.seq (Sync.lift _) (fun _ => Sync.seq (Sync.ite (Sync.pure rfl) (Sync.ite (Sync.pure rfl) (Sync.throw _))) (fun _ =>
    Sync.seq (H.kickLoop _ _ _ _ _ _ _ _ _) (fun _ => Sync.seq (H.ravel _) (fun _ => Sync.pure rfl)))))

theorem Spec.SameInstruments.kickStep (bref : List (Option K)) (b : List Nat) (cm : Nat) (start step : K) (sk : Bool) (x : K) :
    Sync R Eq (kickStep E B bref b cm start step sk x) (kickStep E B bref b cm start step sk x) :=
  Sync.ite (Sync.seq (H.setCM _ _ _ _) (fun _ => Sync.seq (H.getCM _ _) (fun _ => Sync.seq (Sync.lift _) (fun _ => Sync.seq (H.ravel _) (fun _ => Sync.pure rfl))))) (Sync.pure rfl)

theorem Spec.SameInstruments.responseColumn (bref : List (Option K)) (b : List Nat) (rows : Nat) (mode : String) (n : Nat) (sk : Bool) (cm : Nat) (start amp : K) :
    Sync R Eq (responseColumn E B bref b rows mode n sk cm start amp) (responseColumn E B bref b rows mode n sk cm start amp) := by
  unfold PySC.responseColumn
  refine Sync.seq (H.kickAmplitude _ _ _ _ _ _) (fun x => Sync.ite (Sync.throw _) (Sync.ite (Sync.throw _) (Sync.seq (Sync.mapEach (fun _ _ =>
    H.kickStep _ _ _ _ _ _ _)) (fun steps => ?_))))
  match steps with
  | [] => exact Sync.throw _
  | _ :: _ :: _ => exact Sync.throw _
  | [(d, g)] => exact Sync.ite (Sync.throw _) (Sync.ite (Sync.throw _) (Sync.seq (H.setCM _ _ _ _) (fun _ => Sync.pure rfl)))

theorem Spec.SameInstruments.responsePlane (bref : List (Option K)) (b : List Nat) (rows : Nat) (mode : String) (n : Nat) (sk : Bool) (cms : List Nat) (amp : List K) :
    Sync R Eq (responsePlane E B bref b rows mode n sk cms amp) (responsePlane E B bref b rows mode n sk cms amp) :=
  Sync.seq (H.getCM _ _) (fun _ => Sync.mapEach (fun _ _ => H.responseColumn _ _ _ _ _ _ _ _ _))

theorem Spec.SameInstruments.responseMatrix (amp : List K × List K) (b : List Nat) (c : List Nat × List Nat) (mode : String) (n : Nat) :
    Sync R Eq (responseMatrix E B amp b c mode n) (responseMatrix E B amp b c mode n) := by
  unfold PySC.responseMatrix
  refine Sync.bind Sync.get (fun s t h => ?_)
  rw [(H.view s t h).injection]
  exact Sync.ite (Sync.throw _) (Sync.seq (H.ravel _) (fun _ => Sync.ite (Sync.throw _) (Sync.seq (H.responsePlane _ _ _ _ _ _ _ _) (fun _ =>
    Sync.seq (H.responsePlane _ _ _ _ _ _ _ _) (fun _ => Sync.pure rfl)))))

theorem Spec.SameInstruments.quadResponse (B' : BeamEnv K) (C : List (List (Option K))) (b : List Nat) (c : List Nat × List Nat) (dkick dk : K) (mode : String)
    (u sk : Bool) (k : Nat) (method : String) (disp : Option (List Nat × K)) (q : Nat) :
    Sync R Eq (quadResponse B' C b c dkick dk mode u sk k method disp q) (quadResponse B' C b c dkick dk mode u sk k method disp q) := by
  unfold PySC.quadResponse
  cases disp with
  | none => exact Sync.seq (H.setMagnet _ _ _ _ _ _) (fun _ => Sync.seq (H.modelRM _ _ _ _ _ _ _ _) (fun _ => Sync.seq (H.setMagnet _ _ _ _ _ _) (fun _ => Sync.lift _)))
  | some p => exact Sync.seq (H.modelDispersion _ _ _ _ _ _ _ _) (fun _ => Sync.seq (H.setMagnet _ _ _ _ _ _) (fun _ => Sync.seq (H.modelRM _ _ _ _ _ _ _ _) (fun _ =>
      Sync.seq (H.modelDispersion _ _ _ _ _ _ _ _) (fun _ => Sync.seq (H.setMagnet _ _ _ _ _ _) (fun _ => Sync.seq (Sync.lift _) (fun _ => Sync.pure rfl))))))

omit H in
theorem Sync.elsewhere {σ α : Type} {R : σ → σ → Prop} {m m' : Py σ α} (h : Sync R Eq m m') {s t : σ} (hr : R s t) : elsewhere m s = elsewhere m' t := by
  unfold PySC.elsewhere
  rcases h s t hr with ⟨a, b, s', t', h1, h2, rfl, -⟩ | ⟨e, s', t', h1, h2, -⟩ <;> rw [h1, h2]

theorem Spec.SameInstruments.jacobian (B' : BeamEnv K) (rows : Nat) (C : List (List (Option K))) (b : List Nat) (c : List Nat × List Nat) (ch : List (List Nat)) (dkick dk : K)
    (mode : String) (u sk : Bool) (k : Nat) (method : String) (disp : Option (List Nat × K)) (full : Bool) :
    Sync R Eq (jacobian B' rows C b c ch dkick dk mode u sk k method disp full) (jacobian B' rows C b c ch dkick dk mode u sk k method disp full) := by
  unfold PySC.jacobian
  refine Sync.bind Sync.get (fun s t h => ?_)
  have e : poolMap s ch (PySC.quadResponse B' C b c dkick dk mode u sk k method disp) = poolMap t ch (PySC.quadResponse B' C b c dkick dk mode u sk k method disp) := by
    unfold poolMap
    congr 2
    funext x
    exact Sync.elsewhere (Sync.mapEach (fun q _ => H.quadResponse _ _ _ _ _ _ _ _ _ _ _ _ q)) h
  rw [e]
  exact Sync.seq (Sync.lift _) (fun _ => Sync.ite (Sync.throw _) (Sync.ite (Sync.seq (Sync.lift _) (fun _ => Sync.seq (Sync.lift _) (fun _ =>
    Sync.ite (Sync.throw _) (Sync.pure rfl)))) (Sync.pure rfl)))

/-! ### Results of LOCO -/

theorem Spec.SameInstruments.correction (r : NpArr K) (o : List Nat) (sk : Bool) (k : Nat) (m : String) (c : Bool) :
    Sync R Eq (setCorrection r o sk k m c) (setCorrection r o sk k m c) := H.setMagnet _ _ _ _ _ _

theorem Spec.SameInstruments.correctionFamilies (r : NpArr K) (f : List (List Nat)) (sk : Bool) (k : Nat) (m : String) (c : Bool) :
    Sync R Eq (setCorrectionFamilies r f sk k m c) (setCorrectionFamilies r f sk k m c) :=
  Sync.forEach (fun _ _ => Sync.seq (Sync.lift _) (fun _ => H.setMagnet _ _ _ _ _ _))

theorem Spec.SameInstruments.latticeCorrection (fp : FitParameters K) (d : Bool) (a : K) :
    Sync R Eq (applyLatticeCorrection fp d a) (applyLatticeCorrection fp d a) := by
  unfold applyLatticeCorrection
  refine Sync.seq (Sync.forEach (fun g _ => Sync.forEach (fun p _ => Sync.seq (Sync.lift _) (fun _ => Sync.seq (Sync.lift _) (fun _ => Sync.seq (Sync.lift _) (fun _ =>
    Sync.ite (H.setMagnet _ _ _ _ _ _) (Sync.ite (H.setMagnet _ _ _ _ _ _) (Sync.pure rfl)))))))) (fun _ => Sync.bind Sync.get (fun s t h => ?_))
  rw [(H.view s t h).ords]
  exact sync_of_sameRun (H.refresh _)

theorem Spec.SameInstruments.diagnosticCorrection (c : CmData K) (d : BpmData K) (z : Bool) (o : Outliers K) :
    Sync R Eq (applyDiagnosticCorrection c d z o) (applyDiagnosticCorrection c d z o) := by
  unfold applyDiagnosticCorrection
  refine Sync.seq (Sync.forEach (fun p _ => Sync.seq (Sync.when (Sync.ite (Sync.pure rfl) (Sync.throw _))) (fun _ => Sync.when (Sync.seq (Sync.lift _) (fun _ =>
    Sync.seq (Sync.lift _) (fun _ => Sync.forEach (fun _ _ => Sync.seq (Sync.lift _) (fun _ => sync_of_sameRun (H.bpmGain _ _ _))))))))) (fun _ => ?_)
  cases d.fitCoupling with
  | none => exact Sync.throw _
  | some f =>
    cases f with
    | false => exact Sync.pure rfl
    | true => exact Sync.ite (Sync.throw _) (Sync.forEach (fun i _ => Sync.seq (Sync.lift _) (fun v => Sync.seq (Sync.lift _) (fun h => sync_of_sameRun (H.bpmRoll i.1 ((v - h) / 2))))))

theorem Spec.SameInstruments.synchPhase (F : RfEnv K) (c : Option (List Nat)) (n t : Nat) :
    Sync R Eq (scSynchPhaseCorrection E B F c n t) (scSynchPhaseCorrection E B F c n t) := by
  unfold scSynchPhaseCorrection
  refine Sync.bind Sync.get (fun s u h => ?_)
  rw [(H.view s u h).injection]
  exact Sync.seq (H.inj (fun j => { j with nTurns := t }) (fun _ => ⟨rfl, rfl, rfl, fun _ => rfl⟩)) (fun _ => Sync.seq (H.rfPhase _ _ _ _) (fun _ => H.inj (fun j => { j with nTurns := u.INJ.nTurns }) (fun _ => ⟨rfl, rfl, rfl, fun _ => rfl⟩)))

theorem Spec.SameInstruments.trackMode (m : String) : Sync R Eq (onInj (setTrackMode m)) (onInj (K := K) (setTrackMode m)) := by
  have hE : onInj (K := K) (setTrackMode m) = (if m ∉ trackingModes then Py.throw .attributeError else do
      modify (fun s => { s with INJ := { s.INJ with trackMode := m } })
      if m = "ORB" then modify (fun s => { s with INJ := { s.INJ with nTurns := 1, nParticles := 1 } }) else Py.pure ()) := by
    funext s
    unfold onInj setTrackMode
    by_cases h1 : m ∉ trackingModes
    · simp only [h1, not_false_eq_true, if_true]; rfl
    · simp only [h1, if_false]
      by_cases h2 : m = "ORB"
      · simp only [h2, if_true]; rfl
      · simp only [h2, if_false]; rfl
  rw [hE]
  exact Sync.ite (Sync.throw _) (Sync.seq (H.inj (fun j => { j with trackMode := m }) (fun _ => ⟨rfl, rfl, rfl, fun _ => rfl⟩)) (fun _ =>
    Sync.ite (H.inj (fun j => { j with nTurns := 1, nParticles := 1 }) (fun _ => ⟨rfl, rfl, rfl, fun _ => rfl⟩)) (Sync.pure rfl)))

/-! ### All operations -/

omit H in
theorem Sync.dropped {α β : Type} {V : α → β → Prop} {m : Py (SC K) α} {m' : Py (SC K) β} (h : Sync R V m m') : Sync R Eq (dropped m) (Spec.dropped m') :=
  Sync.bind h (fun _ _ _ => Sync.pure rfl)

theorem Spec.SameInstruments.call {O : OrbitEnv K} {c : Call K} (hc : c.InControlRoom) (hf : ∀ f, c = .setInjection f → KeepsBeam f ∨ A f) : Sync R Eq (c.run ⟨E, B, O⟩) (c.run ⟨E, B, O⟩) := by
  cases c with
  | setCavity o sp p m => exact H.setCavity _ _ _ _
  | getCM o sk => exact Sync.dropped (H.getCM _ _)
  | setCM o sp sk m => exact H.setCM _ _ _ _
  | setMagnet o sp sk k m d => exact H.setMagnet _ _ _ _ _ _
  | trackMode m => exact H.trackMode m
  | setInjection f => exact Sync.modify (H.injection f (hf f rfl))
  | transmission n t => exact Sync.dropped (H.survive _ _)
  | reading b c => exact Sync.dropped (H.read _ _)
  | firstTurn rm r c b n => exact Sync.dropped (H.firstTurn _ _ _ _ _ _)
  | stitch rm r c b k n => exact Sync.dropped (H.stitch _ _ _ _ _ _ _)
  | balance rm r c b e n => exact Sync.dropped (H.balance _ _ _ _ _ _ _)
  | correct rm r c b e t n d => exact Sync.dropped (H.correct _ _ _ _ _ _ _ _ _)
  | _ => exact absurd hc (by simp [Call.InControlRoom])
end

theorem Spec.SameInstruments.step {R : SC K → SC K → Prop} {L : Lab K} {A : (Inj K → Inj K) → Prop} (H : SameInstruments L.E L.B R A) {c : Step K}
    (hc : c.InControlRoom) (hf : ∀ f, c = .call (.setInjection f) → KeepsBeam f ∨ A f) :
    Sync R Eq (c.run L) (c.run L) := by
  cases c with
  | call c => exact H.call hc (fun f h => hf f (by rw [h]))
  | rfFrequency c b n r => exact H.rfFrequency _ _ _ _
  | rfPhase c b n => exact H.rfPhase _ _ _ _
  | tuneScan q r t n p u f => exact Sync.dropped (H.tuneScan _ _ _ _ _ _ _ _)
  | injectionDrift => exact Sync.dropped H.injectionDrift
  | injectionTrajectory b => exact Sync.dropped (H.injectionTrajectory _ _)
  | bpmOffsets b o e => exact H.bpmOffsets _ _ _
  | trajectoryBba b m p => exact Sync.dropped (H.trajectoryBba _ _ _ _)
  | orbitBba b m f u r => exact H.orbitBba _ _ _ _ _
  | modelRing => exact Sync.dropped H.modelRing
  | modelRM b c m z n d u => exact Sync.dropped (H.modelRM _ _ _ _ _ _ _ _)
  | modelDispersion b c m z n d u => exact Sync.dropped (H.modelDispersion _ _ _ _ _ _ _ _)
  | dispersion i s b c n => exact Sync.dropped (H.dispersion _ _ _ _ _)
  | orbitResponse b c i d => exact Sync.dropped (H.orbitResponse _ _ _ _)
  | responseMatrix a b c m n => exact Sync.dropped (H.responseMatrix _ _ _ _ _)
  | jacobian rows C b c ch d k m u s o me di f => exact Sync.dropped (H.jacobian _ _ _ _ _ _ _ _ _ _ _ _ _ _ _)
  | setCorrection r o s k m c => exact H.correction _ _ _ _ _ _
  | setCorrectionFamilies r o s k m c => exact H.correctionFamilies _ _ _ _ _ _
  | latticeCorrection f d a => exact H.latticeCorrection _ _ _
  | diagnosticCorrection c d m o => exact H.diagnosticCorrection _ _ _ _
  | synchEnergy n => exact Sync.seq (H.inj (fun j => { j with nTurns := n }) (fun _ => ⟨rfl, rfl, rfl, fun _ => rfl⟩)) (fun _ => Sync.throw _)
  | synchPhase c n t => exact H.synchPhase _ _ _ _
  | _ => exact absurd hc (by simp [Step.InControlRoom])
end PySC
