import Verif.Lemmas.Instruments
import Verif.Lemmas.Beam
import Mathlib.Tactic.LinearCombination
/-
Machines which differ in their uncertainties and in the records of the alignment have the same instruments.
-/
namespace PySC
set_option linter.unusedSectionVars false
variable {K : Type} [Field K] [LinearOrder K] [FloorRing K]
open Py Spec

namespace Spec.SameButRecords
variable {r r' : Ring K} (h : SameButRecords r r')
include h

theorem getA (i : Nat) {a : String} (ha : a ∉ alignmentNames) : r.getA i a = r'.getA i a := Ring.getA_congr h.length (h.attr i a ha)
theorem hasA (i : Nat) {a : String} (ha : a ∉ alignmentNames) : r.hasA i a = r'.hasA i a := Ring.hasA_congr h.length (h.attr i a ha)
theorem getNum (i : Nat) {a : String} (ha : a ∉ alignmentNames) : r.getNum i a = r'.getNum i a := by unfold Ring.getNum; rw [h.getA i ha]
theorem getVec (i : Nat) {a : String} (ha : a ∉ alignmentNames) : r.getVec i a = r'.getVec i a := by unfold Ring.getVec; rw [h.getA i ha]
theorem getVecAt (i : Nat) {a : String} (ha : a ∉ alignmentNames) (k : Nat) : r.getVecAt i a k = r'.getVecAt i a k := by
  unfold Ring.getVecAt; rw [h.getVec i ha]
theorem getStr (i : Nat) {a : String} (ha : a ∉ alignmentNames) : r.getStr i a = r'.getStr i a := by unfold Ring.getStr; rw [h.getA i ha]
theorem getPair (i : Nat) {a : String} (ha : a ∉ alignmentNames) : r.getPair i a = r'.getPair i a := by unfold Ring.getPair; rw [h.getVec i ha]

theorem view : RingView r r' := ⟨h.length, fun i a ha => h.attr i a (by revert a; decide), fun i => by rw [h.attr i "Frequency" (by decide)]⟩

theorem setAttr (i : Nat) (a : String) (v : Attr K) : SameButRecords (r.setAttr i a v) (r'.setAttr i a v) where
  length := by simp [h.length]
  attr := fun j b hb => by
    rw [Ring.attr_setAttr, Ring.attr_setAttr, h.attr j b hb, h.length]

theorem newCM (sk : Bool) (m : String) (b : Bool) (i : Nat) (x : K) : PySC.newCM r sk m b i x = PySC.newCM r' sk m b i x := by
  have h1 : r.getVec i ("SetPoint" ++ letter sk) = r'.getVec i ("SetPoint" ++ letter sk) := h.getVec i (by cases sk <;> decide)
  unfold PySC.newCM clipCM
  rw [h.view.normBy, h1, h.hasA i (a := "CMlimit") (by decide), h.getA i (a := "CMlimit") (by decide)]

theorem polynoms (i : Nat) : PySC.polynoms r i = PySC.polynoms r' i := by
  unfold PySC.polynoms
  rw [h.getVec i (a := "SetPointA") (by decide), h.getVec i (a := "SetPointB") (by decide), h.getA i (a := "CalErrorA") (by decide),
    h.getA i (a := "CalErrorB") (by decide)]

theorem addSystematic (i : Nat) (p : List K × List K) {a b : String} (ha : a = "A" ∨ a = "B") (hb : b = "A" ∨ b = "B") (v : List K) :
    PySC.addSystematic r i p a b v = PySC.addSystematic r' i p a b v := by
  have hn : ("SysPol" ++ a ++ "From" ++ b) ∉ alignmentNames := by rcases ha with rfl | rfl <;> rcases hb with rfl | rfl <;> decide
  unfold PySC.addSystematic
  rw [h.hasA i hn, h.getA i hn]

theorem newPolynom (i : Nat) (p : List K × List K) {a : String} (ha : a = "A" ∨ a = "B") : PySC.newPolynom r i p a = PySC.newPolynom r' i p a := by
  have hn : ("Polynom" ++ a ++ "Offset") ∉ alignmentNames := by rcases ha with rfl | rfl <;> decide
  unfold PySC.newPolynom
  rw [h.hasA i hn, h.getA i hn]
  simp only [h.addSystematic i p ha (Or.inl rfl), h.addSystematic i p ha (Or.inr rfl)]

theorem bendingErrorTerm (i j : Nat) : PySC.bendingErrorTerm r i j = PySC.bendingErrorTerm r' i j := by
  unfold PySC.bendingErrorTerm
  rw [h.hasA i (a := "BendingAngleError") (by decide), h.getNum i (a := "BendingAngleError") (by decide),
    h.getNum j (a := "BendingAngle") (by decide), h.getNum j (a := "Length") (by decide)]

theorem combinedFunctionTerm (i j : Nat) : PySC.combinedFunctionTerm r i j = PySC.combinedFunctionTerm r' i j := by
  unfold PySC.combinedFunctionTerm isCombinedFunction
  rw [h.hasA i (a := "BendingAngle") (by decide), h.hasA i (a := "CombinedFunction") (by decide), h.getA i (a := "CombinedFunction") (by decide),
    h.getVecAt i (a := "SetPointB") (by decide), h.getVecAt i (a := "CalErrorB") (by decide), h.getVecAt i (a := "NomPolynomB") (by decide),
    h.getNum j (a := "BendingAngle") (by decide), h.getNum j (a := "Length") (by decide)]

theorem kickAngle (i : Nat) : PySC.kickAngle r i = PySC.kickAngle r' i := by
  unfold PySC.kickAngle
  rw [h.getVecAt i (a := "PolynomB") (by decide), h.getVecAt i (a := "PolynomA") (by decide)]

theorem childrenOf (i : Nat) : PySC.childrenOf r i = PySC.childrenOf r' i := by
  unfold PySC.childrenOf
  rw [h.hasA i (a := "MasterOf") (by decide), h.getA i (a := "MasterOf") (by decide)]

theorem bendingAngleOr0 (i : Nat) : PySC.bendingAngleOr0 r i = PySC.bendingAngleOr0 r' i := by
  unfold PySC.bendingAngleOr0
  rw [h.hasA i (a := "BendingAngle") (by decide), h.getNum i (a := "BendingAngle") (by decide)]

theorem compensatingKick (i : Nat) (x : K) : PySC.compensatingKick r i x = PySC.compensatingKick r' i x := by
  unfold PySC.compensatingKick
  rw [h.getVecAt i (a := "SetPointB") (by decide), h.getVecAt i (a := "NomPolynomB") (by decide), h.getNum i (a := "BendingAngle") (by decide)]

theorem clipSkew (i : Nat) (sk : Bool) (k : Nat) (b : Bool) (x : K) : PySC.clipSkew r i sk k b x = PySC.clipSkew r' i sk k b x := by
  unfold PySC.clipSkew
  rw [h.hasA i (a := "SkewQuadLimit") (by decide), h.getA i (a := "SkewQuadLimit") (by decide)]

theorem newSetpoint (sk : Bool) (k i : Nat) (x : K) : PySC.newSetpoint r sk k i x = PySC.newSetpoint r' sk k i x := by
  unfold PySC.newSetpoint
  rw [h.getVec i (a := "SetPoint" ++ letter sk) (by cases sk <;> decide)]

theorem fieldValues (l : List Nat) {a : String} (ha : a ∉ alignmentNames) (k : Nat) : PySC.fieldValues r l a k = PySC.fieldValues r' l a k := by
  unfold PySC.fieldValues
  simp only [h.getVecAt _ ha k]

theorem magnetRequest (l : List Nat) (sp : NpArr K) (sk : Bool) (k : Nat) (m : String) :
    PySC.magnetRequest r l sp sk k m = PySC.magnetRequest r' l sp sk k m := by
  unfold PySC.magnetRequest
  rw [h.fieldValues l (a := "NomPolynom" ++ letter sk) (by cases sk <;> decide), h.fieldValues l (a := "SetPoint" ++ letter sk) (by cases sk <;> decide)]
end Spec.SameButRecords

theorem setPoint_not_record (p : String) : p ++ "SetPoint" ∉ alignmentNames := by
  intro h
  have hl : (p ++ "SetPoint").toList.reverse.take 3 = ['t', 'n', 'i'] := by simp [String.toList_append]
  have key : ∀ q ∈ alignmentNames, q.toList.reverse.take 3 ≠ ['t', 'n', 'i'] := by decide
  exact key _ h hl

theorem Spec.SameButRecords.cavityRequest {r r' : Ring K} (h : SameButRecords r r') (l : List Nat) (sp : NpArr K) (p m : String) :
    PySC.cavityRequest r l sp p m = PySC.cavityRequest r' l sp p m := by
  have e : (fun o => r.getNum o (p ++ "SetPoint")) = (fun o => r'.getNum o (p ++ "SetPoint")) := funext (fun o => h.getNum o (setPoint_not_record p))
  unfold PySC.cavityRequest
  rw [e]

theorem Spec.SameButRecords.cavityField {r r' : Ring K} (h : SameButRecords r r') (i : Nat) {f : String} (hf : f ∈ rfProperties) :
    PySC.cavityField r i f = PySC.cavityField r' i f := by
  have hc : f ++ "CalError" ∉ alignmentNames ∧ f ++ "Offset" ∉ alignmentNames := by revert f; decide
  unfold PySC.cavityField
  rw [h.getNum i (setPoint_not_record f), h.getNum i hc.1, h.getNum i hc.2]

/-! ### Assignments -/

theorem Spec.SameTotal.setAttr {r r' : Ring K} {i j : Nat} (h : SameTotal r r' j) {a : String} (ha : a ∉ alignmentNames) (v : Attr K) :
    SameTotal (r.setAttr i a v) (r'.setAttr i a v) j := by
  have hn : ∀ b ∈ alignmentNames, (r.setAttr i a v).attr j b = r.attr j b ∧ (r'.setAttr i a v).attr j b = r'.attr j b := fun b hb => by
    have : b ≠ a := fun e => ha (e ▸ hb)
    simp [Ring.attr_setAttr, this]
  have h1 := hn "Offset" (by decide)
  have h2 := hn "SupportOffset" (by decide)
  have h3 := hn "Roll" (by decide)
  have h4 := hn "SupportRoll" (by decide)
  constructor
  · rw [h1.1, h1.2, h2.1, h2.2]; exact h.offset
  · rw [h3.1, h3.2, h4.1, h4.2]; exact h.roll

theorem Spec.Indistinct.setRing {s t : SC K} (h : Indistinct s t) {a : String} (ha : a ∉ alignmentNames) (i : Nat) (v : Attr K) :
    Indistinct { s with RING := s.RING.setAttr i a v } { t with RING := t.RING.setAttr i a v } :=
  ⟨h.ords, h.injection, h.design, h.rng, h.ring.setAttr i a v, fun j => (h.total j).setAttr ha v⟩

theorem setAttr_run (i : Nat) (a : String) (v : Attr K) (s : SC K) :
    setAttr i a v s = if i < s.RING.length then .ok () { s with RING := s.RING.setAttr i a v } else .error .indexError s := by
  by_cases h : i < s.RING.length
  · rw [if_pos h]
    exact setAttr_eq_ok.2 ⟨h, rfl⟩
  · rw [if_neg h]
    have e : s.RING.getE i = .error .indexError := by unfold Ring.getE; simp [h]
    unfold PySC.setAttr
    rw [bind_apply]
    have : rd (fun r : Ring K => r.getE i) s = .error .indexError s := by unfold PySC.rd; simp only [e]
    rw [this]

theorem setAttr_sync {a : String} (ha : a ∉ alignmentNames) (i : Nat) (v : Attr K) :
    Sync (Indistinct (K := K)) Eq (setAttr i a v) (setAttr i a v) := by
  intro s t h
  rw [setAttr_run, setAttr_run, h.ring.length]
  by_cases hi : i < t.RING.length
  · rw [if_pos hi, if_pos hi]; exact Or.inl ⟨(), (), _, _, rfl, rfl, rfl, h.setRing ha i v⟩
  · rw [if_neg hi, if_neg hi]; exact Or.inr ⟨_, _, _, rfl, rfl, h⟩

theorem rd_sync {α : Type} {f f' : Ring K → Except Err α} (h : ∀ r r', SameButRecords r r' → f r = f' r') :
    Sync (Indistinct (K := K)) Eq (rd f) (rd f') := Sync.rd (fun _ _ hr => h _ _ hr.ring)

/-! ### Set-points -/

theorem addTerm_sync (i : Nat) (x : Option K) : Sync (Indistinct (K := K)) Eq (addTerm i x) (addTerm i x) := by
  cases x with
  | none => exact Sync.pure rfl
  | some x => exact Sync.seq (rd_sync (fun r r' h => h.getVec i (by decide))) (fun _ => Sync.seq (Sync.lift _) (fun _ => setAttr_sync (by decide) _ _))

theorem updateMagnet_sync (i j : Nat) : Sync (Indistinct (K := K)) Eq (updateMagnet i j) (updateMagnet i j) :=
  Sync.seq (rd_sync (fun r r' h => h.polynoms i)) (fun p => Sync.seq (Sync.forEach (fun a ha => by
      have ha : a = "A" ∨ a = "B" := by simpa using ha
      exact Sync.seq (rd_sync (fun r r' h => h.newPolynom j p ha)) (fun v => setAttr_sync (by rcases ha with rfl | rfl <;> decide) _ _)))
    (fun _ => Sync.seq (rd_sync (fun r r' h => h.bendingErrorTerm i j)) (fun x => Sync.seq (addTerm_sync j x) (fun _ =>
      Sync.seq (rd_sync (fun r r' h => h.combinedFunctionTerm i j)) (fun y => Sync.seq (addTerm_sync j y) (fun _ =>
      Sync.seq (rd_sync (fun r r' h => h.getStr i (by decide))) (fun pass => Sync.seq (Sync.when (Sync.seq (rd_sync (fun r r' h => h.kickAngle j)) (fun _ =>
        setAttr_sync (by decide) _ _))) (fun _ => Sync.seq (rd_sync (fun r r' h => h.getVec j (by decide))) (fun _ => setAttr_sync (by decide) _ _)))))))))

theorem updateMagnets_sync (l : Option (List Nat)) : Sync (Indistinct (K := K)) Eq (updateMagnets l) (updateMagnets l) := by
  unfold updateMagnets
  refine Sync.bind Sync.get (fun s t h => ?_)
  rw [h.ords]
  exact Sync.forEach (fun i _ => Sync.seq (updateMagnet_sync i i) (fun _ => Sync.seq (rd_sync (fun r r' h => h.childrenOf i)) (fun ch =>
    Sync.forEach (fun j _ => updateMagnet_sync i j))))

theorem setPoint_name (sk : Bool) : "SetPoint" ++ letter sk ∉ alignmentNames := by cases sk <;> decide

theorem setCM_sync (l : List Nat) (sp : NpArr K) (sk : Bool) (m : String) :
    Sync (Indistinct (K := K)) Eq (setCMSetpoints l sp sk m) (setCMSetpoints l sp sk m) :=
  Sync.seq (Sync.lift _) (fun _ => Sync.seq (Sync.forEach (fun p _ => Sync.seq (rd_sync (fun r r' h => h.newCM _ _ _ _ _)) (fun _ =>
    setAttr_sync (setPoint_name sk) _ _))) (fun _ => updateMagnets_sync _))

theorem dipoleCompensation_sync (i : Nat) (x : K) : Sync (Indistinct (K := K)) Eq (dipoleCompensation i x) (dipoleCompensation i x) := by
  unfold dipoleCompensation
  refine Sync.seq (rd_sync (fun r r' h => h.bendingAngleOr0 i)) (fun ba => Sync.bind Sync.get (fun s t h => ?_))
  rw [h.ords]
  exact Sync.when (Sync.seq (rd_sync (fun r r' h => h.compensatingKick i x)) (fun _ => setCM_sync _ _ _ _))

theorem setMagnet_sync (l : List Nat) (sp : NpArr K) (sk : Bool) (k : Nat) (m : String) (d : Bool) :
    Sync (Indistinct (K := K)) Eq (setMagnetSetpoints l sp sk k m d) (setMagnetSetpoints l sp sk k m d) :=
  Sync.seq (rd_sync (fun r r' h => h.magnetRequest _ _ _ _ _)) (fun _ => Sync.seq (Sync.forEach (fun p _ =>
    Sync.seq (rd_sync (fun r r' h => h.clipSkew _ _ _ _ _)) (fun _ => Sync.seq (Sync.when (dipoleCompensation_sync _ _)) (fun _ =>
      Sync.seq (rd_sync (fun r r' h => h.newSetpoint _ _ _ _)) (fun _ => setAttr_sync (setPoint_name sk) _ _))))) (fun _ => updateMagnets_sync _))

theorem setCavity_sync (l : List Nat) (sp : NpArr K) (p m : String) :
    Sync (Indistinct (K := K)) Eq (setCavitySetpoints l sp p m) (setCavitySetpoints l sp p m) := by
  unfold setCavitySetpoints
  refine Sync.seq (rd_sync (fun r r' h => h.cavityRequest _ _ _ _)) (fun _ => Sync.seq (Sync.forEach (fun q _ => setAttr_sync (setPoint_not_record p) _ _))
    (fun _ => ?_))
  unfold updateCavities
  refine Sync.bind Sync.get (fun s t h => ?_)
  exact Sync.forEach (fun i _ => Sync.forEach (fun f hf => Sync.seq (rd_sync (fun r r' h => h.cavityField i hf)) (fun _ =>
    setAttr_sync (by revert f; decide) _ _)))

/-! ### Readings -/

theorem randnc_sync (E : Env K) (c : K) (n : Nat) : Sync (Indistinct (K := K)) Eq (randnc E c n) (randnc E c n) := by
  intro s t h
  unfold randnc
  rw [h.rng]
  cases randncFrom E c n t.rng with
  | ok l => exact Or.inl ⟨_, _, _, _, rfl, rfl, rfl, ⟨h.ords, h.injection, h.design, rfl, h.ring, h.total⟩⟩
  | error e => exact Or.inr ⟨_, _, _, rfl, rfl, h⟩

theorem bunches_sync (E : Env K) (B : BeamEnv K) (n : Option Nat) : Sync (Indistinct (K := K)) Eq (generateBunches E B n) (generateBunches E B n) := by
  unfold generateBunches
  refine Sync.bind Sync.get (fun s t h => ?_)
  rw [h.injection]
  exact Sync.seq (randnc_sync _ _ _) (fun _ => Sync.seq (Sync.lift _) (fun _ => Sync.seq (Sync.lift _) (fun _ => Sync.ite (Sync.pure rfl)
    (Sync.seq (Sync.lift _) (fun _ => Sync.seq (randnc_sync _ _ _) (fun _ => Sync.seq (Sync.lift _) (fun _ => Sync.pure rfl)))))))

theorem transmission_sync (E : Env K) {B : BeamEnv K} (hB : IgnoresRecords B) (n m : Option Nat) :
    Sync (Indistinct (K := K)) Eq (beamTransmission E B n m) (beamTransmission E B n m) := by
  unfold beamTransmission
  refine Sync.bind Sync.get (fun s t h => ?_)
  rw [h.injection, (hB _ _ h.ring).1, h.ring.length]
  exact Sync.seq (bunches_sync _ _ _) (fun _ => Sync.ite (Sync.throw _) (Sync.ite (Sync.throw _) (Sync.pure rfl)))

theorem tracking_sync (E : Env K) {B : BeamEnv K} (hB : IgnoresRecords B) (l : List Nat) :
    Sync (Indistinct (K := K)) Eq (tracking E B l) (tracking E B l) := by
  unfold tracking
  refine Sync.bind Sync.get (fun s t h => ?_)
  rw [h.injection, (hB _ _ h.ring).1, (hB _ _ h.ring).2]
  exact Sync.ite (Sync.pure rfl) (Sync.seq (bunches_sync _ _ _) (fun _ => Sync.pure rfl))

/-- the errors of a BPM as they act on its readings -/
def bpmErrOf (r : Ring K) (i : Nat) (n : K × K) : Except Err (BpmErr K) := do
    let o ← r.getPair i "Offset"
    let so ← r.getPair i "SupportOffset"
    let c ← r.getPair i "CalError"
    let ro ← r.getNum i "Roll"
    let sr ← r.getNum i "SupportRoll"
    let su ← r.getNum i "SumError"
    .ok { noise := n, offset := (o.1 + so.1, o.2 + so.2), cal := c, roll := ro + sr, sum := su : BpmErr K }

theorem getPair_of_congr {r r' : Ring K} (hl : r.length = r'.length) {i : Nat} {a : String} (h : r.attr i a = r'.attr i a) : r.getPair i a = r'.getPair i a := by
  unfold Ring.getPair Ring.getVec; rw [Ring.getA_congr hl h]
theorem getNum_of_congr {r r' : Ring K} (hl : r.length = r'.length) {i : Nat} {a : String} (h : r.attr i a = r'.attr i a) : r.getNum i a = r'.getNum i a := by
  unfold Ring.getNum; rw [Ring.getA_congr hl h]

theorem bpmErrOf_same {r r' : Ring K} (h : SameButRecords r r') {i : Nat} (ht : SameTotal r r' i) (n : K × K) : bpmErrOf r i n = bpmErrOf r' i n := by
  have hc := h.getPair i (a := "CalError") (by decide)
  have hs := h.getNum i (a := "SumError") (by decide)
  have ho : ∀ (β : Type) (g : K × K → Except Err β), (do let o ← r.getPair i "Offset"; let so ← r.getPair i "SupportOffset"; g (o.1 + so.1, o.2 + so.2)) =
      (do let o ← r'.getPair i "Offset"; let so ← r'.getPair i "SupportOffset"; g (o.1 + so.1, o.2 + so.2)) := by
    intro β g
    rcases ht.offset with ⟨h1, h2⟩ | ⟨x, y, sx, sy, x', y', sx', sy', h1, h2, h3, h4, e1, e2⟩
    · rw [getPair_of_congr h.length h1, getPair_of_congr h.length h2]
    · rw [Ring.getPair_eq_ok (p := (x, y)) |>.2 h1, Ring.getPair_eq_ok (p := (sx, sy)) |>.2 h2, Ring.getPair_eq_ok (p := (x', y')) |>.2 h3,
        Ring.getPair_eq_ok (p := (sx', sy')) |>.2 h4]
      show g (x + sx, y + sy) = g (x' + sx', y' + sy')
      rw [e1, e2]
  have hr : ∀ (β : Type) (g : K → Except Err β), (do let o ← r.getNum i "Roll"; let so ← r.getNum i "SupportRoll"; g (o + so)) =
      (do let o ← r'.getNum i "Roll"; let so ← r'.getNum i "SupportRoll"; g (o + so)) := by
    intro β g
    rcases ht.roll with ⟨h1, h2⟩ | ⟨a, b, a', b', h1, h2, h3, h4, e1⟩
    · rw [getNum_of_congr h.length h1, getNum_of_congr h.length h2]
    · rw [Ring.getNum_eq_ok.2 h1, Ring.getNum_eq_ok.2 h2, Ring.getNum_eq_ok.2 h3, Ring.getNum_eq_ok.2 h4]
      show g (a + b) = g (a' + b')
      rw [e1]
  unfold bpmErrOf
  rw [hc, hs]
  refine (ho _ (fun o => do
    let c ← r'.getPair i "CalError"
    let ro ← r.getNum i "Roll"
    let sr ← r.getNum i "SupportRoll"
    let su ← r'.getNum i "SumError"
    .ok { noise := n, offset := o, cal := c, roll := ro + sr, sum := su : BpmErr K })).trans ?_
  congr 1; funext o; congr 1; funext so; dsimp only; congr 1; funext c
  exact hr _ (fun ro => do
    let su ← r'.getNum i "SumError"
    .ok { noise := n, offset := (o.1 + so.1, o.2 + so.2), cal := c, roll := ro, sum := su : BpmErr K })

theorem realReading_sync (E : Env K) (B : BeamEnv K) (l : List Nat) (nt : Nat) (trk : Nat → Nat → List (Option K × Option K)) :
    Sync (Indistinct (K := K)) Eq (realBpmReading E B l nt trk) (realBpmReading E B l nt trk) := by
  unfold realBpmReading
  refine Sync.bind Sync.get (fun s t h => ?_)
  rw [h.injection]
  refine Sync.seq (rd_sync (fun r r' h => ?_)) (fun noise => Sync.seq (randnc_sync _ _ _) (fun _ => Sync.seq (Sync.rd (fun s t h => ?_)) (fun _ =>
    Sync.seq (randnc_sync _ _ _) (fun _ => Sync.ite (Sync.throw _) (Sync.pure rfl)))))
  · congr 1; funext i; exact h.getPair i (by split <;> decide)
  · congr 1; funext p; exact bpmErrOf_same h.ring (h.total p.1) p.2

theorem bpmReading_sync (E : Env K) {B : BeamEnv K} (hB : IgnoresRecords B) (b : Option (List Nat)) (c : Bool) :
    Sync (Indistinct (K := K)) Eq (bpmReading E B b c) (bpmReading E B b c) := by
  unfold bpmReading
  refine Sync.bind Sync.get (fun s t h => ?_)
  rw [h.injection, h.ords]
  exact Sync.seq (Sync.lift _) (fun _ => Sync.seq (Sync.mapEach (fun _ _ => Sync.seq (tracking_sync E hB _) (fun _ =>
    Sync.ite (Sync.seq (realReading_sync _ _ _ _ _) (fun _ => Sync.pure rfl)) (realReading_sync _ _ _ _ _)))) (fun _ =>
    Sync.ite (Sync.throw _) (Sync.ite (Sync.seq (Sync.lift _) (fun _ => Sync.seq (Sync.lift _) (fun _ => Sync.pure rfl)))
      (Sync.ite (Sync.seq (Sync.lift _) (fun _ => Sync.seq (Sync.lift _) (fun _ => Sync.pure rfl))) (Sync.pure rfl)))))

/-! ### Corrections of BPM errors -/

theorem Spec.Indistinct.setRecord {s t : SC K} (h : Indistinct s t) {i : Nat} {a : String} {v v' : Attr K} (ha : a = "Offset" ∨ a = "Roll")
    (ht : SameTotal (s.RING.setAttr i a v) (t.RING.setAttr i a v') i) :
    Indistinct { s with RING := s.RING.setAttr i a v } { t with RING := t.RING.setAttr i a v' } := by
  refine ⟨h.ords, h.injection, h.design, h.rng, ⟨by simp [h.ring.length], fun j b hb => ?_⟩, fun j => ?_⟩
  · have : b ≠ a := fun e => hb (by rw [e]; rcases ha with rfl | rfl <;> decide)
    simp [Ring.attr_setAttr, this, h.ring.attr j b hb]
  · by_cases hj : j = i
    · subst hj; exact ht
    · have hn : ∀ b, (s.RING.setAttr i a v).attr j b = s.RING.attr j b ∧ (t.RING.setAttr i a v').attr j b = t.RING.attr j b := fun b => by
        simp [Ring.attr_setAttr, hj]
      have hh := h.total j
      constructor
      · simp only [(hn _).1, (hn _).2]; exact hh.offset
      · simp only [(hn _).1, (hn _).2]; exact hh.roll

theorem setRecord_sync {i : Nat} {a : String} {v v' : Attr K} (ha : a = "Offset" ∨ a = "Roll") {s t : SC K} (h : Indistinct s t)
    (ht : i < s.RING.length → SameTotal (s.RING.setAttr i a v) (t.RING.setAttr i a v') i) :
    (∃ u w s' t', setAttr i a v s = .ok u s' ∧ setAttr i a v' t = .ok w t' ∧ u = w ∧ Indistinct s' t') ∨
      ∃ e s' t', setAttr i a v s = .error e s' ∧ setAttr i a v' t = .error e t' ∧ Indistinct s' t' := by
  rw [setAttr_run, setAttr_run, ← h.ring.length]
  by_cases hi : i < s.RING.length
  · rw [if_pos hi, if_pos hi]; exact Or.inl ⟨(), (), _, _, rfl, rfl, rfl, h.setRecord ha (ht hi)⟩
  · rw [if_neg hi, if_neg hi]; exact Or.inr ⟨_, _, _, rfl, rfl, h⟩

theorem changeOffset_sync (i p : Nat) (d : K) :
    Sync (Indistinct (K := K)) Eq (changeOffset i p (fun x => x + d)) (changeOffset i p (fun x => x + d)) := by
  intro s t h
  have hset : ∀ (r : Ring K) (v : List K) (b : String), i < r.length → (r.setAttr i "Offset" (.vec v)).attr i b =
      if b = "Offset" then some (.vec v) else r.attr i b := fun r v b hi => by
    by_cases hb : b = "Offset" <;> simp [Ring.attr_setAttr, hb, hi]
  rcases (h.total i).offset with ⟨h1, h2⟩ | ⟨x, y, sx, sy, x', y', sx', sy', h1, h2, h3, h4, e1, e2⟩
  · unfold changeOffset
    have hg : s.RING.getVec i "Offset" = t.RING.getVec i "Offset" := by unfold Ring.getVec; rw [Ring.getA_congr h.ring.length h1]
    cases hv : t.RING.getVec i "Offset" with
    | error e =>
      rw [bind_apply, bind_apply]
      have : ∀ u : SC K, u.RING.getVec i "Offset" = .error e → rd (fun r => r.getVec i "Offset") u = .error e u := fun u hu => by unfold rd; simp only [hu]
      rw [this s (hg.trans hv), this t hv]
      exact Or.inr ⟨_, _, _, rfl, rfl, h⟩
    | ok v =>
      rw [bind_apply, bind_apply]
      have : ∀ u : SC K, u.RING.getVec i "Offset" = .ok v → rd (fun r => r.getVec i "Offset") u = .ok v u := fun u hu => by unfold rd; simp only [hu]
      rw [this s (hg.trans hv), this t hv]
      dsimp only
      rw [bind_apply, bind_apply]
      cases idx v p with
      | error e => exact Or.inr ⟨_, _, _, rfl, rfl, h⟩
      | ok x =>
        refine setRecord_sync (Or.inl rfl) h (fun hi => ⟨Or.inl ?_, ?_⟩)
        · rw [hset _ _ _ hi, hset _ _ _ (h.ring.length ▸ hi), hset _ _ _ hi, hset _ _ _ (h.ring.length ▸ hi)]
          simp [h2]
        · simp only [hset _ _ _ hi, hset _ _ _ (h.ring.length ▸ hi)]
          exact (h.total i).roll
  · unfold changeOffset
    rw [bind_apply, bind_apply]
    have : ∀ (u : SC K) (v : List K), u.RING.attr i "Offset" = some (.vec v) → rd (fun r => r.getVec i "Offset") u = .ok v u := fun u v hu => by
      unfold rd; simp only [Ring.getVec_eq_ok.2 hu]
    rw [this s _ h1, this t _ h3]
    dsimp only
    rw [bind_apply, bind_apply]
    match p with
    | 0 =>
      refine setRecord_sync (Or.inl rfl) h (fun hi => ⟨Or.inr ⟨x + d, y, sx, sy, x' + d, y', sx', sy', ?_⟩, ?_⟩)
      · simp only [hset _ _ _ hi, hset _ _ _ (h.ring.length ▸ hi)]
        exact ⟨rfl, h2, rfl, h4, by linear_combination e1, e2⟩
      · simp only [hset _ _ _ hi, hset _ _ _ (h.ring.length ▸ hi)]
        exact (h.total i).roll
    | 1 =>
      refine setRecord_sync (Or.inl rfl) h (fun hi => ⟨Or.inr ⟨x, y + d, sx, sy, x', y' + d, sx', sy', ?_⟩, ?_⟩)
      · simp only [hset _ _ _ hi, hset _ _ _ (h.ring.length ▸ hi)]
        exact ⟨rfl, h2, rfl, h4, e1, by linear_combination e2⟩
      · simp only [hset _ _ _ hi, hset _ _ _ (h.ring.length ▸ hi)]
        exact (h.total i).roll
    | p + 2 => exact Or.inr ⟨_, _, _, rfl, rfl, h⟩

theorem changeRoll_sync (i : Nat) (d : K) : Sync (Indistinct (K := K)) Eq (changeRoll i d) (changeRoll i d) := by
  intro s t h
  have hset : ∀ (r : Ring K) (v : K) (b : String), i < r.length → (r.setAttr i "Roll" (.num v)).attr i b =
      if b = "Roll" then some (.num v) else r.attr i b := fun r v b hi => by
    by_cases hb : b = "Roll" <;> simp [Ring.attr_setAttr, hb, hi]
  rcases (h.total i).roll with ⟨h1, h2⟩ | ⟨a, b, a', b', h1, h2, h3, h4, e1⟩
  · unfold changeRoll
    have hg : s.RING.getNum i "Roll" = t.RING.getNum i "Roll" := getNum_of_congr h.ring.length h1
    cases hv : t.RING.getNum i "Roll" with
    | error e =>
      rw [bind_apply, bind_apply]
      have : ∀ u : SC K, u.RING.getNum i "Roll" = .error e → rd (fun r => r.getNum i "Roll") u = .error e u := fun u hu => by unfold rd; simp only [hu]
      rw [this s (hg.trans hv), this t hv]
      exact Or.inr ⟨_, _, _, rfl, rfl, h⟩
    | ok v =>
      rw [bind_apply, bind_apply]
      have : ∀ u : SC K, u.RING.getNum i "Roll" = .ok v → rd (fun r => r.getNum i "Roll") u = .ok v u := fun u hu => by unfold rd; simp only [hu]
      rw [this s (hg.trans hv), this t hv]
      refine setRecord_sync (Or.inr rfl) h (fun hi => ⟨?_, Or.inl ?_⟩)
      · simp only [hset _ _ _ hi, hset _ _ _ (h.ring.length ▸ hi)]
        exact (h.total i).offset
      · rw [hset _ _ _ hi, hset _ _ _ (h.ring.length ▸ hi), hset _ _ _ hi, hset _ _ _ (h.ring.length ▸ hi)]
        simp [h2]
  · unfold changeRoll
    rw [bind_apply, bind_apply]
    have : ∀ (u : SC K) (v : K), u.RING.attr i "Roll" = some (.num v) → rd (fun r => r.getNum i "Roll") u = .ok v u := fun u v hu => by
      unfold rd; simp only [Ring.getNum_eq_ok.2 hu]
    rw [this s _ h1, this t _ h3]
    refine setRecord_sync (Or.inr rfl) h (fun hi => ⟨?_, Or.inr ⟨a - d, b, a' - d, b', ?_⟩⟩)
    · simp only [hset _ _ _ hi, hset _ _ _ (h.ring.length ▸ hi)]
      exact (h.total i).offset
    · simp only [hset _ _ _ hi, hset _ _ _ (h.ring.length ▸ hi)]
      exact ⟨rfl, h2, rfl, h4, by linear_combination e1⟩

theorem addCalError_sync (i p : Nat) (d : K) : Sync (Indistinct (K := K)) Eq (addCalError i p d) (addCalError i p d) :=
  Sync.seq (rd_sync (fun r r' h => h.getVec i (by decide))) (fun _ => Sync.seq (Sync.lift _) (fun _ => setAttr_sync (by decide) _ _))

theorem indistinct_instruments (E : Env K) {B : BeamEnv K} (hB : IgnoresRecords B) : SameInstruments E B (Indistinct (K := K)) where
  view := fun s t h => ⟨h.ords, (by rw [h.injection]), h.design, h.ring.length, h.ring.view.panel, h.ring.view.cavities⟩
  reading := fun b c => (bpmReading_sync E hB b c).sameRun
  transmission := fun n m => (transmission_sync E hB n m).sameRun
  correctors := fun l sp sk m => (setCM_sync l sp sk m).sameRun
  magnets := fun l sp sk k m d => (setMagnet_sync l sp sk k m d).sameRun
  cavities := fun l sp p m => (setCavity_sync l sp p m).sameRun
  refresh := fun l => (updateMagnets_sync l).sameRun
  injection := fun f _ s t h => ⟨h.ords, congrArg f h.injection, h.design, h.rng, h.ring, h.total⟩
  stored := fun i v a ha => (setAttr_sync (by revert a; decide) i _).sameRun
  bpmOffset := fun i p d => (changeOffset_sync i p d).sameRun
  bpmGain := fun i p d => (addCalError_sync i p d).sameRun
  bpmRoll := fun i d => (changeRoll_sync i d).sameRun
end PySC
