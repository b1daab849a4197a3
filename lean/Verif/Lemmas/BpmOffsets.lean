import Verif.Spec.BpmOffsets
import Verif.Lemmas.Records
import Verif.Lemmas.BpmSubset
/-
Offsets of BPMs shift their readings by constants.
-/
namespace PySC
set_option linter.unusedSectionVars false
variable {K : Type} [Field K] [LinearOrder K] [FloorRing K]
open Py Spec

/-! ### Exceptions side by side -/

/-- both return related values or raise the same exception -/
def Alongside {α β : Type} (V : α → β → Prop) (x : Except Err α) (y : Except Err β) : Prop :=
  (∃ a b, x = .ok a ∧ y = .ok b ∧ V a b) ∨ ∃ e, x = .error e ∧ y = .error e

theorem Alongside.bind {α β γ δ : Type} {V : α → β → Prop} {W : γ → δ → Prop} {x : Except Err α} {y : Except Err β} {f : α → Except Err γ}
    {g : β → Except Err δ} (h : Alongside V x y) (hf : ∀ a b, V a b → Alongside W (f a) (g b)) : Alongside W (x >>= f) (y >>= g) := by
  rcases h with ⟨a, b, rfl, rfl, hv⟩ | ⟨e, rfl, rfl⟩
  · exact hf a b hv
  · exact Or.inr ⟨e, rfl, rfl⟩

theorem Alongside.same {α γ δ : Type} {W : γ → δ → Prop} {x y : Except Err α} (h : x = y) {f : α → Except Err γ} {g : α → Except Err δ}
    (hf : ∀ a, x = .ok a → Alongside W (f a) (g a)) : Alongside W (x >>= f) (y >>= g) := by
  subst h
  cases x with
  | ok a => exact hf a rfl
  | error e => exact Or.inr ⟨e, rfl, rfl⟩

theorem Alongside.mapM {α β γ : Type} {V : γ → α → β → Prop} {f : γ → Except Err α} {g : γ → Except Err β} :
    ∀ {l : List γ}, (∀ p ∈ l, Alongside (V p) (f p) (g p)) →
    Alongside (fun (as : List α) (bs : List β) => ∀ (k : Nat) p, l[k]? = some p → ∃ a b, as[k]? = some a ∧ bs[k]? = some b ∧ V p a b) (l.mapM f) (l.mapM g)
  | [], _ => Or.inl ⟨[], [], rfl, rfl, fun k p h => by simp at h⟩
  | p :: l, h => by
    rw [List.mapM_cons, List.mapM_cons]
    refine Alongside.bind (h p (by simp)) (fun a b hv => Alongside.bind (Alongside.mapM (fun q hq => h q (by simp [hq]))) (fun as bs hl => ?_))
    refine Or.inl ⟨a :: as, b :: bs, rfl, rfl, fun k q hk => ?_⟩
    cases k with
    | zero => simp only [List.getElem?_cons_zero, Option.some.injEq] at hk; subst hk; exact ⟨a, b, rfl, rfl, hv⟩
    | succ k => simp only [List.getElem?_cons_succ] at hk ⊢; exact hl k q hk

theorem Sync.rdBoth {α β : Type} {R : SC K → SC K → Prop} {V : α → β → Prop} {f : Ring K → Except Err α} {f' : Ring K → Except Err β}
    (h : ∀ s t, R s t → Alongside V (f s.RING) (f' t.RING)) : Sync R V (PySC.rd f) (PySC.rd f') := by
  intro s t hr
  unfold PySC.rd
  rcases h s t hr with ⟨a, b, h1, h2, hv⟩ | ⟨e, h1, h2⟩
  · rw [h1, h2]; exact Or.inl ⟨a, b, s, t, rfl, rfl, hv, hr⟩
  · rw [h1, h2]; exact Or.inr ⟨e, s, t, rfl, rfl, hr⟩

theorem Sync.liftBoth {α β σ : Type} {R : σ → σ → Prop} {V : α → β → Prop} {x : Except Err α} {y : Except Err β} (h : Alongside V x y) :
    Sync R V (Py.lift x) (Py.lift y) := by
  intro s t hr
  rcases h with ⟨a, b, rfl, rfl, hv⟩ | ⟨e, rfl, rfl⟩
  · exact Or.inl ⟨a, b, s, t, rfl, rfl, hv, hr⟩
  · exact Or.inr ⟨e, s, t, rfl, rfl, hr⟩

theorem Sync.mapEachBoth {α β γ σ : Type} {R : σ → σ → Prop} {V : β → γ → Prop} {l : List α} {f : α → Py σ β} {f' : α → Py σ γ}
    (hf : ∀ x ∈ l, Sync R V (f x) (f' x)) : Sync R (List.Forall₂ V) (Py.mapEach l f) (Py.mapEach l f') := by
  induction l with
  | nil => exact Sync.pure List.Forall₂.nil
  | cons x l ih => exact Sync.bind (hf x (by simp)) (fun _ _ h => Sync.bind (ih (fun y hy => hf y (by simp [hy]))) (fun _ _ h' => Sync.pure (List.Forall₂.cons h h')))

/-! ### The machines -/

/-- two runs on machines whose BPMs `bp` differ in their offsets, so that they read less by `d`, in `nt` turns -/
structure Displaced (d : Nat → Nat → K) (bp : List Nat) (nt : Nat) (s t : SC K) : Prop where
  offs : SameButOffsets s t
  shift : ∀ i ∈ bp, ∀ k < 2, lessBy s.RING t.RING i k = d i k
  bpm : s.ORD.BPM = bp
  turns : s.INJ.nTurns = nt
  mode : s.INJ.trackMode ≠ "PORB"

/-- data of the BPMs which must stay as they are -/
def bpmNamesOf : List String := alignmentNames ++ ["CalError"]

section
variable {d : Nat → Nat → K} {bp : List Nat} {nt : Nat} {E : Env K} {B : BeamEnv K}

theorem Spec.SameButOffsets.records {s t : SC K} (h : SameButOffsets s t) : SameButRecords s.RING t.RING :=
  ⟨h.length, fun i a ha => h.attr i a (fun e => ha (by rw [e]; decide)) (fun e => ha (by rw [e]; decide))⟩

theorem Displaced.ring {s t : SC K} (h : Displaced d bp nt s t) : SameButRecords s.RING t.RING := h.offs.records
theorem Displaced.injection {s t : SC K} (h : Displaced d bp nt s t) : s.INJ = t.INJ := by conv_rhs => rw [h.offs.same]
theorem Displaced.ords {s t : SC K} (h : Displaced d bp nt s t) : s.ORD = t.ORD := by conv_rhs => rw [h.offs.same]
theorem Displaced.rng {s t : SC K} (h : Displaced d bp nt s t) : s.rng = t.rng := by conv_rhs => rw [h.offs.same]

theorem disp_setAttr {a : String} (ha : a ∉ bpmNamesOf) (i : Nat) (v : Attr K) :
    Sync (Displaced d bp nt) Eq (setAttr i a v) (setAttr i a v) := by
  intro s t h
  rw [setAttr_run, setAttr_run, h.ring.length]
  by_cases hi : i < t.RING.length
  · rw [if_pos hi, if_pos hi]
    have e : ∀ (r : Ring K) j, ∀ b ∈ bpmNamesOf, (r.setAttr i a v).attr j b = r.attr j b := fun r j b hb => by
      have : b ≠ a := fun e => ha (e ▸ hb)
      simp [Ring.attr_setAttr, this]
    refine Or.inl ⟨(), (), _, _, rfl, rfl, rfl, ⟨?_, ?_, ?_, ?_⟩, ?_, h.bpm, h.turns, h.mode⟩
    · show ({ t with RING := _ } : SC K) = _
      conv_lhs => rw [h.offs.same]
    · exact (h.ring.setAttr i a v).length
    · intro j b h1 h2
      show (s.RING.setAttr i a v).attr j b = (t.RING.setAttr i a v).attr j b
      rw [Ring.attr_setAttr, Ring.attr_setAttr, h.offs.attr j b h1 h2, h.ring.length]
    · intro j hj
      have := h.offs.pairs j hj
      unfold IsPair at this ⊢
      rw [e _ _ "Offset" (by decide), e _ _ "SupportOffset" (by decide), e _ _ "Offset" (by decide), e _ _ "SupportOffset" (by decide)]
      exact this
    · intro j hj k hk
      have := h.shift j hj k hk
      unfold lessBy wholeOffset vecAt at this ⊢
      rw [e _ _ "Offset" (by decide), e _ _ "SupportOffset" (by decide), e _ _ "Offset" (by decide), e _ _ "SupportOffset" (by decide),
        e _ _ "CalError" (by decide)]
      exact this
  · rw [if_neg hi, if_neg hi]; exact Or.inr ⟨_, _, _, rfl, rfl, h⟩

theorem disp_rd {α : Type} {f f' : Ring K → Except Err α} (h : ∀ r r', SameButRecords r r' → f r = f' r') :
    Sync (Displaced d bp nt) Eq (rd f) (rd f') := Sync.rd (fun _ _ hr => h _ _ hr.ring)

theorem disp_addTerm (i : Nat) (x : Option K) : Sync (Displaced d bp nt) Eq (addTerm i x) (addTerm i x) := by
  cases x with
  | none => exact Sync.pure rfl
  | some x => exact Sync.seq (disp_rd (fun r r' h => h.getVec i (by decide))) (fun _ => Sync.seq (Sync.lift _) (fun _ => disp_setAttr (by decide) _ _))

theorem disp_updateMagnet (i j : Nat) : Sync (Displaced d bp nt) Eq (updateMagnet i j) (updateMagnet i j) :=
  Sync.seq (disp_rd (fun r r' h => h.polynoms i)) (fun p => Sync.seq (Sync.forEach (fun a ha => by
      have ha : a = "A" ∨ a = "B" := by simpa using ha
      exact Sync.seq (disp_rd (fun r r' h => h.newPolynom j p ha)) (fun v => disp_setAttr (by rcases ha with rfl | rfl <;> decide) _ _)))
    (fun _ => Sync.seq (disp_rd (fun r r' h => h.bendingErrorTerm i j)) (fun x => Sync.seq (disp_addTerm j x) (fun _ =>
      Sync.seq (disp_rd (fun r r' h => h.combinedFunctionTerm i j)) (fun y => Sync.seq (disp_addTerm j y) (fun _ =>
      Sync.seq (disp_rd (fun r r' h => h.getStr i (by decide))) (fun pass => Sync.seq (Sync.when (Sync.seq (disp_rd (fun r r' h => h.kickAngle j)) (fun _ =>
        disp_setAttr (by decide) _ _))) (fun _ => Sync.seq (disp_rd (fun r r' h => h.getVec j (by decide))) (fun _ => disp_setAttr (by decide) _ _)))))))))

theorem disp_updateMagnets (l : Option (List Nat)) : Sync (Displaced d bp nt) Eq (updateMagnets l) (updateMagnets l) := by
  unfold updateMagnets
  refine Sync.bind Sync.get (fun s t h => ?_)
  rw [h.ords]
  exact Sync.forEach (fun i _ => Sync.seq (disp_updateMagnet i i) (fun _ => Sync.seq (disp_rd (fun r r' h => h.childrenOf i)) (fun ch =>
    Sync.forEach (fun j _ => disp_updateMagnet i j))))

theorem setPoint_no_bpm (sk : Bool) : "SetPoint" ++ letter sk ∉ bpmNamesOf := by cases sk <;> decide

theorem disp_setCM (l : List Nat) (sp : NpArr K) (sk : Bool) (m : String) :
    Sync (Displaced d bp nt) Eq (setCMSetpoints l sp sk m) (setCMSetpoints l sp sk m) :=
  Sync.seq (Sync.lift _) (fun _ => Sync.seq (Sync.forEach (fun p _ => Sync.seq (disp_rd (fun r r' h => h.newCM _ _ _ _ _)) (fun _ =>
    disp_setAttr (setPoint_no_bpm sk) _ _))) (fun _ => disp_updateMagnets _))

theorem disp_getCM (o : List Nat) (sk : Bool) : Sync (Displaced d bp nt) Eq (getCMSetpoints o sk) (getCMSetpoints o sk) :=
  disp_rd (fun r r' h => by rw [funext (h.view.getCM sk)])

theorem no_bpm_setPoint (p : String) : p ++ "SetPoint" ∉ bpmNamesOf := by
  intro h
  have hl : (p ++ "SetPoint").toList.reverse.take 3 = ['t', 'n', 'i'] := by simp [String.toList_append]
  have key : ∀ q ∈ bpmNamesOf, q.toList.reverse.take 3 ≠ ['t', 'n', 'i'] := by decide
  exact key _ h hl

theorem disp_setCavity (l : List Nat) (sp : NpArr K) (p m : String) :
    Sync (Displaced d bp nt) Eq (setCavitySetpoints l sp p m) (setCavitySetpoints l sp p m) := by
  unfold setCavitySetpoints
  refine Sync.seq (disp_rd (fun r r' h => h.cavityRequest _ _ _ _)) (fun _ => Sync.seq (Sync.forEach (fun q _ => disp_setAttr (no_bpm_setPoint p) _ _))
    (fun _ => ?_))
  unfold updateCavities
  refine Sync.bind Sync.get (fun s t h => ?_)
  exact Sync.forEach (fun i _ => Sync.forEach (fun f hf => Sync.seq (disp_rd (fun r r' h => h.cavityField i hf)) (fun _ =>
    disp_setAttr (by revert f; decide) _ _)))

/-! ### Readings -/

theorem disp_randnc (c : K) (n : Nat) : Sync (Displaced d bp nt) Eq (randnc E c n) (randnc E c n) := by
  intro s t h
  unfold randnc
  rw [h.rng]
  cases randncFrom E c n t.rng with
  | ok l =>
    refine Or.inl ⟨_, _, _, _, rfl, rfl, rfl, ⟨?_, h.offs.length, h.offs.attr, h.offs.pairs⟩, h.shift, h.bpm, h.turns, h.mode⟩
    show ({ t with rng := _ } : SC K) = _
    conv_lhs => rw [h.offs.same]
  | error e => exact Or.inr ⟨_, _, _, rfl, rfl, h⟩

theorem disp_bunches (n : Option Nat) : Sync (Displaced d bp nt) Eq (generateBunches E B n) (generateBunches E B n) := by
  unfold generateBunches
  refine Sync.bind Sync.get (fun s t h => ?_)
  rw [h.injection]
  exact Sync.seq (disp_randnc _ _) (fun _ => Sync.seq (Sync.lift _) (fun _ => Sync.seq (Sync.lift _) (fun _ => Sync.ite (Sync.pure rfl)
    (Sync.seq (Sync.lift _) (fun _ => Sync.seq (disp_randnc _ _) (fun _ => Sync.seq (Sync.lift _) (fun _ => Sync.pure rfl)))))))

theorem disp_tracking (hB : IgnoresRecords B) (l : List Nat) : Sync (Displaced d bp nt) Eq (tracking E B l) (tracking E B l) := by
  unfold tracking
  refine Sync.bind Sync.get (fun s t h => ?_)
  rw [h.injection, (hB _ _ h.ring).1, (hB _ _ h.ring).2]
  exact Sync.ite (Sync.pure rfl) (Sync.seq (disp_bunches _) (fun _ => Sync.pure rfl))

/-- the errors of a BPM differ in the offset -/
def ErrLess (d : Nat → K) (e e' : BpmErr K) : Prop :=
  e'.noise = e.noise ∧ e'.cal = e.cal ∧ e'.roll = e.roll ∧ e'.sum = e.sum ∧ (e'.offset.1 - e.offset.1) * (1 + e.cal.1) = d 0 ∧
    (e'.offset.2 - e.offset.2) * (1 + e.cal.2) = d 1

theorem disp_bpmErr {s t : SC K} (h : Displaced d bp nt s t) {i : Nat} (hi : i ∈ bp) (n : K × K) :
    Alongside (ErrLess (d i)) (bpmErrOf s.RING i n) (bpmErrOf t.RING i n) := by
  obtain ⟨⟨x, y, h1⟩, ⟨sx, sy, h2⟩, ⟨x', y', h3⟩, ⟨sx', sy', h4⟩⟩ := h.offs.pairs i (by rw [h.bpm]; exact hi)
  have f0 := h.shift i hi 0 (by omega)
  have f1 := h.shift i hi 1 (by omega)
  unfold bpmErrOf
  rw [Ring.getPair_eq_ok (p := (x, y)) |>.2 h1, Ring.getPair_eq_ok (p := (sx, sy)) |>.2 h2, Ring.getPair_eq_ok (p := (x', y')) |>.2 h3,
    Ring.getPair_eq_ok (p := (sx', sy')) |>.2 h4]
  refine Alongside.same (f := fun c => _) (g := fun c => _) (getPair_of_congr h.ring.length (h.offs.attr i "CalError" (by decide) (by decide))) (fun c hc => ?_)
  refine Alongside.same (getNum_of_congr h.ring.length (h.offs.attr i "Roll" (by decide) (by decide))) (fun ro _ => ?_)
  refine Alongside.same (getNum_of_congr h.ring.length (h.offs.attr i "SupportRoll" (by decide) (by decide))) (fun sr _ => ?_)
  refine Alongside.same (getNum_of_congr h.ring.length (h.offs.attr i "SumError" (by decide) (by decide))) (fun su _ => ?_)
  rw [Ring.getPair_eq_ok] at hc
  simp only [lessBy, wholeOffset, vecAt, h1, h2, h3, h4, hc, coef, List.getD_cons_zero, List.getD_cons_succ] at f0 f1
  exact Or.inl ⟨_, _, rfl, rfl, rfl, rfl, rfl, rfl, f0, f1⟩

/-- the reading of one shot differs by a constant -/
def CellLess (d : Nat → K) (c c' : Cell K) : Prop :=
  c'.sum = c.sum ∧ c'.x = c.x.map (fun x => x - d 0) ∧ c'.y = c.y.map (fun y => y - d 1)

theorem cellInfinite_less {δ : Nat → K} {e e' : BpmErr K} (h : ErrLess δ e e') (P : List (Option K × Option K)) (z : K) :
    cellInfinite e' P z = cellInfinite e P z := by
  unfold cellInfinite transmission
  rw [h.2.2.2.1]

theorem realReading1_less {δ : Nat → K} {lost : K} {e e' : BpmErr K} (h : ErrLess δ e e') (P : List (Option K × Option K)) (zx zy zs : K) :
    CellLess δ (realReading1 B lost e P zx zy zs) (realReading1 B lost e' P zx zy zs) := by
  obtain ⟨h1, h2, h3, h4, h5, h6⟩ := h
  have ht : transmission e' P zs = transmission e P zs := by unfold transmission; rw [h4]
  unfold realReading1
  rw [ht, h1, h2, h3]
  split
  · exact ⟨rfl, rfl, rfl⟩
  · split
    · refine ⟨rfl, ?_, ?_⟩
      · simp only [Option.map_some, Option.some.injEq]
        linear_combination (-1 : K) * h5
      · simp only [Option.map_some, Option.some.injEq]
        linear_combination (-1 : K) * h6
    · exact ⟨rfl, rfl, rfl⟩

theorem disp_realReading {l : List Nat} (hl : ∀ i ∈ l, i ∈ bp) (n : Nat) (trk : Nat → Nat → List (Option K × Option K)) :
    Sync (Displaced d bp nt) (fun c c' => ∀ b i, l[b]? = some i → ∀ t, CellLess (d i) (c b t) (c' b t)) (realBpmReading E B l n trk)
      (realBpmReading E B l n trk) := by
  unfold realBpmReading
  refine Sync.bind Sync.get (fun s t h => ?_)
  rw [h.injection]
  refine Sync.bind (V := fun noise noise' => noise = noise' ∧ noise.length = l.length) (Sync.rdBoth (fun s' t' h' => ?_)) (fun noise noise' hn => ?_)
  · have e : l.mapM (fun i => s'.RING.getPair i (if t.INJ.trackMode = "ORB" then "NoiseCO" else "Noise")) =
        l.mapM (fun i => t'.RING.getPair i (if t.INJ.trackMode = "ORB" then "NoiseCO" else "Noise")) := by
      congr 1; funext i; exact h'.ring.getPair i (by split <;> decide)
    rw [e]
    cases hm : l.mapM (fun i => t'.RING.getPair i (if t.INJ.trackMode = "ORB" then "NoiseCO" else "Noise")) with
    | ok a => exact Or.inl ⟨a, a, rfl, rfl, rfl, (mapM_except_eq_ok hm).1⟩
    | error e => exact Or.inr ⟨e, rfl, rfl⟩
  obtain ⟨rfl, hlen⟩ := hn
  refine Sync.seq (disp_randnc _ _) (fun zn => ?_)
  refine Sync.bind (Sync.rdBoth (fun s' t' h' => Alongside.mapM (V := fun p e e' => ErrLess (d p.1) e e') (fun p hp =>
    disp_bpmErr h' (hl _ (List.of_mem_zip hp).1) p.2))) (fun errs errs' he => ?_)
  refine Sync.seq (disp_randnc _ _) (fun zs => ?_)
  have hd : ∀ b i, l[b]? = some i → ErrLess (d i) (errs.getD b ⟨(0, 0), (0, 0), (0, 0), 0, 0⟩) (errs'.getD b ⟨(0, 0), (0, 0), (0, 0), 0, 0⟩) := by
    intro b i hb
    have hlt := (List.getElem?_eq_some_iff.1 hb).1
    obtain ⟨a, a', h1, h2, h3⟩ := he b (i, noise[b]'(by omega)) (by
      rw [List.getElem?_zip_eq_some]; exact ⟨hb, List.getElem?_eq_getElem _⟩)
    simpa only [List.getD_eq_getElem?_getD, h1, h2, Option.getD_some] using h3
  dsimp only
  have hany : ((List.range l.length).any (fun b => (List.range n).any (fun t => cellInfinite (errs.getD b ⟨(0, 0), (0, 0), (0, 0), 0, 0⟩) (trk b t) (zs.getD (b * n + t) 0)))) =
      ((List.range l.length).any (fun b => (List.range n).any (fun t => cellInfinite (errs'.getD b ⟨(0, 0), (0, 0), (0, 0), 0, 0⟩) (trk b t) (zs.getD (b * n + t) 0)))) := by
    rw [Bool.eq_iff_iff, List.any_eq_true, List.any_eq_true]
    refine exists_congr (fun b => and_congr_right (fun hb => ?_))
    have hb : b < l.length := List.mem_range.1 hb
    have := hd b _ (List.getElem?_eq_getElem hb)
    simp only [cellInfinite_less this]
  rw [hany]
  exact Sync.ite (Sync.throw _) (Sync.pure (fun b i hb t => realReading1_less (hd b i hb) _ _ _ _))

/-! #### Averages -/

theorem maskedAverage_less (x : K) (l : List (Option K × Option K)) :
    maskedAverage (l.map (fun p => (p.1.map (fun v => v - x), p.2))) = (maskedAverage l).map (fun v => v - x) := by
  have hv : valid (l.map (fun p => (p.1.map (fun v => v - x), p.2))) = (valid l).map (fun p => (p.1 - x, p.2)) := by
    unfold valid
    rw [List.filterMap_map, List.map_filterMap]
    congr 1
    funext p
    rcases p with ⟨_ | a, _ | b⟩ <;> rfl
  have h2 : ∀ v : List (K × K), (v.map (fun p => (p.1 - x) * p.2)).sum = (v.map (fun p => p.1 * p.2)).sum - x * (v.map Prod.snd).sum := by
    intro v
    induction v with
    | nil => simp
    | cons p v ih => simp only [List.map_cons, List.sum_cons, ih]; ring
  unfold maskedAverage
  rw [hv]
  simp only [List.map_map, Function.comp_def]
  have h2' := h2 (valid l)
  by_cases h0 : ((valid l).map Prod.snd).sum = 0
  · have : (List.map (fun p : K × K => p.2) (valid l)).sum = 0 := h0
    rw [if_pos this, if_pos h0]; rfl
  · have : ¬ (List.map (fun p : K × K => p.2) (valid l)).sum = 0 := h0
    rw [if_neg this, if_neg h0, h2']
    simp only [Option.map_some, Option.some.injEq]
    change _ / ((valid l).map Prod.snd).sum = _
    field_simp

theorem orbitError_less (x : K) (l : List (Option K × Option K)) :
    orbitError B (maskedAverage (l.map (fun p => (p.1.map (fun v => v - x), p.2)))) (l.map (fun p => (p.1.map (fun v => v - x), p.2))) =
      orbitError B (maskedAverage l) l := by
  rw [maskedAverage_less]
  have hv : valid (l.map (fun p => (p.1.map (fun v => v - x), p.2))) = (valid l).map (fun p => (p.1 - x, p.2)) := by
    unfold valid
    rw [List.filterMap_map, List.map_filterMap]
    congr 1
    funext p
    rcases p with ⟨_ | a, _ | b⟩ <;> rfl
  have ha : (l.map (fun p : Option K × Option K => (p.1.map (fun v => v - x), p.2))).any (fun p => p.1.isNone) = l.any (fun p => p.1.isNone) := by
    rw [List.any_map]; congr 1; funext p; simp
  unfold orbitError
  rw [ha, hv]
  simp only [List.map_map, Function.comp_def]
  by_cases h0 : ((valid l).map Prod.snd).sum = 0
  · have h0' : (List.map (fun p : K × K => p.2) (valid l)).sum = 0 := h0
    simp only [h0']
    simp
  · have : maskedAverage l = some (((valid l).map (fun p => p.1 * p.2)).sum / ((valid l).map Prod.snd).sum) := by unfold maskedAverage; rw [if_neg h0]
    rw [this]
    simp only [Option.map_some, Option.getD_some, sub_sub_sub_cancel_right]

theorem mapM_alongside_congr {α β : Type} {f g : α → Except Err β} : ∀ {l : List α}, (∀ x ∈ l, f x = g x) → l.mapM f = l.mapM g
  | [], _ => rfl
  | x :: l, h => by rw [List.mapM_cons, List.mapM_cons, h x (by simp), mapM_alongside_congr (fun y hy => h y (by simp [hy]))]

theorem tabulate_congr {α : Type} {nb n : Nat} {f g : Nat → Nat → Except Err α} (h : ∀ b < nb, ∀ t < n, f b t = g b t) :
    tabulate nb n f = tabulate nb n g := by
  unfold tabulate
  refine mapM_alongside_congr (fun x hx => ?_)
  simp only [flatten2, List.mem_flatMap, List.mem_map, List.mem_range] at hx
  obtain ⟨t, ht, b, hb, rfl⟩ := hx
  exact h b hb t ht

/-- the shots of two machines -/
def ShotsLess (d : Nat → Nat → K) (l : List Nat) (c c' : Nat → Nat → Cell K) : Prop := ∀ b i, l[b]? = some i → ∀ t, CellLess (d i) (c b t) (c' b t)

theorem shots_x {l : List Nat} {v v' : List (Nat → Nat → Cell K)} (h : List.Forall₂ (ShotsLess d l) v v') {b i : Nat} (hb : l[b]? = some i) (t : Nat) :
    v'.map (fun c => ((c b t).x, (c b t).sum)) = (v.map (fun c => ((c b t).x, (c b t).sum))).map (fun p => (p.1.map (fun x => x - d i 0), p.2)) ∧
    v'.map (fun c => ((c b t).y, (c b t).sum)) = (v.map (fun c => ((c b t).y, (c b t).sum))).map (fun p => (p.1.map (fun x => x - d i 1), p.2)) ∧
    v'.map (fun c => (c b t).sum) = v.map (fun c => (c b t).sum) := by
  induction h with
  | nil => exact ⟨rfl, rfl, rfl⟩
  | cons h1 _ ih =>
    obtain ⟨g1, g2, g3⟩ := h1 b i hb t
    simp only [List.map_cons, ih.1, ih.2.1, ih.2.2, g1, g2, g3, and_self]

theorem disp_reading (hB : IgnoresRecords B) (req : Option (List Nat)) (errors : Bool) :
    Sync (Displaced d bp nt) (ReadsLess (readBpms bp req) nt d) (bpmReading E B req errors) (bpmReading E B req errors) := by
  unfold bpmReading
  refine Sync.bind Sync.get (fun s t h => ?_)
  have hm : t.INJ.trackMode ≠ "PORB" := by rw [← h.injection]; exact h.mode
  have hnt : t.INJ.nTurns = nt := by rw [← h.injection]; exact h.turns
  rw [h.injection, ← h.ords, h.bpm]
  refine Sync.bind (V := fun o o' => o' = o ∧ o = readBpms bp req) (Sync.liftBoth ?_) (fun o o' ho => ?_)
  · unfold registeredBpms readBpms
    cases req with
    | none => exact Or.inl ⟨_, _, rfl, rfl, rfl, rfl⟩
    | some r =>
      dsimp only
      split
      · exact Or.inr ⟨_, rfl, rfl⟩
      · exact Or.inl ⟨_, _, rfl, rfl, rfl, rfl⟩
  obtain ⟨rfl, rfl⟩ := ho
  have hsub : ∀ i ∈ readBpms bp req, i ∈ bp := by
    intro i hi
    unfold readBpms at hi
    cases req with
    | none => exact hi
    | some r => exact (List.mem_filter.1 hi).1
  generalize readBpms bp req = l at hsub ⊢
  refine Sync.bind (Sync.mapEachBoth (V := ShotsLess d l) (fun _ _ => Sync.seq (disp_tracking hB _) (fun trk => ?_))) (fun v v' hv => ?_)
  · exact Sync.ite (Sync.bind (disp_realReading hsub _ _) (fun c c' hc => Sync.pure (fun b i hb _ => hc b i hb 0))) (disp_realReading hsub _ _)
  have hx : ∀ b i, l[b]? = some i → ∀ t, maskedAverage (v'.map (fun c => ((c b t).x, (c b t).sum))) =
      (maskedAverage (v.map (fun c => ((c b t).x, (c b t).sum)))).map (fun x => x - d i 0) := fun b i hb t => by
    rw [(shots_x hv hb t).1, maskedAverage_less]
  have hy : ∀ b i, l[b]? = some i → ∀ t, maskedAverage (v'.map (fun c => ((c b t).y, (c b t).sum))) =
      (maskedAverage (v.map (fun c => ((c b t).y, (c b t).sum)))).map (fun x => x - d i 1) := fun b i hb t => by
    rw [(shots_x hv hb t).2.1, maskedAverage_less]
  have hsum : flatten2 l.length nt (fun b t => nansum (v'.map (fun c => (c b t).sum)) / (s.INJ.nShots : K)) =
      flatten2 l.length nt (fun b t => nansum (v.map (fun c => (c b t).sum)) / (s.INJ.nShots : K)) :=
    flatten2_congr (fun b hb t _ => by rw [(shots_x hv (List.getElem?_eq_getElem hb) t).2.2])
  have hex : tabulate l.length nt (fun b t => orbitError B (maskedAverage (v'.map (fun c => ((c b t).x, (c b t).sum)))) (v'.map (fun c => ((c b t).x, (c b t).sum)))) =
      tabulate l.length nt (fun b t => orbitError B (maskedAverage (v.map (fun c => ((c b t).x, (c b t).sum)))) (v.map (fun c => ((c b t).x, (c b t).sum)))) :=
    tabulate_congr (fun b hb t _ => by rw [(shots_x hv (List.getElem?_eq_getElem hb) t).1, orbitError_less])
  have hey : tabulate l.length nt (fun b t => orbitError B (maskedAverage (v'.map (fun c => ((c b t).y, (c b t).sum)))) (v'.map (fun c => ((c b t).y, (c b t).sum)))) =
      tabulate l.length nt (fun b t => orbitError B (maskedAverage (v.map (fun c => ((c b t).y, (c b t).sum)))) (v.map (fun c => ((c b t).y, (c b t).sum)))) :=
    tabulate_congr (fun b hb t _ => by rw [(shots_x hv (List.getElem?_eq_getElem hb) t).2.1, orbitError_less])
  dsimp only
  rw [hnt, h.injection] at *
  have fin : ∀ e, ReadsLess l nt d
      { x := flatten2 l.length nt (fun b t => maskedAverage (v.map (fun c => ((c b t).x, (c b t).sum)))),
        y := flatten2 l.length nt (fun b t => maskedAverage (v.map (fun c => ((c b t).y, (c b t).sum)))),
        sums := flatten2 l.length nt (fun b u => nansum (v.map (fun c => (c b u).sum)) / (t.INJ.nShots : K)), errors := e }
      { x := flatten2 l.length nt (fun b t => maskedAverage (v'.map (fun c => ((c b t).x, (c b t).sum)))),
        y := flatten2 l.length nt (fun b t => maskedAverage (v'.map (fun c => ((c b t).y, (c b t).sum)))),
        sums := flatten2 l.length nt (fun b u => nansum (v'.map (fun c => (c b u).sum)) / (t.INJ.nShots : K)), errors := e } := fun e =>
    ⟨fun b i hb u hu => ⟨_, flatten2_get _ (List.getElem?_eq_some_iff.1 hb).1 hu, by
        rw [flatten2_get _ (List.getElem?_eq_some_iff.1 hb).1 hu, hx b i hb u]⟩,
      fun b i hb u hu => ⟨_, flatten2_get _ (List.getElem?_eq_some_iff.1 hb).1 hu, by
        rw [flatten2_get _ (List.getElem?_eq_some_iff.1 hb).1 hu, hy b i hb u]⟩,
      ⟨flatten2_length _ _ _, flatten2_length _ _ _, flatten2_length _ _ _, flatten2_length _ _ _⟩, hsum, rfl⟩
  refine Sync.ite (Sync.throw _) ?_
  rw [if_neg hm, if_neg hm, hex, hey]
  exact Sync.ite (Sync.seq (Sync.lift _) (fun _ => Sync.seq (Sync.lift _) (fun _ => Sync.pure (fin _)))) (Sync.pure (fin _))
end

end PySC
