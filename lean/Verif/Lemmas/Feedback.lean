import Verif.Lemmas.ReadingLaw
import Verif.Lemmas.SupportLaw
import Verif.Lemmas.Measurement
import Verif.Spec.Feedback
/-
Lemmas for C114.
-/
set_option linter.unusedSectionVars false
namespace PySC
open Py Spec

theorem Spec.MeasuredAlike.refl (s : SC ℝ) : MeasuredAlike s s := ⟨rfl, rfl, rfl, rfl, rfl, rfl⟩

theorem Spec.MeasuredAlike.trans {a b c : SC ℝ} (h1 : MeasuredAlike a b) (h2 : MeasuredAlike b c) : MeasuredAlike a c :=
  ⟨h2.bpms.trans h1.bpms, h2.shots.trans h1.shots, h2.particles.trans h1.particles, h2.turns.trans h1.turns, h2.mode.trans h1.mode,
    h2.jitter.trans h1.jitter⟩

theorem Spec.MeasuredAlike.rng (s : SC ℝ) (q : ℕ) : MeasuredAlike s { s with rng := q } := ⟨rfl, rfl, rfl, rfl, rfl, rfl⟩

theorem Spec.MeasuredAlike.turns_eq {s t : SC ℝ} (h : MeasuredAlike s t) : Spec.turns t = Spec.turns s := by
  unfold Spec.turns; rw [h.mode, h.turns]

theorem Spec.MeasuredAlike.stages_eq {s t : SC ℝ} (h : MeasuredAlike s t) : stages t = stages s := by
  unfold stages; rw [h.mode, h.particles]

theorem Spec.MeasuredAlike.stageCall_eq {s t : SC ℝ} (h : MeasuredAlike s t) (nb : ℕ) : stageCall t nb = stageCall s nb := by
  funext st; cases st <;> simp only [stageCall, h.turns_eq, h.particles]

theorem Spec.MeasuredAlike.readingSrcs_eq {s t : SC ℝ} (h : MeasuredAlike s t) : readingSrcs t = readingSrcs s := by
  unfold readingSrcs; rw [h.stages_eq, h.shots]

theorem Spec.MeasuredAlike.place_eq {s t : SC ℝ} (h : MeasuredAlike s t) (nb : ℕ) (x : Number) : x.place t nb = x.place s nb := by
  match x with
  | .jitter k i => rfl
  | .particle k j i => simp only [Number.place, h.particles]
  | .bpm k (0, b, t) => simp only [Number.place, h.turns_eq]
  | .bpm k (1, b, t) => simp only [Number.place, h.turns_eq]
  | .bpm k (2, b, t) => simp only [Number.place, h.turns_eq]

theorem Spec.MeasuredAlike.used_iff {s t : SC ℝ} (h : MeasuredAlike s t) (nb : ℕ) (x : Number) : x.Used t nb ↔ x.Used s nb := by
  cases x <;> simp only [Number.Used, h.mode, h.shots, h.particles, h.turns_eq]

/-- the calls of `randnc` made in measurements `j`, …, `j + n - 1` -/
def feedbackSrcs (s : SC ℝ) (j n : ℕ) : List (ℕ × ℕ × Stage) := (List.range' j n).flatMap (fun k => (readingSrcs s).map (fun x => (k, x)))

/-- the machine before the adjustment for measurement `j` -/
def machineBefore (adjust : Adjustment) (s : SC ℝ) (shown : List Positions) : ℕ → SC ℝ
  | 0 => withoutRng s
  | j + 1 => machineAt adjust s shown j

theorem machineAt_eq (adjust : Adjustment) (s : SC ℝ) (shown : List Positions) (j : ℕ) :
    machineAt adjust s shown j = withoutRng (adjust (shown.take j) (machineBefore adjust s shown j)) := by
  cases j <;> rfl

/-- what was shown -/
abbrev shownIn (outs : List (SC ℝ × Reading ℝ)) : List Positions := outs.map (fun m => (m.2.x, m.2.y))

theorem feedback_calls {E : Env ℝ} {B : BeamEnv ℝ} {req : ℕ → Option (List Nat)} {ce : Bool} {adjust : Adjustment} {s : SC ℝ}
    {ords : ℕ → List Nat} {N : ℕ} (ho : ∀ j < N, registeredBpms s.ORD.BPM (req j) = .ok (ords j)) (h6 : s.INJ.randomInjectionZ.length = 6)
    (hloss : ∀ t Z i k, WholeLoss (seenAt B t Z i k)) (ha : KeepsSettings adjust) :
    ∀ (n : ℕ) (past : List (SC ℝ × Reading ℝ)) (s0 s' : SC ℝ) (outs : List (SC ℝ × Reading ℝ)), MeasuredAlike s s0 → past.length + n = N →
      feedback E B req ce adjust n past s0 = .ok outs s' →
      ∃ (new : List (SC ℝ × Reading ℝ)) (o : ℕ × ℕ × Stage → List ℝ), outs = past ++ new ∧ new.length = n ∧
        ReturnsAll E E.randn ((feedbackSrcs s past.length n).map (fun x => stageCall s (ords x.1).length x.2.2)) s0.rng
          ((feedbackSrcs s past.length n).map o) s'.rng ∧
        (∀ k m out, new[k]? = some (m, out) → MeasuredAlike s m ∧ ReadFrom B m (ords (past.length + k)) (fun x =>
          (o (past.length + k, (x.place s (ords (past.length + k)).length).1)).getD (x.place s (ords (past.length + k)).length).2 0) out) ∧
        (withoutRng s0 = machineBefore adjust s (shownIn outs) past.length →
          ∀ k m out, new[k]? = some (m, out) → withoutRng m = machineAt adjust s (shownIn outs) (past.length + k)) := by
  intro n
  induction n with
  | zero =>
    intro past s0 s' outs hs hN h
    cases h
    exact ⟨[], fun _ => [], by simp, rfl, ⟨rfl, rfl⟩, by simp, by simp⟩
  | succ n ih =>
    intro past s0 s' outs hs hN h
    unfold feedback at h
    obtain ⟨u1, s1, h1, h⟩ := bind_eq_ok.1 h
    have hs1 : s1 = { adjust (shownIn past) (withoutRng s0) with rng := s0.rng } := by cases h1; rfl
    have h := bindGet_eq_ok.1 h
    obtain ⟨out, s2, h2, h⟩ := bind_eq_ok.1 h
    have a1 : MeasuredAlike s s1 := by
      rw [hs1]
      exact ((hs.trans (MeasuredAlike.rng s0 0)).trans (ha _ _)).trans (MeasuredAlike.rng _ _)
    have r1 : s1.rng = s0.rng := by rw [hs1]
    have ho1 : registeredBpms s1.ORD.BPM (req past.length) = .ok (ords past.length) := by rw [a1.bpms]; exact ho _ (by omega)
    obtain ⟨o1, ret1, read1⟩ := bpmReading_calls ho1 (by rw [a1.jitter]; exact h6) (hloss s1) h2
    obtain ⟨-, -, only, -⟩ := bpmReading_ok (by rw [a1.jitter]; exact h6) (hloss s1) h2
    have e2 : withoutRng s2 = withoutRng s1 := by rw [only.1]; rfl
    have a2 : MeasuredAlike s s2 := by rw [only.1]; exact a1.trans (MeasuredAlike.rng _ _)
    obtain ⟨new, o2, e, hl, ret2, read2, mach2⟩ := ih (past ++ [(s1, out)]) s2 s' outs a2 (by simp; omega) h
    rw [List.length_append, List.length_singleton] at ret2 read2 mach2
    rw [a1.readingSrcs_eq, a1.stageCall_eq, r1] at ret1
    refine ⟨(s1, out) :: new, fun x => if x.1 = past.length then o1 x.2 else o2 x, by rw [e]; simp, by simp [hl], ?_, ?_, ?_⟩
    · have hr : feedbackSrcs s past.length (n + 1) =
          (readingSrcs s).map (fun x => (past.length, x)) ++ feedbackSrcs s (past.length + 1) n := by
        unfold feedbackSrcs; rw [List.range'_succ, List.flatMap_cons]
      rw [hr, List.map_append, List.map_append]
      refine returnsAll_append (m := s2.rng) ?_ ?_
      · rw [List.map_map, List.map_map]
        simpa only [Function.comp_def, if_true] using ret1
      · have : (feedbackSrcs s (past.length + 1) n).map (fun x => if x.1 = past.length then o1 x.2 else o2 x) =
            (feedbackSrcs s (past.length + 1) n).map o2 := by
          refine List.map_congr_left (fun x hx => ?_)
          unfold feedbackSrcs at hx
          obtain ⟨k, hk, hx⟩ := List.mem_flatMap.1 hx
          obtain ⟨y, -, rfl⟩ := List.mem_map.1 hx
          rw [List.mem_range'_1] at hk
          exact if_neg (by simp only; omega)
        rw [this]; exact ret2
    · intro k m out' hk
      cases k with
      | zero =>
        simp only [List.getElem?_cons_zero, Option.some.injEq, Prod.mk.injEq] at hk
        obtain ⟨rfl, rfl⟩ := hk
        refine ⟨a1, ?_⟩
        simp only [Nat.add_zero, if_true]
        simpa only [a1.place_eq] using read1
      | succ k =>
        rw [List.getElem?_cons_succ] at hk
        obtain ⟨q1, q2⟩ := read2 k m out' hk
        refine ⟨q1, ?_⟩
        have e3 : past.length + (k + 1) = past.length + 1 + k := by omega
        rw [e3]
        have e4 : ¬ (past.length + 1 + k = past.length) := by omega
        simpa only [if_neg e4] using q2
    · intro hb
      have t1 : (shownIn outs).take past.length = shownIn past := by
        rw [e, shownIn, List.append_assoc, List.map_append, List.take_left' (by simp)]
      have m1 : withoutRng s1 = machineAt adjust s (shownIn outs) past.length := by
        rw [machineAt_eq, t1, ← hb, hs1]; rfl
      have m2 := mach2 (by rw [e2, m1]; rfl)
      intro k m out' hk
      cases k with
      | zero =>
        simp only [List.getElem?_cons_zero, Option.some.injEq, Prod.mk.injEq] at hk
        obtain ⟨rfl, rfl⟩ := hk
        exact m1
      | succ k =>
        rw [List.getElem?_cons_succ] at hk
        have e3 : past.length + (k + 1) = past.length + 1 + k := by omega
        rw [e3]
        exact m2 k m out' hk

/-! ### Same numbers, same positions -/

theorem coef_ext {c c' : List ℝ} (h : c.length = 6) (h' : c'.length = 6) (hc : ∀ k < 6, coef c k = coef c' k) : c = c' := by
  refine List.ext_getElem (h.trans h'.symm) (fun k h1 h2 => ?_)
  have := hc k (by omega)
  unfold coef at this
  rwa [getD_lt c 0 h1, getD_lt c' 0 h2] at this

theorem bunchFrom_unique {B : BeamEnv ℝ} {inj : Inj ℝ} {z : Nat → ℝ} {w : Nat → Nat → ℝ} {Z Z' : List (List ℝ)}
    (h : BunchFrom B inj z w Z) (h' : BunchFrom B inj z w Z') : Z = Z' := by
  obtain ⟨c, hl, hc, hZ⟩ := h
  obtain ⟨c', hl', hc', hZ'⟩ := h'
  have : c = c' := coef_ext hl hl' (fun k hk => (hc k hk).trans (hc' k hk).symm)
  subst this
  rcases hZ with ⟨hn, rfl⟩ | ⟨hn, m, Zs, hm, rfl, hlen, hj⟩
  · rcases hZ' with ⟨-, rfl⟩ | ⟨hn', -⟩
    · rfl
    · exact absurd hn hn'
  · rcases hZ' with ⟨hn', -⟩ | ⟨-, m', Zs', hm', rfl, hlen', hj'⟩
    · exact absurd hn' hn
    · rw [hm] at hm'
      cases hm'
      have : Zs = Zs' := by
        refine List.ext_getElem? (fun j => ?_)
        by_cases hj0 : j < inj.nParticles
        · rw [hj j hj0, hj' j hj0]
        · rw [List.getElem?_eq_none (by omega), List.getElem?_eq_none (by omega)]
      rw [this]

theorem bpmAt_unique {r : Ring ℝ} {noise : String} {i : Nat} {e e' : BpmErr ℝ} (h : BpmAt r noise i e) (h' : BpmAt r noise i e') : e = e' := by
  obtain ⟨ox, oy, sx, sy, a1, a2, a3⟩ := h.offset
  obtain ⟨ox', oy', sx', sy', b1, b2, b3⟩ := h'.offset
  obtain ⟨p, q, c1, c2, c3⟩ := h.roll
  obtain ⟨p', q', d1, d2, d3⟩ := h'.roll
  have n := h.noise; rw [h'.noise] at n
  have c := h.cal; rw [h'.cal] at c
  have su := h.sum; rw [h'.sum] at su
  rw [a1] at b1; rw [a2] at b2; rw [c1] at d1; rw [c2] at d2
  cases b1; cases b2; cases d1; cases d2
  simp only [Option.some.injEq, Attr.vec.injEq, List.cons.injEq, and_true, Attr.num.injEq] at n c su
  cases e; cases e'
  simp only at a3 b3 c3 d3 n c su
  simp only [BpmErr.mk.injEq]
  refine ⟨?_, by rw [a3, b3], ?_, by rw [c3, d3], su.symm⟩
  · exact Prod.ext n.1.symm n.2.symm
  · exact Prod.ext c.1.symm c.2.symm

theorem index_split {n T q : ℕ} (h : q < T * n) : ∃ t b, q = t * n + b ∧ t < T ∧ b < n := by
  have hn : 0 < n := by rcases Nat.eq_zero_or_pos n with rfl | h0; · simp at h
                        · exact h0
  exact ⟨q / n, q % n, by rw [Nat.mul_comm]; exact (Nat.div_add_mod q n).symm, Nat.div_lt_of_lt_mul (by rwa [Nat.mul_comm] at h), Nat.mod_lt _ hn⟩

/-- the positions follow from the machine and the numbers -/
theorem readFrom_unique {B : BeamEnv ℝ} {s : SC ℝ} {ords : List Nat} {z : Number → ℝ} {out out' : Reading ℝ}
    (h : ReadFrom B s ords z out) (h' : ReadFrom B s ords z out') : out.x = out'.x ∧ out.y = out'.y := by
  obtain ⟨Z, hZ, e, he, hm, hp⟩ := h
  obtain ⟨Z', hZ', e', he', hm', hp'⟩ := h'
  have key : ∀ b t i, ords[b]? = some i → shotsAt B s e Z (fun i => z (.bpm i.1 i.2)) b t i = shotsAt B s e' Z' (fun i => z (.bpm i.1 i.2)) b t i := by
    intro b t i hb
    unfold shotsAt
    refine List.map_congr_left (fun k hk => ?_)
    have ee : e b = e' b := bpmAt_unique (he b i hb) (he' b i hb)
    have hs : seenAt B s (Z k) i t = seenAt B s (Z' k) i t := by
      unfold seenAt
      by_cases hmo : s.INJ.trackMode = "ORB"
      · rw [if_pos hmo, if_pos hmo]
      · rw [if_neg hmo, if_neg hmo, bunchFrom_unique (hZ hmo k (List.mem_range.1 hk)) (hZ' hmo k (List.mem_range.1 hk))]
    rw [ee, hs]
  have keys : ∀ b t i, ords[b]? = some i → signalAt B s e Z (fun i => z (.bpm i.1 i.2)) b t i = signalAt B s e' Z' (fun i => z (.bpm i.1 i.2)) b t i := by
    intro b t i hb
    unfold signalAt
    rw [key b t i hb]
  by_cases hmo : s.INJ.trackMode = "PORB"
  · obtain ⟨lx, ly, hp⟩ := hp hmo
    obtain ⟨lx', ly', hp'⟩ := hp' hmo
    constructor
    · refine List.ext_getElem? (fun b => ?_)
      by_cases hb : b < ords.length
      · have hb' := List.getElem?_eq_getElem hb
        rw [(hp b _ hb').1, (hp' b _ hb').1]
        simp only [key b _ _ hb', keys b _ _ hb']
      · rw [List.getElem?_eq_none (by omega), List.getElem?_eq_none (by omega)]
    · refine List.ext_getElem? (fun b => ?_)
      by_cases hb : b < ords.length
      · have hb' := List.getElem?_eq_getElem hb
        rw [(hp b _ hb').2.1, (hp' b _ hb').2.1]
        simp only [key b _ _ hb', keys b _ _ hb']
      · rw [List.getElem?_eq_none (by omega), List.getElem?_eq_none (by omega)]
  · obtain ⟨lx, ly, hm⟩ := hm hmo
    obtain ⟨lx', ly', hm'⟩ := hm' hmo
    constructor
    · refine List.ext_getElem? (fun q => ?_)
      by_cases hq : q < s.INJ.nTurns * ords.length
      · obtain ⟨t, b, rfl, ht, hb⟩ := index_split hq
        have hb' := List.getElem?_eq_getElem hb
        rw [(hm b t _ hb' ht).1, (hm' b t _ hb' ht).1, key b t _ hb']
      · rw [List.getElem?_eq_none (by omega), List.getElem?_eq_none (by omega)]
    · refine List.ext_getElem? (fun q => ?_)
      by_cases hq : q < s.INJ.nTurns * ords.length
      · obtain ⟨t, b, rfl, ht, hb⟩ := index_split hq
        have hb' := List.getElem?_eq_getElem hb
        rw [(hm b t _ hb' ht).2.1, (hm' b t _ hb' ht).2.1, key b t _ hb']
      · rw [List.getElem?_eq_none (by omega), List.getElem?_eq_none (by omega)]

theorem readFrom_withoutRng {B : BeamEnv ℝ} {s t : SC ℝ} {ords : List Nat} {z : Number → ℝ} {out : Reading ℝ} (h : withoutRng s = withoutRng t)
    (hr : ReadFrom B s ords z out) : ReadFrom B t ords z out := by
  have e1 : s.RING = t.RING := by have := congrArg SC.RING h; exact this
  have e2 : s.INJ = t.INJ := by have := congrArg SC.INJ h; exact this
  obtain ⟨Z, hZ, e, he, hm, hp⟩ := hr
  unfold shotsAt signalAt shotsAt seenAt turnIx at hm hp
  rw [e1, e2] at hm hp he
  rw [e2] at hZ
  exact ⟨Z, hZ, e, he, hm, hp⟩

theorem readFrom_congr {B : BeamEnv ℝ} {s m : SC ℝ} {ords : List Nat} {z w : Number → ℝ} {out : Reading ℝ} (hs : MeasuredAlike s m)
    (h : ReadFrom B m ords z out) (hzw : ∀ x : Number, x.Used s ords.length → z x = w x) : ReadFrom B m ords w out := by
  obtain ⟨Z, hZ, hm⟩ := h
  have key : ∀ x : Number, x.Used m ords.length → z x = w x := fun x hx => hzw x ((hs.used_iff _ _).1 hx)
  refine ⟨Z, fun hmo k hk => ?_, ?_⟩
  · exact Spec.BunchFrom.congr (hZ hmo k hk) (fun i hi => key (.jitter k i) ⟨hmo, hk, hi⟩)
      (fun hn j hj i hi => key (.particle k j i) ⟨hmo, hn, hk, hj, hi⟩)
  · exact Spec.MadeWith.congr hm (fun k hk p b t hb ht => key (.bpm k (p, b, t)) ⟨hk, hb, ht⟩)

theorem machineAt_congr {adjust : Adjustment} {s t : SC ℝ} (hst : withoutRng s = withoutRng t) {shown shown' : List Positions} : ∀ {j : ℕ},
    shown.take j = shown'.take j → machineAt adjust s shown j = machineAt adjust t shown' j := by
  intro j
  induction j with
  | zero => intro _; unfold machineAt; rw [hst]
  | succ j ih =>
    intro h
    have : shown.take j = shown'.take j := by
      have := congrArg (List.take j) h
      simpa [List.take_take] using this
    unfold machineAt
    rw [h, ih this]

/-- two series of measurements made from the same numbers up to measurement `j` have shown the same until then -/
theorem shown_congr {B : BeamEnv ℝ} {adjust : Adjustment} {s t : SC ℝ} {ords : ℕ → List Nat} {n : ℕ} {z w : ℕ → Number → ℝ}
    {outs outs' : List (SC ℝ × Reading ℝ)} (hst : withoutRng s = withoutRng t) (h : MeasuredFrom B adjust s ords n z outs)
    (h' : MeasuredFrom B adjust t ords n w outs') : ∀ {j : ℕ}, j ≤ n → (∀ i < j, z i = w i) →
    (shownIn outs).take j = (shownIn outs').take j := by
  intro j
  induction j with
  | zero => intro _ _; rfl
  | succ j ih =>
    intro hj hz
    have ht := ih (by omega) (fun i hi => hz i (by omega))
    have h1 : j < outs.length := by rw [h.number]; omega
    have h2 : j < outs'.length := by rw [h'.number]; omega
    have g1 := List.getElem?_eq_getElem h1
    have g2 := List.getElem?_eq_getElem h2
    have m1 := h.machine j outs[j].1 outs[j].2 g1
    have m2 := h'.machine j outs'[j].1 outs'[j].2 g2
    have r1 := h.reading j outs[j].1 outs[j].2 g1
    have r2 := h'.reading j outs'[j].1 outs'[j].2 g2
    have em : withoutRng outs[j].1 = withoutRng outs'[j].1 := by
      rw [m1, m2]; exact machineAt_congr hst ht
    rw [hz j (by omega)] at r1
    obtain ⟨u, v⟩ := readFrom_unique (readFrom_withoutRng em r1) r2
    rw [List.take_add_one, List.take_add_one, ht]
    congr 1
    rw [List.getElem?_map, List.getElem?_map, g1, g2]
    simp only [Option.map_some, u, v]

section law
open MeasureTheory ProbabilityTheory
variable {Ω : Type} [MeasurableSpace Ω] {P : Measure Ω} [IsProbabilityMeasure P]

theorem mem_feedbackSrcs {s : SC ℝ} {n j : ℕ} {x : ℕ × Stage} (hj : j < n) (hx : x ∈ readingSrcs s) : (j, x) ∈ feedbackSrcs s 0 n :=
  List.mem_flatMap.2 ⟨j, List.mem_range'_1.2 ⟨Nat.zero_le _, by omega⟩, List.mem_map.2 ⟨x, hx, rfl⟩⟩

theorem feedback_law (E : Env ℝ) (B : BeamEnv ℝ) {X : ℕ → Ω → ℝ} (hX : StandardNormal P X) (req : ℕ → Option (List Nat)) (adjust : Adjustment)
    (n : ℕ) (s : SC ℝ) {ords : ℕ → List Nat} (ho : ∀ j < n, registeredBpms s.ORD.BPM (req j) = .ok (ords j))
    (h6 : s.INJ.randomInjectionZ.length = 6) (hloss : ∀ t Z i k, WholeLoss (seenAt B t Z i k))
    (ha : KeepsSettings adjust) :
    ∃ z : ℕ → Number → Ω → ℝ,
      IndependentWithLaws P (fun x : MeasuredNumber s ords n => z x.1.1 x.1.2) (fun x => truncatedNormal x.1.2.cutoff) ∧
      ∀ ω fuel ce outs s', feedback { E with randn := fun k => X k ω, fuel := fuel } B req ce adjust n [] s = .ok outs s' →
        MeasuredFrom B adjust s ords n (fun j x => z j x ω) outs := by
  obtain ⟨W, h1, h2⟩ := labelled_law (P := P) (feedbackSrcs s 0 n) (fun x => stageCall s (ords x.1).length x.2.2) (μ := gaussianReal 0 1)
    (fun x _ => gaussian_within_pos (by cases hx : x.2.2 <;> norm_num [stageCall, hx])) E hX s.rng
  refine ⟨fun j x => W (j, (x.place s (ords j).length).1) (x.place s (ords j).length).2, ?_, fun ω fuel ce outs s' h => ?_⟩
  · have := h1 (fun x : MeasuredNumber s ords n => ((x.1.1, (x.1.2.place s (ords x.1.1).length).1), (x.1.2.place s (ords x.1.1).length).2))
      (fun x y hxy => by
        obtain ⟨⟨j, x⟩, hj, hx⟩ := x
        obtain ⟨⟨j', y⟩, hj', hy⟩ := y
        simp only [Prod.mk.injEq] at hxy
        obtain ⟨⟨rfl, e1⟩, e2⟩ := hxy
        have : x = y := place_inj hx hy (Prod.ext e1 e2)
        subst this; rfl)
      (fun x => ⟨mem_feedbackSrcs x.2.1 (place_used x.2.2).1, (place_used x.2.2).2.1⟩)
    refine ⟨this.measurable, this.independent, fun x => ?_⟩
    rw [this.law x, (place_used x.2.2).2.2]
    rfl
  · obtain ⟨new, o, e, hl, ret, read, mach⟩ := feedback_calls ho h6 hloss ha n [] s s' outs (MeasuredAlike.refl s) (by simp) h
    rw [List.nil_append] at e
    subst e
    have hz := h2 ω o _ (returnsAll_env ret)
    refine ⟨hl, fun j m out hj => ?_, fun j m out hj => ?_⟩
    · have := mach rfl j m out hj
      simpa using this
    · obtain ⟨q1, q2⟩ := read j m out hj
      have hjn : j < n := by rw [← hl]; exact (List.getElem?_eq_some_iff.1 hj).1
      simp only [List.length_nil, Nat.zero_add] at q2
      exact readFrom_congr q1 q2 (fun x hx => hz _ (mem_feedbackSrcs hjn (place_used hx).1) _ (place_used hx).2.1)

/-- the settings of the measurements after errors were applied -/
theorem applyErrors_measuredAlike {E : Env ℝ} {n : ℝ} {s s' : SC ℝ} (hw : WellRegistered s.SIG) (h6 : s.SIG.staticInjectionZ.length = 6)
    (h : applyErrors E n s = .ok () s') : MeasuredAlike { s with INJ := { s.INJ with randomInjectionZ := s.SIG.randomInjectionZ } } s' := by
  obtain ⟨z0, hi, -⟩ := applyErrors_injection hw h6 h
  have f := applyErrors_frame (E := E) (n := n) hw
  rw [h] at f
  have ho : s'.ORD = s.ORD := f.ord
  refine ⟨?_, ?_, ?_, ?_, ?_, ?_⟩
  · rw [ho]
  all_goals rw [hi]

/-- the errors and the measurements after them -/
theorem applyErrors_feedback_law (E : Env ℝ) (B : BeamEnv ℝ) {X : ℕ → Ω → ℝ} (hX : StandardNormal P X) (nsigmas : ℝ) (req : ℕ → Option (List Nat))
    (adjust : Adjustment) (n : ℕ) (s : SC ℝ) {ords : ℕ → List Nat} (ht : Tidy s.ORD) (hw : WellRegistered s.SIG)
    (hL : ∀ t ∈ supportTypes, (s.ORD.pairs t).Pairwise EndsApart) (h6 : s.SIG.staticInjectionZ.length = 6) (hn : nsigmas ≠ 0)
    (hc : ∀ x sig, uncertaintyBehind s x = some sig → cutoffFor nsigmas sig ≠ 0)
    (ho : ∀ j < n, registeredBpms s.ORD.BPM (req j) = .ok (ords j))
    (hj : s.SIG.randomInjectionZ.length = 6) (hloss : ∀ t Z i k, WholeLoss (seenAt B t Z i k))
    (ha : KeepsSettings adjust) :
    ∃ (Z : Origin → ℕ → Ω → ℝ) (z : ℕ → Number → Ω → ℝ),
      IndependentWithLaws P (Sum.elim (fun c : OriginComponent s => Z c.1.1 c.1.2) (fun x : MeasuredNumber s ords n => z x.1.1 x.1.2))
        (Sum.elim (fun c => truncatedNormal (cutoffBehind nsigmas s c.1.1)) (fun x => truncatedNormal x.1.2.cutoff)) ∧
      ∀ ω fuel s1 ce outs s2, applyErrors { E with randn := fun k => X k ω, fuel := fuel } nsigmas s = .ok () s1 →
        feedback { E with randn := fun k => X k ω, fuel := fuel } B req ce adjust n [] s1 = .ok outs s2 →
        ErrorsMadeFrom s s1 (fun x k => Z (.inl x) k ω) ∧ SupportsMadeFrom s s1 (fun x k => Z (.inr x) k ω) ∧
          MeasuredFrom B adjust s1 ords n (fun j x => z j x ω) outs := by
  have hcut : ∀ x, cutoffBehind nsigmas s x ≠ 0 := by
    intro x
    unfold cutoffBehind
    split
    · rename_i sig hs; exact hc x sig hs
    · exact hn
  let srcs : List (Origin ⊕ (ℕ × ℕ × Stage)) := (origins s).map .inl ++ (feedbackSrcs s 0 n).map .inr
  let call : Origin ⊕ (ℕ × ℕ × Stage) → ℝ × ℕ := Sum.elim (callBehind nsigmas s) (fun x => stageCall s (ords x.1).length x.2.2)
  have hl : ∀ x ∈ origins s, Sum.inl x ∈ srcs := fun x hx => List.mem_append_left _ (List.mem_map.2 ⟨x, hx, rfl⟩)
  have hr : ∀ x ∈ feedbackSrcs s 0 n, Sum.inr x ∈ srcs := fun x hx => List.mem_append_right _ (List.mem_map.2 ⟨x, hx, rfl⟩)
  obtain ⟨W, h1, h2⟩ := labelled_law (P := P) srcs call (μ := gaussianReal 0 1)
    (fun x _ => by
      cases x with
      | inl x => exact gaussian_within_pos (by simp only [call, Sum.elim_inl]; rw [callBehind_cut]; exact hcut x)
      | inr x => exact gaussian_within_pos (by simp only [call, Sum.elim_inr]; cases hx : x.2.2 <;> norm_num [stageCall]))
    E hX s.rng
  refine ⟨fun x => W (.inl x), fun j x => W (.inr (j, (x.place s (ords j).length).1)) (x.place s (ords j).length).2, ?_,
    fun ω fuel s1 ce outs s2 he hf => ?_⟩
  · have := h1 (Sum.elim (fun c : OriginComponent s => (Sum.inl c.1.1, c.1.2))
        (fun x : MeasuredNumber s ords n => (Sum.inr (x.1.1, (x.1.2.place s (ords x.1.1).length).1), (x.1.2.place s (ords x.1.1).length).2)))
      (fun x y hxy => by
        cases x with
        | inl x =>
          cases y with
          | inl y =>
            simp only [Sum.elim_inl, Prod.mk.injEq, Sum.inl.injEq] at hxy
            exact congrArg _ (Subtype.ext (Prod.ext hxy.1 hxy.2))
          | inr y => simp at hxy
        | inr x =>
          cases y with
          | inl y => simp at hxy
          | inr y =>
            obtain ⟨⟨j, x⟩, hj, hx⟩ := x
            obtain ⟨⟨j', y⟩, hj', hy⟩ := y
            simp only [Sum.elim_inr, Prod.mk.injEq, Sum.inr.injEq] at hxy
            obtain ⟨⟨rfl, e1⟩, e2⟩ := hxy
            have : x = y := place_inj hx hy (Prod.ext e1 e2)
            subst this; rfl)
      (fun x => by
        cases x with
        | inl c =>
          obtain ⟨sig, hs, hk⟩ := c.2
          exact ⟨hl _ (mem_origins hw hs), lt_of_lt_of_le hk (callBehind_numbers nsigmas s hs)⟩
        | inr x => exact ⟨hr _ (mem_feedbackSrcs x.2.1 (place_used x.2.2).1), (place_used x.2.2).2.1⟩)
    refine ⟨fun x => ?_, ?_, fun x => ?_⟩
    · have := this.measurable x
      cases x <;> exact this
    · have hi := this.independent
      have e : (Sum.elim (fun c : OriginComponent s => W (.inl c.1.1) c.1.2) (fun x : MeasuredNumber s ords n =>
          W (.inr (x.1.1, (x.1.2.place s (ords x.1.1).length).1)) (x.1.2.place s (ords x.1.1).length).2)) =
          fun p => W (Sum.elim (fun c : OriginComponent s => ((Sum.inl c.1.1 : Origin ⊕ (ℕ × ℕ × Stage)), c.1.2))
            (fun x : MeasuredNumber s ords n => (Sum.inr (x.1.1, (x.1.2.place s (ords x.1.1).length).1), (x.1.2.place s (ords x.1.1).length).2)) p).1
            (Sum.elim (fun c : OriginComponent s => ((Sum.inl c.1.1 : Origin ⊕ (ℕ × ℕ × Stage)), c.1.2))
            (fun x : MeasuredNumber s ords n => (Sum.inr (x.1.1, (x.1.2.place s (ords x.1.1).length).1), (x.1.2.place s (ords x.1.1).length).2)) p).2 := by
        funext p; cases p <;> rfl
      show iIndepFun (Sum.elim (fun c : OriginComponent s => W (.inl c.1.1) c.1.2) (fun x : MeasuredNumber s ords n =>
          W (.inr (x.1.1, (x.1.2.place s (ords x.1.1).length).1)) (x.1.2.place s (ords x.1.1).length).2)) P
      rw [e]; exact hi
    · have hlaw := this.law x
      cases x with
      | inl c =>
        simp only [Sum.elim_inl, call, callBehind_cut] at hlaw
        exact hlaw
      | inr x =>
        simp only [Sum.elim_inr, call, (place_used x.2.2).2.2] at hlaw
        exact hlaw
  · obtain ⟨o, ret, hm, hm'⟩ := applyErrors_allCalls ht hw hL h6 he
    have al := applyErrors_measuredAlike hw h6 he
    obtain ⟨new, q, e, hlen, ret', read, -⟩ := feedback_calls
      (s := { s with INJ := { s.INJ with randomInjectionZ := s.SIG.randomInjectionZ } }) ho hj hloss ha n [] s1 s2 outs al (by simp) hf
    obtain ⟨new', -, e', -, -, -, mach⟩ := feedback_calls (s := s1) (fun j hjn => by rw [al.bpms]; exact ho j hjn) (by rw [al.jitter]; exact hj)
      hloss ha n [] s1 s2 outs (MeasuredAlike.refl s1) (by simp) hf
    rw [List.nil_append] at e e'
    subst e
    subst e'
    have hall : ReturnsAll E (fun k => X k ω) (srcs.map call) s.rng (srcs.map (Sum.elim o q)) s2.rng := by
      have := returnsAll_append (returnsAll_env ret) (returnsAll_env ret')
      simp only [srcs, List.map_append, List.map_map]
      exact this
    have hz := h2 ω _ _ hall
    have key : ∀ x sig, uncertaintyBehind s x = some sig → ∀ k < numbersFor sig, (o x).getD k 0 = W (.inl x) k ω := fun x sig hs k hk =>
      hz (.inl x) (hl _ (mem_origins hw hs)) k (lt_of_lt_of_le hk (callBehind_numbers nsigmas s hs))
    refine ⟨ErrorsMadeFrom.congr h6 hm (fun x sig hs => key (.inl x) sig hs), SupportsMadeFrom.congr hw hm' (fun x sig hs => key (.inr x) sig hs), hlen,
      fun j m out hjm => ?_, fun j m out hjm => ?_⟩
    · have := mach rfl j m out hjm
      simpa using this
    · obtain ⟨q1, q2⟩ := read j m out hjm
      have hjn : j < n := by rw [← hlen]; exact (List.getElem?_eq_some_iff.1 hjm).1
      simp only [List.length_nil, Nat.zero_add] at q2
      exact readFrom_congr q1 q2 (fun x hx => hz (.inr _) (hr _ (mem_feedbackSrcs hjn (place_used hx).1)) _ (place_used hx).2.1)

end law

/-! ### The measurements come to an end -/

theorem readingInOrder_congr {B : BeamEnv ℝ} {s t : SC ℝ} {req : Option (List Nat)} (h : withoutRng s = withoutRng t) (hr : ReadingInOrder B s req) :
    ReadingInOrder B t req := by
  have e1 : s.RING = t.RING := by have := congrArg SC.RING h; exact this
  have e2 : s.INJ = t.INJ := by have := congrArg SC.INJ h; exact this
  have e3 : s.ORD = t.ORD := by have := congrArg SC.ORD h; exact this
  obtain ⟨a, b, c, d, e⟩ := hr
  unfold noiseName at c
  rw [e3] at a
  rw [e2] at b d
  rw [e1, e2, e3] at c e
  exact ⟨a, b, c, d, e⟩

theorem seenInSomeTurn_congr {B : BeamEnv ℝ} {s t : SC ℝ} (h : withoutRng s = withoutRng t) (hr : SeenInSomeTurn B s) : SeenInSomeTurn B t := by
  have e1 : s.RING = t.RING := by have := congrArg SC.RING h; exact this
  have e2 : s.INJ = t.INJ := by have := congrArg SC.INJ h; exact this
  have e3 : s.ORD = t.ORD := by have := congrArg SC.ORD h; exact this
  unfold SeenInSomeTurn noiseName at hr ⊢
  rwa [e1, e2, e3] at hr

theorem feedback_settles {E : Env ℝ} (hE : KeepsDrawing E.randn) {B : BeamEnv ℝ} {req : ℕ → Option (List Nat)} {ce : Bool} {adjust : Adjustment}
    {s : SC ℝ} {N : ℕ} (ha : KeepsSettings adjust)
    (hs : ∀ j < N, ∀ shown, ReadingInOrder B (machineAt adjust s shown j) (req j))
    (hp : s.INJ.trackMode = "PORB" → ∀ j < N, ∀ shown, SeenInSomeTurn B (machineAt adjust s shown j)) :
    ∀ (n : ℕ) (past : List (SC ℝ × Reading ℝ)) (s0 : SC ℝ), MeasuredAlike s s0 → past.length + n = N →
      withoutRng s0 = machineBefore adjust s (shownIn past) past.length →
      Settles (fun _ _ => False) (fun f => feedback (E.passes f) B req ce adjust n past) s0 (fun _ _ => True) := by
  intro n
  induction n with
  | zero => intro past s0 _ _ _; exact Settles.pure trivial
  | succ n ih =>
    intro past s0 hs0 hN hb
    unfold feedback
    refine (Settles.modify (P := fun _ t => t = { adjust (shownIn past) (withoutRng s0) with rng := s0.rng }) rfl).bind (fun _ s1 hs1 => ?_)
    have a1 : MeasuredAlike s s1 := by
      rw [hs1]
      exact ((hs0.trans (MeasuredAlike.rng s0 0)).trans (ha _ _)).trans (MeasuredAlike.rng _ _)
    have m1 : withoutRng s1 = machineAt adjust s (shownIn past) past.length := by
      rw [machineAt_eq, ← hb, hs1, List.take_of_length_le (by simp)]; rfl
    have r1 : ReadingInOrder B s1 (req past.length) := by
      refine readingInOrder_congr ?_ (hs past.length (by omega) (shownIn past))
      rw [m1, machineAt_eq]; rfl
    have p1 : s1.INJ.trackMode = "PORB" → SeenInSomeTurn B s1 := by
      intro h
      rw [a1.mode] at h
      refine seenInSomeTurn_congr ?_ (hp h past.length (by omega) (shownIn past))
      rw [m1, machineAt_eq]; rfl
    refine (Settles.get (P := fun a t => a = s1 ∧ t = s1) ⟨rfl, rfl⟩).bind (fun _ _ e => ?_)
    obtain ⟨rfl, rfl⟩ := e
    rename_i s1
    refine (bpmReading_settles hE r1 p1 ce).bind (fun out s2 h2 => ?_)
    obtain ⟨pos, rfl⟩ := h2
    refine ih _ _ (a1.trans (MeasuredAlike.rng _ _)) (by simp; omega) ?_
    rw [List.length_append, List.length_singleton]
    change withoutRng s1 = machineAt adjust s _ past.length
    rw [m1]
    refine machineAt_congr rfl ?_
    rw [shownIn, shownIn, List.map_append, List.take_left' (by simp), List.take_of_length_le (by simp)]

end PySC
