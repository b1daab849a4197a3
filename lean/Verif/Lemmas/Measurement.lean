import Verif.Lemmas.Applicable
import Verif.Lemmas.ApplicableSupports
import Verif.Lemmas.CommonNumbers
import Verif.Spec.Measurement
/-
Measurements on a machine in order come to an end (C99).
-/
namespace PySC
open Py Spec
set_option linter.unusedSectionVars false

theorem Settles.mapEach {σ α β : Type} {Bad : Err → σ → Prop} {l : List α} {g : Nat → α → Py σ β} {I : σ → Prop} {Q : β → Prop}
    (hg : ∀ x ∈ l, ∀ s, I s → Settles Bad (fun f => g f x) s (fun b t => I t ∧ Q b)) {s : σ} (hs : I s) :
    Settles Bad (fun f => Py.mapEach l (g f)) s (fun bs t => I t ∧ bs.length = l.length ∧ ∀ b ∈ bs, Q b) := by
  induction l generalizing s with
  | nil => exact of_ok (fun _ => rfl) ⟨hs, rfl, by simp⟩
  | cons x l ih =>
    simp only [mapEach_cons]
    refine bind (hg x (by simp) s hs) (fun b t ht => ?_)
    refine bind (ih (fun y hy => hg y (by simp [hy])) ht.1) (fun bs u hu => Settles.pure ?_)
    refine ⟨hu.1, by simp [hu.2.1], fun b' hb' => ?_⟩
    rcases List.mem_cons.1 hb' with rfl | hb'
    · exact ht.2
    · exact hu.2.2 b' hb'

variable {K : Type} [Field K] [LinearOrder K] {Bad : Err → SC K → Prop}

/-- the state up to the position in the random stream -/
def UpToRng (s t : SC K) : Prop := ∃ pos, t = { s with rng := pos }

theorem UpToRng.refl (s : SC K) : UpToRng s s := ⟨s.rng, rfl⟩
theorem UpToRng.trans {s t u : SC K} (h : UpToRng s t) (h' : UpToRng t u) : UpToRng s u := by
  obtain ⟨p, rfl⟩ := h; obtain ⟨q, rfl⟩ := h'; exact ⟨q, rfl⟩

theorem bunchFrom_of {B : BeamEnv K} {randn : Nat → K} {lo hi : Nat} {inj : Inj K} {Z : List (List K)}
    (h : IsBunch B randn lo hi inj inj.nParticles Z) : ∃ z w, BunchFrom B inj z w Z := by
  obtain ⟨mid, c, z, -, -, hc, hc', h⟩ := h
  rcases h with ⟨h1, h2⟩ | ⟨h1, m, w, Zs, h2, -, h3, h4, h5⟩
  · refine ⟨z, fun _ _ => 0, c, hc, ?_, Or.inl ⟨h1, h2⟩⟩
    intro k hk
    obtain ⟨r, z0, e1, e2, e3⟩ := hc' k hk
    simp only [coef, List.getD_eq_getElem?_getD, e1, e2, e3, Option.getD_some]
    ring
  · refine ⟨z, fun j i => w (j, i), c, hc, ?_, Or.inr ⟨h1, m, Zs, h2, h3, h4, h5⟩⟩
    intro k hk
    obtain ⟨r, z0, e1, e2, e3⟩ := hc' k hk
    simp only [coef, List.getD_eq_getElem?_getD, e1, e2, e3, Option.getD_some]
    ring

variable [IsStrictOrderedRing K] [FloorRing K]

theorem generateBunches_settles {E : Env K} (hE : KeepsDrawing E.randn) {B : BeamEnv K} {np : Option Nat} {s : SC K}
    (h : BunchInOrder B s.INJ (np.getD s.INJ.nParticles)) :
    Settles Bad (fun f => generateBunches (E.passes f) B np) s (fun Z t => UpToRng s t ∧
      ∃ lo hi, IsBunch B E.randn lo hi s.INJ (np.getD s.INJ.nParticles) Z) := by
  suffices hs : Settles Bad (fun f => generateBunches (E.passes f) B np) s (fun _ t => UpToRng s t) by
    exact hs.post (fun f Z t hf => ⟨_, _, (generateBunches_ok h.jitter hf).2⟩)
  unfold generateBunches
  refine (Settles.get (P := fun a t => a = s ∧ t = s) ⟨rfl, rfl⟩).bind (fun _ _ e => ?_)
  obtain ⟨rfl, rfl⟩ := e
  rename_i s
  refine (randnc_settles hE two_ne_zero 6 s).bind (fun z t ht => ?_)
  obtain ⟨⟨hz, -⟩, hu⟩ := ht
  have h1 : bmul s.INJ.randomInjectionZ z = .ok (List.zipWith (· * ·) s.INJ.randomInjectionZ z) := by
    unfold bmul; rw [if_pos (by rw [h.jitter, hz])]
  refine (Settles.lift (P := fun a t' => a = List.zipWith (· * ·) s.INJ.randomInjectionZ z ∧ t' = t) h1 ⟨rfl, rfl⟩).bind (fun _ _ e => ?_)
  obtain ⟨rfl, rfl⟩ := e
  have h2 : vadd (List.zipWith (· * ·) s.INJ.randomInjectionZ z) s.INJ.Z0 =
      .ok (List.zipWith (· + ·) (List.zipWith (· * ·) s.INJ.randomInjectionZ z) s.INJ.Z0) := by
    unfold vadd; rw [if_pos (by simp [h.jitter, h.centre, hz])]
  refine (Settles.lift (P := fun a t' => a.length = 6 ∧ t' = _) h2 ⟨by simp [h.jitter, h.centre, hz], rfl⟩).bind (fun c _ e => ?_)
  obtain ⟨hc, rfl⟩ := e
  by_cases hn : np.getD s.INJ.nParticles = 1
  · simp only [if_pos hn]
    exact Settles.pure hu
  · simp only [if_neg hn]
    obtain ⟨m, hm, hml⟩ := h.size hn
    refine (Settles.lift (P := fun a t' => a = m ∧ t' = _) hm ⟨rfl, rfl⟩).bind (fun m _ e => ?_)
    obtain ⟨rfl, rfl⟩ := e
    refine (randnc_settles hE three_ne_zero _ _).bind (fun w t ht => ?_)
    obtain ⟨-, hu'⟩ := ht
    obtain ⟨y, hy⟩ := mapM_except_total (f := fun j => vadd c (matVec m (column6 w (np.getD s.INJ.nParticles) j)))
      (l := List.range (np.getD s.INJ.nParticles)) (fun j _ => by
        unfold vadd; rw [if_pos (by simp [matVec, hc, hml])]; exact ⟨_, rfl⟩)
    refine (Settles.lift (P := fun a t' => t' = _) hy rfl).bind (fun _ _ e => ?_)
    subst e
    exact Settles.pure (UpToRng.trans hu hu')

theorem bpm_signal_pos {e : BpmErr K} (he : 2 * |e.sum| < 1) {zs : K} (hz : |zs| ≤ 2) : 0 < 1 + e.sum * zs := by
  have h1 : |e.sum * zs| ≤ |e.sum| * 2 := by rw [abs_mul]; exact mul_le_mul_of_nonneg_left hz (abs_nonneg _)
  have h2 := neg_abs_le (e.sum * zs)
  linarith

theorem transmission_nonneg {e : BpmErr K} (he : 2 * |e.sum| < 1) {zs : K} (hz : |zs| ≤ 2) (P : List (Option K × Option K)) :
    0 ≤ transmission e P zs := by
  unfold transmission aliveFraction
  exact mul_nonneg (by positivity) (bpm_signal_pos he hz).le

theorem transmission_pos {e : BpmErr K} (he : 2 * |e.sum| < 1) {zs : K} (hz : |zs| ≤ 2) {P : List (Option K × Option K)}
    (hP : ∃ p ∈ P, p.1.isSome = true) : 0 < transmission e P zs := by
  obtain ⟨p, hp, hs⟩ := hP
  have h1 : 0 < (P.filter (fun p => p.1.isSome)).length := List.length_pos_of_mem (List.mem_filter.2 ⟨hp, hs⟩)
  have h2 : 0 < P.length := List.length_pos_of_mem hp
  have h3 : (0 : K) < ((P.filter (fun p => p.1.isSome)).length : K) := Nat.cast_pos.2 h1
  have h4 : (0 : K) < (P.length : K) := Nat.cast_pos.2 h2
  unfold transmission aliveFraction
  exact mul_pos (div_pos h3 h4) (bpm_signal_pos he hz)

theorem cell_finite {e : BpmErr K} (he : 2 * |e.sum| < 1) {zs : K} (hz : |zs| ≤ 2) {P : List (Option K × Option K)} (hP : P ≠ []) :
    cellInfinite e P zs = false := by
  unfold cellInfinite
  rw [Bool.or_eq_false_iff]
  refine ⟨by simpa using hP, ?_⟩
  rw [Bool.and_eq_false_iff]
  by_cases hs : ∃ p ∈ P, p.1.isSome = true
  · exact Or.inl (decide_eq_false (transmission_pos he hz hs).ne')
  · refine Or.inr ?_
    rw [List.any_eq_false]
    exact fun p hp hp' => hs ⟨p, hp, hp'⟩

theorem realBpmReading_settles {E : Env K} (hE : KeepsDrawing E.randn) {B : BeamEnv K} {ords : List Nat} {nt : Nat}
    {trk : Nat → Nat → List (Option K × Option K)} {s : SC K}
    (hb : ∀ i ∈ ords, ∃ e, BpmAt s.RING (noiseName s) i e ∧ 2 * |e.sum| < 1) (ht : ∀ b < ords.length, ∀ t < nt, trk b t ≠ []) :
    Settles Bad (fun f => realBpmReading (E.passes f) B ords nt trk) s (fun c t => UpToRng s t ∧
      ∃ (e : Nat → BpmErr K) (z : ZIx → K), (∀ b i, ords[b]? = some i → BpmAt s.RING (noiseName s) i (e b)) ∧
      ∀ b t, b < ords.length → t < nt → |z (2, b, t)| ≤ 2 ∧
        c b t = realReading1 B s.INJ.beamLostAt (e b) (trk b t) (z (0, b, t)) (z (1, b, t)) (z (2, b, t))) := by
  suffices hs : Settles Bad (fun f => realBpmReading (E.passes f) B ords nt trk) s (fun _ t => UpToRng s t) by
    refine hs.post (fun f c t hf => ?_)
    obtain ⟨-, e, z, h1, h2, h3⟩ := realBpmReading_ok hf
    refine ⟨e, z, h1, fun b t hb ht => ⟨?_, (h3 b t hb ht).1⟩⟩
    obtain ⟨p, -, h2⟩ := h2
    have := (h2 (2, b, t) ⟨hb, ht⟩).2.2.2
    rwa [abs_of_pos (by norm_num : (0 : K) < 2)] at this
  unfold realBpmReading
  refine (Settles.get (P := fun a t => a = s ∧ t = s) ⟨rfl, rfl⟩).bind (fun _ _ e => ?_)
  obtain ⟨rfl, rfl⟩ := e
  rename_i s
  have hn : ∃ w, ords.mapM (fun i => s.RING.getPair i (if s.INJ.trackMode = "ORB" then "NoiseCO" else "Noise")) = .ok w :=
    mapM_except_total (fun i hi => by
      obtain ⟨e, he, -⟩ := hb i hi
      exact ⟨e.noise, Ring.getPair_eq_ok.2 he.noise⟩)
  obtain ⟨noise, hn⟩ := hn
  refine (Settles.rd (P := fun a t => a = noise ∧ t = s) hn ⟨rfl, rfl⟩).bind (fun noise s e => ?_)
  obtain ⟨rfl, rfl⟩ := e
  refine (randnc_settles hE two_ne_zero _ _).bind (fun zn t h => ?_)
  obtain ⟨⟨-, hzn⟩, pos, rfl⟩ := h
  obtain ⟨hnl, hn'⟩ := mapM_except_eq_ok hn
  have he : ∃ w, (ords.zip noise).mapM (fun (i, n) => do
      let o ← s.RING.getPair i "Offset"
      let so ← s.RING.getPair i "SupportOffset"
      let c ← s.RING.getPair i "CalError"
      let ro ← s.RING.getNum i "Roll"
      let sr ← s.RING.getNum i "SupportRoll"
      let su ← s.RING.getNum i "SumError"
      .ok { noise := n, offset := (o.1 + so.1, o.2 + so.2), cal := c, roll := ro + sr, sum := su : BpmErr K }) = .ok w :=
    mapM_except_total (fun p hp => by
      obtain ⟨e, he, -⟩ := hb p.1 (List.of_mem_zip hp).1
      obtain ⟨ox, oy, sx, sy, h1, h2, -⟩ := he.offset
      obtain ⟨a, b, h3, h4, -⟩ := he.roll
      have g1 : s.RING.getPair p.1 "Offset" = .ok (ox, oy) := Ring.getPair_eq_ok.2 h1
      have g2 : s.RING.getPair p.1 "SupportOffset" = .ok (sx, sy) := Ring.getPair_eq_ok.2 h2
      have g3 : s.RING.getPair p.1 "CalError" = .ok e.cal := Ring.getPair_eq_ok.2 he.cal
      have g4 : s.RING.getNum p.1 "Roll" = .ok a := Ring.getNum_eq_ok.2 h3
      have g5 : s.RING.getNum p.1 "SupportRoll" = .ok b := Ring.getNum_eq_ok.2 h4
      have g6 : s.RING.getNum p.1 "SumError" = .ok e.sum := Ring.getNum_eq_ok.2 he.sum
      simp only [g1, g2, g3, g4, g5, g6]
      exact ⟨_, rfl⟩)
  obtain ⟨errs, he⟩ := he
  refine (Settles.rd (P := fun a t => a = errs ∧ t = { s with rng := pos }) he ⟨rfl, rfl⟩).bind (fun errs _ e => ?_)
  obtain ⟨rfl, rfl⟩ := e
  refine (randnc_settles hE two_ne_zero _ _).bind (fun zs t h => ?_)
  obtain ⟨⟨hzl, hzs⟩, pos', rfl⟩ := h
  have hfin : (List.range ords.length).any (fun b => (List.range nt).any (fun t =>
      cellInfinite (errs.getD b ⟨(0, 0), (0, 0), (0, 0), 0, 0⟩) (trk b t) (zs.getD (b * nt + t) 0))) = false := by
    rw [List.any_eq_false]
    intro b hb'
    rw [Bool.not_eq_true, List.any_eq_false]
    intro t ht'
    rw [Bool.not_eq_true]
    have hb1 := List.mem_range.1 hb'
    refine cell_finite ?_ ?_ (ht b hb1 t (List.mem_range.1 ht'))
    · obtain ⟨hel, he'⟩ := mapM_except_eq_ok he
      obtain ⟨n, -, hn1⟩ := hn' b ords[b] (List.getElem?_eq_getElem hb1)
      have hz : (ords.zip noise)[b]? = some (ords[b], n) := by
        rw [List.getElem?_zip_eq_some]; exact ⟨List.getElem?_eq_getElem hb1, hn1⟩
      obtain ⟨e', hw2, hw1⟩ := he' b _ hz
      obtain ⟨e, hea, hes⟩ := hb ords[b] (List.getElem_mem hb1)
      rw [List.getD_eq_getElem?_getD, hw1, Option.getD_some]
      simp only [Except.bind_eq_ok'] at hw2
      obtain ⟨_, -, _, -, _, -, _, -, _, -, su, hsu, heq⟩ := hw2
      cases heq
      have := Ring.getNum_eq_ok.1 hsu
      rw [hea.sum] at this
      cases this
      exact hes
    · rw [List.getD_eq_getElem?_getD]
      cases hx : zs[b * nt + t]? with
      | none => simp
      | some x =>
        have := hzs x (List.mem_of_getElem? hx)
        rw [abs_of_pos (by norm_num : (0 : K) < 2)] at this
        simpa using this
  simp only [hfin, Bool.false_eq_true, if_false]
  exact Settles.pure ⟨pos', rfl⟩

/-! ### All shots -/

/-- what is known about the cells of one shot -/
def GoodShot (B : BeamEnv K) (s : SC K) (ords : List Nat) (c : Nat → Nat → Cell K) : Prop :=
  ∀ b i, ords[b]? = some i → ∀ t < s.INJ.nTurns, ∃ e Z zx zy zs, BpmAt s.RING (noiseName s) i e ∧ |zs| ≤ 2 ∧
    (s.INJ.trackMode ≠ "ORB" → ∃ z w, BunchFrom B s.INJ z w Z) ∧
    c b t = realReading1 B s.INJ.beamLostAt e ((seenAt B s Z i t).map maskY) zx zy zs

theorem getD_of_getElem? {α : Type} {l : List α} {b : Nat} {i d : α} (h : l[b]? = some i) : l.getD b d = i := by
  rw [List.getD_eq_getElem?_getD, h, Option.getD_some]

theorem oneShot_settles {E : Env K} (hE : KeepsDrawing E.randn) {B : BeamEnv K} {s : SC K} {req : Option (List Nat)} (hs : ReadingInOrder B s req)
    {ords : List Nat} (ho : ∀ i ∈ ords, i ∈ s.ORD.BPM) {u : SC K} (hu : UpToRng s u) :
    Settles Bad (fun f => (do
      let trk ← tracking (E.passes f) B ords
      if s.INJ.trackMode = "ORB" then do
        let c ← realBpmReading (E.passes f) B ords 1 trk
        Py.pure (fun b (_ : Nat) => c b 0)
      else realBpmReading (E.passes f) B ords s.INJ.nTurns trk : Py (SC K) (Nat → Nat → Cell K))) u
      (fun c t => UpToRng s t ∧ GoodShot B s ords c) := by
  have hbpm : ∀ {v : SC K}, UpToRng s v → ∀ i ∈ ords, ∃ e, BpmAt v.RING (noiseName v) i e ∧ 2 * |e.sum| < 1 := by
    rintro v ⟨p, rfl⟩ i hi
    exact hs.bpm i (ho i hi)
  by_cases hm : s.INJ.trackMode = "ORB"
  · have ht : Settles Bad (fun f => tracking (E.passes f) B ords) u
        (fun trk t => t = u ∧ trk = fun b _ => [maskY (B.orbit s.RING (ords.getD b 0))]) := by
      unfold tracking
      refine (Settles.get (P := fun a t => a = u ∧ t = u) ⟨rfl, rfl⟩).bind (fun _ _ e => ?_)
      obtain ⟨rfl, rfl⟩ := e
      obtain ⟨p, rfl⟩ := hu
      simp only [hm, if_true]
      exact Settles.pure ⟨rfl, rfl⟩
    refine ht.bind (fun trk t h => ?_)
    obtain ⟨h1, h2⟩ := h
    simp only [hm, if_true]
    rw [h1]
    have hr := realBpmReading_settles (Bad := Bad) hE (B := B) (nt := 1) (trk := trk) (hbpm hu) (fun b _ t _ => by rw [h2]; simp)
    refine hr.bind (fun c v hc => Settles.pure ⟨hu.trans hc.1, ?_⟩)
    obtain ⟨p, rfl⟩ := hu
    obtain ⟨-, e, z, h3, h4⟩ := hc
    intro b i hb t ht
    obtain ⟨h5, h6⟩ := h4 b 0 (List.getElem?_eq_some_iff.1 hb).1 zero_lt_one
    refine ⟨e b, [], z (0, b, 0), z (1, b, 0), z (2, b, 0), h3 b i hb, h5, fun h => (h hm).elim, ?_⟩
    beta_reduce
    rw [h6, h2]
    simp only [getD_of_getElem? hb, seenAt, if_pos hm, List.map_cons, List.map_nil]
  · have hbu := hs.bunch hm
    have ht : Settles Bad (fun f => tracking (E.passes f) B ords) u
        (fun trk t => UpToRng s t ∧ ∃ Z z w, BunchFrom B s.INJ z w Z ∧ trk = fun b t => (B.track s.RING Z (ords.getD b 0) t).map maskY) := by
      unfold tracking
      refine (Settles.get (P := fun a t => a = u ∧ t = u) ⟨rfl, rfl⟩).bind (fun _ _ e => ?_)
      obtain ⟨rfl, rfl⟩ := e
      have hu' := hu
      obtain ⟨p, rfl⟩ := hu
      simp only [hm, if_false]
      have hg := generateBunches_settles (Bad := Bad) hE (B := B) (np := none) (s := { s with rng := p }) hbu
      refine hg.bind (fun Z v hv => Settles.pure ⟨hu'.trans hv.1, ?_⟩)
      obtain ⟨-, lo, hi, hZ⟩ := hv
      obtain ⟨z, w, hZ⟩ := bunchFrom_of hZ
      exact ⟨Z, z, w, hZ, rfl⟩
    refine ht.bind (fun trk v h => ?_)
    obtain ⟨hv, Z, z, w, hZ, h2⟩ := h
    simp only [hm, if_false]
    have hr := realBpmReading_settles (Bad := Bad) hE (B := B) (nt := s.INJ.nTurns) (trk := trk) (hbpm hv) (fun b hb t ht => by
      rw [h2]
      simp only [List.getD_eq_getElem _ 0 hb, ne_eq, List.map_eq_nil_iff]
      exact hs.particles hm z w Z hZ _ (ho _ (List.getElem_mem hb)) t ht)
    refine hr.mono (fun c v' hc => ⟨hv.trans hc.1, ?_⟩)
    obtain ⟨p, rfl⟩ := hv
    obtain ⟨-, e, z', h3, h4⟩ := hc
    intro b i hb t ht
    obtain ⟨h5, h6⟩ := h4 b t (List.getElem?_eq_some_iff.1 hb).1 ht
    refine ⟨e b, Z, z' (0, b, t), z' (1, b, t), z' (2, b, t), h3 b i hb, h5, fun _ => ⟨z, w, hZ⟩, ?_⟩
    rw [h6, h2]
    simp only [getD_of_getElem? hb, seenAt, if_neg hm]

/-- a reading comes with a signal -/
theorem realReading1_sum {B : BeamEnv K} {lostAt : K} {e : BpmErr K} (he : 2 * |e.sum| < 1) {P : List (Option K × Option K)} {zx zy zs : K}
    (hz : |zs| ≤ 2) : (∀ w, (realReading1 B lostAt e P zx zy zs).sum = some w → 0 ≤ w) ∧
      ((realReading1 B lostAt e P zx zy zs).x ≠ none ∨ (realReading1 B lostAt e P zx zy zs).y ≠ none →
        ∃ w, 0 < w ∧ (realReading1 B lostAt e P zx zy zs).sum = some w) := by
  unfold realReading1
  by_cases h1 : transmission e P zs < 1 - lostAt
  · rw [if_pos h1]; simp
  rw [if_neg h1]
  cases hx : nanmean (P.map Prod.fst) with
  | none =>
    refine ⟨fun w hw => ?_, fun h => by simp at h⟩
    cases hw; exact transmission_nonneg he hz P
  | some mx =>
    cases hy : nanmean (P.map Prod.snd) with
    | none =>
      refine ⟨fun w hw => ?_, fun h => by simp at h⟩
      cases hw; exact transmission_nonneg he hz P
    | some my =>
      refine ⟨fun w hw => ?_, fun _ => ⟨_, ?_, rfl⟩⟩
      · cases hw; exact transmission_nonneg he hz P
      · refine transmission_pos he hz ?_
        unfold nanmean at hx
        split at hx
        · cases hx
        rename_i hne
        rw [Bool.not_eq_true, List.isEmpty_eq_false_iff_exists_mem] at hne
        obtain ⟨v, hv⟩ := hne
        obtain ⟨o, ho, hov⟩ := List.mem_filterMap.1 hv
        obtain ⟨p, hp, rfl⟩ := List.mem_map.1 ho
        exact ⟨p, hp, by rw [show p.1 = some v from hov]; rfl⟩

theorem orbitError_total {B : BeamEnv K} {mean : Option K} {cells : List (Option K × Option K)} (hne : cells ≠ [])
    (h : ∀ p ∈ cells, p.1 ≠ none → ∃ w, 0 < w ∧ p.2 = some w) : ∃ r, orbitError B mean cells = .ok r := by
  unfold orbitError
  by_cases h1 : cells.any (fun p => p.1.isNone) = true
  · rw [if_pos h1]; exact ⟨_, rfl⟩
  rw [if_neg h1]
  have hpos : ∀ {l : List (Option K × Option K)}, l ≠ [] → (∀ p ∈ l, p.1 ≠ none ∧ ∃ w, 0 < w ∧ p.2 = some w) →
      0 < ((valid l).map Prod.snd).sum := by
    intro l
    induction l with
    | nil => intro h; exact (h rfl).elim
    | cons p l ih =>
      intro _ hl
      obtain ⟨hp, w, hw, hpw⟩ := hl p (by simp)
      obtain ⟨v, hv⟩ := Option.ne_none_iff_exists'.1 hp
      have hcons : valid (p :: l) = (v, w) :: valid l := by
        unfold valid; rw [List.filterMap_cons]; simp only [hv, hpw]
      rw [hcons, List.map_cons, List.sum_cons]
      rcases eq_or_ne l [] with rfl | hl0
      · simpa [valid] using hw
      · exact add_pos hw (ih hl0 (fun q hq => hl q (by simp [hq])))
  have := hpos hne (fun p hp => by
    have hp1 : p.1 ≠ none := fun h0 => h1 (List.any_eq_true.2 ⟨p, hp, by rw [h0]; rfl⟩)
    exact ⟨hp1, h p hp hp1⟩)
  simp only [this.ne', if_false]
  exact ⟨_, rfl⟩

theorem nansum_nonneg {l : List (Option K)} (h : ∀ w, some w ∈ l → 0 ≤ w) : 0 ≤ nansum l := by
  unfold nansum
  refine List.sum_nonneg (fun w hw => ?_)
  obtain ⟨o, ho, hw⟩ := List.mem_filterMap.1 hw
  exact h w (hw ▸ ho)

theorem nansum_pos {l : List (Option K)} (h : ∀ w, some w ∈ l → 0 ≤ w) (h' : ∃ w, 0 < w ∧ some w ∈ l) : 0 < nansum l := by
  obtain ⟨w, hw, hm⟩ := h'
  unfold nansum
  have hmem : w ∈ l.filterMap id := List.mem_filterMap.2 ⟨_, hm, rfl⟩
  have := List.single_le_sum (l := l.filterMap id) (fun v hv => by
    obtain ⟨o, ho, hv⟩ := List.mem_filterMap.1 hv
    exact h v (hv ▸ ho)) w hmem
  exact lt_of_lt_of_le hw this

theorem porbAverage_total {nt : Nat} {v : Nat → Option K} {w : Nat → K} (h : ∀ t < nt, 0 ≤ w t) (h' : ∃ t < nt, 0 < w t) :
    ∃ r, porbAverage nt v w = .ok r := by
  obtain ⟨t, ht, hw⟩ := h'
  have : 0 < ((List.range nt).map w).sum := lt_of_lt_of_le hw
    (List.single_le_sum (by simpa using h) (w t) (List.mem_map.2 ⟨t, List.mem_range.2 ht, rfl⟩))
  unfold porbAverage
  simp only [this.ne', if_false]
  split
  · exact ⟨_, rfl⟩
  · exact ⟨_, rfl⟩

theorem tabulate_total {α : Type} {nb nt : Nat} {f : Nat → Nat → Except Err α} (h : ∀ b < nb, ∀ t < nt, ∃ r, f b t = .ok r) :
    ∃ l, tabulate nb nt f = .ok l := by
  unfold tabulate
  refine mapM_except_total (fun bt hbt => ?_)
  unfold flatten2 at hbt
  simp only [List.mem_flatMap, List.mem_map, List.mem_range] at hbt
  obtain ⟨t, ht, b, hb, rfl⟩ := hbt
  exact h b hb t ht

theorem registeredBpms_total {bpms : List Nat} {req : Option (List Nat)} (h : ∀ l, req = some l → ∃ i ∈ bpms, i ∈ l) :
    ∃ ords, registeredBpms bpms req = .ok ords := by
  cases req with
  | none => exact ⟨_, rfl⟩
  | some l =>
    unfold registeredBpms
    obtain ⟨i, hi, hil⟩ := h l rfl
    simp only
    rw [if_neg (by
      rw [Bool.not_eq_true, List.isEmpty_eq_false_iff_exists_mem]
      exact ⟨i, List.mem_filter.2 ⟨hi, decide_eq_true hil⟩⟩)]
    exact ⟨_, rfl⟩

/-- the measurement in any mode, if every BPM sees the beam at least once in 'PORB' mode -/
theorem bpmReading_settles {E : Env K} (hE : KeepsDrawing E.randn) {B : BeamEnv K} {s : SC K} {req : Option (List Nat)} (hs : ReadingInOrder B s req)
    (hp : s.INJ.trackMode = "PORB" → SeenInSomeTurn B s) (ce : Bool) :
    Settles Bad (fun f => bpmReading (E.passes f) B req ce) s (fun _ t => UpToRng s t) := by
  obtain ⟨ords, ho⟩ := registeredBpms_total hs.asked
  have hsub := (registeredBpms_ok ho).1.subset
  unfold bpmReading
  refine (Settles.get (P := fun a t => a = s ∧ t = s) ⟨rfl, rfl⟩).bind (fun _ _ e => ?_)
  obtain ⟨rfl, rfl⟩ := e
  rename_i s
  refine (Settles.lift (P := fun a t => a = ords ∧ t = s) ho ⟨rfl, rfl⟩).bind (fun ords s e => ?_)
  obtain ⟨rfl, rfl⟩ := e
  refine (Settles.mapEach (I := UpToRng s) (Q := GoodShot B s ords) (fun _ _ u hu => oneShot_settles hE hs (fun i hi => hsub hi) hu)
    (UpToRng.refl s)).bind (fun shots t ht => ?_)
  obtain ⟨hut, hlen, hgood⟩ := ht
  rw [List.length_range] at hlen
  simp only [hs.shots, if_false]
  have hne : shots ≠ [] := by
    intro h0; rw [h0] at hlen; exact hs.shots hlen.symm
  have hcell : ∀ c ∈ shots, ∀ b < ords.length, ∀ t < s.INJ.nTurns, (∀ w, (c b t).sum = some w → 0 ≤ w) ∧
      ((c b t).x ≠ none ∨ (c b t).y ≠ none → ∃ w, 0 < w ∧ (c b t).sum = some w) := by
    intro c hc b hb t ht
    obtain ⟨e, Z, zx, zy, zs, h1, h2, -, h3⟩ := hgood c hc b ords[b] (List.getElem?_eq_getElem hb) t ht
    obtain ⟨e', h1', h4⟩ := hs.bpm ords[b] (hsub (List.getElem_mem hb))
    rw [BpmAt_unique h1' h1] at h4
    rw [h3]
    exact realReading1_sum h4 h2
  by_cases hm : s.INJ.trackMode = "PORB"
  · simp only [hm, if_true]
    have hsums : ∀ b < ords.length, (∀ t < s.INJ.nTurns, 0 ≤ nansum (shots.map (fun c => (c b t).sum)) / (s.INJ.nShots : K)) ∧
        ∃ t < s.INJ.nTurns, 0 < nansum (shots.map (fun c => (c b t).sum)) / (s.INJ.nShots : K) := by
      intro b hb
      have hcast : (0 : K) < (s.INJ.nShots : K) := Nat.cast_pos.2 (Nat.pos_of_ne_zero hs.shots)
      have hnn : ∀ t < s.INJ.nTurns, ∀ w, some w ∈ shots.map (fun c => (c b t).sum) → 0 ≤ w := by
        intro t ht w hw
        obtain ⟨c, hc, hcw⟩ := List.mem_map.1 hw
        exact (hcell c hc b hb t ht).1 w hcw
      refine ⟨fun t ht => div_nonneg (nansum_nonneg (hnn t ht)) hcast.le, ?_⟩
      obtain ⟨t, ht, hseen⟩ := hp hm ords[b] (hsub (List.getElem_mem hb))
      refine ⟨t, ht, div_pos (nansum_pos (hnn t ht) ?_) hcast⟩
      obtain ⟨c, hc⟩ := List.exists_mem_of_ne_nil _ hne
      obtain ⟨e, Z, zx, zy, zs, h1, h2, h2', h3⟩ := hgood c hc b ords[b] (List.getElem?_eq_getElem hb) t ht
      obtain ⟨z, w, hZ⟩ := h2' (by rw [hm]; decide)
      obtain ⟨ha, hl⟩ := hseen z w Z hZ
      obtain ⟨e', h1', h4⟩ := hs.bpm ords[b] (hsub (List.getElem_mem hb))
      rw [BpmAt_unique h1' h1] at h4
      have hmode : seenAt B s Z ords[b] t = B.track s.RING Z ords[b] t := by
        unfold seenAt; rw [if_neg (by rw [hm]; decide)]
      rw [hmode] at h3
      have hloss : WholeLoss (B.track s.RING Z ords[b] t) := fun p hp _ => (ha.2 p hp).2
      have htr := transmission_mask e _ hloss zs
      rw [ha.signal] at htr
      have hsig := bpm_signal_pos h4 h2
      refine ⟨1 + e.sum * zs, hsig, List.mem_map.2 ⟨c, hc, ?_⟩⟩
      rw [h3]
      unfold realReading1
      rw [htr, if_neg]
      · split <;> rfl
      · rw [not_lt]
        have h5 := hl e h1
        have h6 : |e.sum * zs| ≤ |e.sum| * 2 := by rw [abs_mul]; exact mul_le_mul_of_nonneg_left h2 (abs_nonneg _)
        have h7 := neg_abs_le (e.sum * zs)
        linarith
    obtain ⟨x, hx⟩ := tabulate_total (nb := ords.length) (nt := 1)
      (f := fun b _ => porbAverage s.INJ.nTurns (fun t => maskedAverage (shots.map (fun c => ((c b t).x, (c b t).sum))))
        (fun t => nansum (shots.map (fun c => (c b t).sum)) / (s.INJ.nShots : K)))
      (fun b hb _ _ => porbAverage_total (hsums b hb).1 (hsums b hb).2)
    obtain ⟨y, hy⟩ := tabulate_total (nb := ords.length) (nt := 1)
      (f := fun b _ => porbAverage s.INJ.nTurns (fun t => maskedAverage (shots.map (fun c => ((c b t).y, (c b t).sum))))
        (fun t => nansum (shots.map (fun c => (c b t).sum)) / (s.INJ.nShots : K)))
      (fun b hb _ _ => porbAverage_total (hsums b hb).1 (hsums b hb).2)
    refine (Settles.lift (P := fun _ t' => t' = t) hx rfl).bind (fun _ _ e => ?_)
    subst e
    refine (Settles.lift (P := fun _ t' => t' = _) hy rfl).bind (fun _ _ e => ?_)
    subst e
    exact Settles.pure hut
  · simp only [hm, if_false]
    split
    · have hx : ∀ b < ords.length, ∀ t < s.INJ.nTurns, ∀ m, ∃ r, orbitError B m (shots.map (fun c => ((c b t).x, (c b t).sum))) = .ok r := by
        intro b hb t ht m
        refine orbitError_total (by simpa using hne) (fun p hp h0 => ?_)
        obtain ⟨c, hc, rfl⟩ := List.mem_map.1 hp
        exact (hcell c hc b hb t ht).2 (Or.inl h0)
      have hy : ∀ b < ords.length, ∀ t < s.INJ.nTurns, ∀ m, ∃ r, orbitError B m (shots.map (fun c => ((c b t).y, (c b t).sum))) = .ok r := by
        intro b hb t ht m
        refine orbitError_total (by simpa using hne) (fun p hp h0 => ?_)
        obtain ⟨c, hc, rfl⟩ := List.mem_map.1 hp
        exact (hcell c hc b hb t ht).2 (Or.inr h0)
      obtain ⟨ex, hex⟩ := tabulate_total (fun b hb t ht => hx b hb t ht (maskedAverage (shots.map (fun c => ((c b t).x, (c b t).sum)))))
      obtain ⟨ey, hey⟩ := tabulate_total (fun b hb t ht => hy b hb t ht (maskedAverage (shots.map (fun c => ((c b t).y, (c b t).sum)))))
      refine (Settles.lift (P := fun _ t' => t' = t) hex rfl).bind (fun _ _ e => ?_)
      subst e
      refine (Settles.lift (P := fun _ t' => t' = _) hey rfl).bind (fun _ _ e => ?_)
      subst e
      exact Settles.pure hut
    · exact Settles.pure hut

/-! ### A BPM which the beam does not reach -/

theorem mapM_except_fails {α β : Type} {f : α → Except Err β} {l : List α} {e : Err} (h : ∀ x ∈ l, (∃ y, f x = .ok y) ∨ f x = .error e)
    (h' : ∃ x ∈ l, f x = .error e) : l.mapM f = .error e := by
  induction l with
  | nil => obtain ⟨x, hx, -⟩ := h'; cases hx
  | cons x l ih =>
    rw [List.mapM_cons]
    rcases h x (by simp) with ⟨y, hy⟩ | hx
    · rw [hy]
      have : l.mapM f = .error e := ih (fun z hz => h z (by simp [hz])) (by
        obtain ⟨z, hz, he⟩ := h'
        rcases List.mem_cons.1 hz with rfl | hz
        · rw [hy] at he; cases he
        · exact ⟨z, hz, he⟩)
      rw [this]; rfl
    · rw [hx]; rfl

theorem porbAverage_cases (nt : Nat) (v : Nat → Option K) (w : Nat → K) :
    (∃ y, porbAverage nt v w = .ok y) ∨ porbAverage nt v w = .error .zeroDivision := by
  unfold porbAverage
  dsimp only
  split
  · exact Or.inr rfl
  · split
    · exact Or.inl ⟨_, rfl⟩
    · exact Or.inl ⟨_, rfl⟩

theorem tabulate_porb_fails {nb nt b : Nat} (hb : b < nb) {v : Nat → Nat → Option K} {w : Nat → Nat → K} (h : ∀ t < nt, w b t = 0) :
    tabulate nb 1 (fun b _ => porbAverage nt (v b) (w b)) = .error .zeroDivision := by
  unfold tabulate
  refine mapM_except_fails (fun bt _ => porbAverage_cases _ _ _) ⟨(b, 0), ?_, ?_⟩
  · unfold flatten2
    simp only [List.mem_flatMap, List.mem_map, List.mem_range]
    exact ⟨0, zero_lt_one, b, hb, rfl⟩
  · have : ((List.range nt).map (w b)).sum = 0 := by
      refine List.sum_eq_zero (fun x hx => ?_)
      obtain ⟨t, ht, rfl⟩ := List.mem_map.1 hx
      exact h t (List.mem_range.1 ht)
    unfold porbAverage
    simp only [this, if_true]

theorem realReading1_nobody {B : BeamEnv K} {lostAt : K} {e : BpmErr K} {P : List (Option K × Option K)} (hP : ∀ p ∈ P, p.1 = none) {zx zy zs : K} :
    (realReading1 B lostAt e (P.map maskY) zx zy zs).sum = none ∨ (realReading1 B lostAt e (P.map maskY) zx zy zs).sum = some 0 := by
  have h0 : transmission e (P.map maskY) zs = 0 := by
    unfold transmission aliveFraction
    have : (P.map maskY).filter (fun p => p.1.isSome) = [] := by
      rw [List.filter_eq_nil_iff]
      intro p hp
      obtain ⟨q, hq, rfl⟩ := List.mem_map.1 hp
      simp [maskY, hP q hq]
    rw [this]; simp
  unfold realReading1
  split
  · exact Or.inl rfl
  · split
    · exact Or.inr (by rw [h0])
    · exact Or.inr (by rw [h0])

theorem nansum_zero {l : List (Option K)} (h : ∀ o ∈ l, o = none ∨ o = some 0) : nansum l = 0 := by
  unfold nansum
  refine List.sum_eq_zero (fun w hw => ?_)
  obtain ⟨o, ho, hw⟩ := List.mem_filterMap.1 hw
  rcases h o ho with rfl | rfl
  · cases hw
  · exact (Option.some.inj hw).symm

theorem bpmReading_porb_fails {E : Env K} (hE : KeepsDrawing E.randn) {B : BeamEnv K} {s : SC K} {req : Option (List Nat)}
    (hs : ReadingInOrder B s req) (hm : s.INJ.trackMode = "PORB") (hout : OutOfReach B s req) (ce : Bool) :
    Settles (fun e t => e = .zeroDivision ∧ UpToRng s t) (fun f => bpmReading (E.passes f) B req ce) s (fun _ _ => False) := by
  obtain ⟨ords, ho⟩ := registeredBpms_total hs.asked
  obtain ⟨hsub', hreq⟩ := registeredBpms_ok ho
  have hsub := hsub'.subset
  unfold bpmReading
  refine (Settles.get (P := fun a t => a = s ∧ t = s) ⟨rfl, rfl⟩).bind (fun _ _ e => ?_)
  obtain ⟨rfl, rfl⟩ := e
  rename_i s
  refine (Settles.lift (P := fun a t => a = ords ∧ t = s) ho ⟨rfl, rfl⟩).bind (fun ords s e => ?_)
  obtain ⟨rfl, rfl⟩ := e
  refine (Settles.mapEach (I := UpToRng s) (Q := GoodShot B s ords) (fun _ _ u hu => oneShot_settles hE hs (fun i hi => hsub hi) hu)
    (UpToRng.refl s)).bind (fun shots t ht => ?_)
  obtain ⟨hut, -, hgood⟩ := ht
  simp only [hs.shots, hm, if_false, if_true]
  obtain ⟨i, hi, hil, hnone⟩ := hout
  obtain ⟨b, hb, rfl⟩ := List.getElem_of_mem ((hreq i).2 ⟨hi, hil⟩)
  have hzero : ∀ t < s.INJ.nTurns, nansum (shots.map (fun c => (c b t).sum)) / (s.INJ.nShots : K) = 0 := by
    intro t ht
    rw [nansum_zero, zero_div]
    intro o ho
    obtain ⟨c, hc, rfl⟩ := List.mem_map.1 ho
    obtain ⟨e, Z, zx, zy, zs, -, -, h2, h3⟩ := hgood c hc b ords[b] (List.getElem?_eq_getElem hb) t ht
    obtain ⟨z, w, hZ⟩ := h2 (by rw [hm]; decide)
    rw [h3, show seenAt B s Z ords[b] t = B.track s.RING Z ords[b] t by unfold seenAt; rw [if_neg (by rw [hm]; decide)]]
    exact realReading1_nobody (hnone z w Z hZ t ht)
  have hx := tabulate_porb_fails (nt := s.INJ.nTurns) hb (v := fun b t => maskedAverage (shots.map (fun c => ((c b t).x, (c b t).sum))))
    (w := fun b t => nansum (shots.map (fun c => (c b t).sum)) / (s.INJ.nShots : K)) hzero
  simp only [hx]
  exact Settles.of_bad (t := t) (e := .zeroDivision) (fun _ => rfl) ⟨rfl, hut⟩

theorem beamTransmission_settles {E : Env K} (hE : KeepsDrawing E.randn) {B : BeamEnv K} {s : SC K} {np nt : Option Nat}
    (h : BunchInOrder B s.INJ (np.getD s.INJ.nParticles)) (hZ : ∀ Z, Z.length = np.getD s.INJ.nParticles → B.postFun Z ≠ [])
    (ht : nt.getD s.INJ.nTurns ≠ 0) :
    Settles Bad (fun f => beamTransmission (E.passes f) B np nt) s (fun _ t => UpToRng s t) := by
  unfold beamTransmission
  refine (Settles.get (P := fun a t => a = s ∧ t = s) ⟨rfl, rfl⟩).bind (fun _ _ e => ?_)
  obtain ⟨rfl, rfl⟩ := e
  rename_i s
  refine (generateBunches_settles hE (np := some (np.getD s.INJ.nParticles)) h).bind (fun Z t hz => ?_)
  obtain ⟨hu, lo, hi, mid, c, z, -, -, -, -, hZ'⟩ := hz
  have hne : Z.isEmpty = false := by
    rw [List.isEmpty_eq_false_iff]
    rcases hZ' with ⟨h1, rfl⟩ | ⟨-, m, w, Zs, -, -, rfl, h4, -⟩
    · exact hZ [c] h1.symm
    · exact hZ Zs h4
  simp only [hne, Bool.false_eq_true, if_false, if_neg ht]
  exact Settles.pure hu

end PySC
