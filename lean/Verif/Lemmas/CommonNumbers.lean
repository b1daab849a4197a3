import Verif.Lemmas.PseudoOrbit
import Verif.Spec.CommonNumbers
/-
Readings of two machines taken with the same random numbers.
-/
set_option linter.unusedSectionVars false
namespace PySC
open Py Spec
variable {K : Type} [Field K] [LinearOrder K]

theorem randnc_same {E : Env K} {cut : K} {n : Nat} {s t s' t' : SC K} {l l' : List K} (hr : s.rng = t.rng)
    (h : randnc E cut n s = .ok l s') (h' : randnc E cut n t = .ok l' t') : l = l' ∧ s'.rng = t'.rng := by
  unfold randnc at h h'
  rw [← hr] at h'
  split at h
  · rename_i l0 pos he
    rw [he] at h'
    cases h; cases h'
    exact ⟨rfl, rfl⟩
  · cases h

theorem randnc_keeps {E : Env K} {cut : K} {n : Nat} {s s' : SC K} {l : List K} (h : randnc E cut n s = .ok l s') : OnlyRng s s' :=
  (randnc_fresh h).1

theorem generateBunches_same {E : Env K} {B : BeamEnv K} {np : Option Nat} {s t s' t' : SC K} {Z Z' : List (List K)} (hr : s.rng = t.rng)
    (hi : s.INJ = t.INJ) (h : generateBunches E B np s = .ok Z s') (h' : generateBunches E B np t = .ok Z' t') :
    Z = Z' ∧ s'.rng = t'.rng ∧ OnlyRng s s' ∧ OnlyRng t t' := by
  unfold generateBunches at h h'
  have h := bindGet_eq_ok.1 h
  have h' := bindGet_eq_ok.1 h'
  rw [← hi] at h'
  obtain ⟨z, s1, a1, h⟩ := bind_eq_ok.1 h
  obtain ⟨z', t1, a1', h'⟩ := bind_eq_ok.1 h'
  obtain ⟨rfl, r1⟩ := randnc_same hr a1 a1'
  obtain ⟨j, a2, h⟩ := bindLift_eq_ok.1 h
  obtain ⟨j', a2', h'⟩ := bindLift_eq_ok.1 h'
  rw [a2] at a2'; cases a2'
  obtain ⟨c, a3, h⟩ := bindLift_eq_ok.1 h
  obtain ⟨c', a3', h'⟩ := bindLift_eq_ok.1 h'
  rw [a3] at a3'; cases a3'
  split at h
  · rename_i hn
    rw [if_pos hn] at h'
    cases h; cases h'
    exact ⟨rfl, r1, randnc_keeps a1, randnc_keeps a1'⟩
  · rename_i hn
    rw [if_neg hn] at h'
    obtain ⟨m, a4, h⟩ := bindLift_eq_ok.1 h
    obtain ⟨m', a4', h'⟩ := bindLift_eq_ok.1 h'
    rw [a4] at a4'; cases a4'
    obtain ⟨w, s2, a5, h⟩ := bind_eq_ok.1 h
    obtain ⟨w', t2, a5', h'⟩ := bind_eq_ok.1 h'
    obtain ⟨rfl, r2⟩ := randnc_same r1 a5 a5'
    obtain ⟨Y, a6, h⟩ := bindLift_eq_ok.1 h
    obtain ⟨Y', a6', h'⟩ := bindLift_eq_ok.1 h'
    rw [a6] at a6'; cases a6'
    cases h; cases h'
    exact ⟨rfl, r2, (randnc_keeps a1).trans (randnc_keeps a5), (randnc_keeps a1').trans (randnc_keeps a5')⟩

/-- the random numbers of a shot -/
def shotZ (nb nt : Nat) (zn zs : List K) : ZIx → K
  | (0, b, t) => zn.getD (b * nt + t) 0
  | (1, b, t) => zn.getD (nb * nt + b * nt + t) 0
  | (2, b, t) => zs.getD (b * nt + t) 0

theorem realBpmReading_draws {E : Env K} {B : BeamEnv K} {ords : List Nat} {nt : Nat}
    {trk : Nat → Nat → List (Option K × Option K)} {s s' : SC K} {c : Nat → Nat → Cell K}
    (h : realBpmReading E B ords nt trk s = .ok c s') :
    ∃ (e : Nat → BpmErr K) (zn zs : List K) (s1 : SC K), randnc E 2 (2 * ords.length * nt) s = .ok zn s1 ∧
      randnc E 2 (ords.length * nt) s1 = .ok zs s' ∧
      (∀ b i, ords[b]? = some i → BpmAt s.RING (if s.INJ.trackMode = "ORB" then "NoiseCO" else "Noise") i (e b)) ∧
      (∀ b t, c b t = realReading1 B s.INJ.beamLostAt (e b) (trk b t) (shotZ ords.length nt zn zs (0, b, t))
        (shotZ ords.length nt zn zs (1, b, t)) (shotZ ords.length nt zn zs (2, b, t))) := by
  unfold realBpmReading at h
  have h := bindGet_eq_ok.1 h
  obtain ⟨noise, g1, h⟩ := bindRd_eq_ok.1 h
  obtain ⟨hnl, hn⟩ := mapM_except_eq_ok g1
  obtain ⟨zn, s2, h2, h⟩ := bind_eq_ok.1 h
  obtain ⟨o2, -, -⟩ := randnc_fresh h2
  obtain ⟨errs, g3, h⟩ := bindRd_eq_ok.1 h
  obtain ⟨hel, he⟩ := mapM_except_eq_ok g3
  obtain ⟨zs, s4, h4, h⟩ := bind_eq_ok.1 h
  have hring : s2.RING = s.RING := by rw [o2.1]
  split at h
  · cases h
  cases h
  refine ⟨fun b => errs.getD b ⟨(0, 0), (0, 0), (0, 0), 0, 0⟩, zn, zs, s2, h2, h4, ?_, fun b t => rfl⟩
  intro b i hb
  obtain ⟨n, hn1, hn2⟩ := hn b i hb
  obtain ⟨y, hy1, hy2⟩ := he b (i, n) (by rw [List.getElem?_zip_eq_some]; exact ⟨hb, hn2⟩)
  have hy : errs.getD b ⟨(0, 0), (0, 0), (0, 0), 0, 0⟩ = y := by
    rw [List.getD_eq_getElem?_getD, hy2]; rfl
  simp only [hy]
  rw [hring] at hy1
  simp only [Except.bind_eq_ok', Ring.getPair_eq_ok, Ring.getNum_eq_ok] at hy1
  obtain ⟨o, ho, so, hso, cc, hcc, ro, hro, sr, hsr, su, hsu, hy1⟩ := hy1
  cases hy1
  exact ⟨Ring.getPair_eq_ok.1 hn1, ⟨o.1, o.2, so.1, so.2, ho, hso, rfl⟩, ⟨ro, sr, hro, hsr, rfl⟩, hcc, hsu⟩

/-- one shot -/
def oneShot (E : Env K) (B : BeamEnv K) (ords : List Nat) (orb : Prop) [Decidable orb] (nt : Nat) : Py (SC K) (Nat → Nat → Cell K) := do
  let trk ← tracking E B ords
  if orb then do
    let c ← realBpmReading E B ords 1 trk
    Py.pure (fun b (_ : Nat) => c b 0)
  else realBpmReading E B ords nt trk

/-- what the cells of a shot are -/
def ShotOf (B : BeamEnv K) (s : SC K) (ords : List Nat) (Z : List (List K)) (z : ZIx → K) (c : Nat → Nat → Cell K) : Prop :=
  ∃ e : Nat → BpmErr K, (∀ b i, ords[b]? = some i → BpmAt s.RING (if s.INJ.trackMode = "ORB" then "NoiseCO" else "Noise") i (e b)) ∧
    ∀ b t i, ords[b]? = some i → c b t = realReading1 B s.INJ.beamLostAt (e b) ((seenAt B s Z i t).map maskY) (z (0, b, turnIx s t))
      (z (1, b, turnIx s t)) (z (2, b, turnIx s t))

theorem getD_of {ords : List Nat} {b i : Nat} (hb : ords[b]? = some i) : ords.getD b 0 = i := by
  rw [List.getD_eq_getElem?_getD, hb]; rfl

theorem oneShot_pair {E : Env K} {B : BeamEnv K} {ords : List Nat} {nt : Nat} {s t s' t' : SC K} {c c' : Nat → Nat → Cell K}
    (hr : s.rng = t.rng) (hi : s.INJ = t.INJ) (h : oneShot E B ords (s.INJ.trackMode = "ORB") nt s = .ok c s')
    (h' : oneShot E B ords (s.INJ.trackMode = "ORB") nt t = .ok c' t') :
    s'.rng = t'.rng ∧ OnlyRng s s' ∧ OnlyRng t t' ∧ ∃ Z z, (s.INJ.trackMode ≠ "ORB" → Injected E B s.INJ Z) ∧ ShotOf B s ords Z z c ∧ ShotOf B t ords Z z c' := by
  unfold oneShot at h h'
  obtain ⟨trk, s1, a1, h⟩ := bind_eq_ok.1 h
  obtain ⟨trk', t1, a1', h'⟩ := bind_eq_ok.1 h'
  unfold tracking at a1 a1'
  have a1 := bindGet_eq_ok.1 a1
  have a1' := bindGet_eq_ok.1 a1'
  by_cases hm : s.INJ.trackMode = "ORB"
  · have hm' : t.INJ.trackMode = "ORB" := by rw [← hi]; exact hm
    rw [if_pos hm] at h h' a1
    rw [if_pos hm'] at a1'
    cases a1; cases a1'
    obtain ⟨c0, s2, a2, h⟩ := bind_eq_ok.1 h
    obtain ⟨c0', t2, a2', h'⟩ := bind_eq_ok.1 h'
    cases h; cases h'
    obtain ⟨e, zn, zs, s3, g1, g2, g3, g4⟩ := realBpmReading_draws a2
    obtain ⟨e', zn', zs', t3, g1', g2', g3', g4'⟩ := realBpmReading_draws a2'
    obtain ⟨rfl, r1⟩ := randnc_same hr g1 g1'
    obtain ⟨rfl, r2⟩ := randnc_same r1 g2 g2'
    refine ⟨r2, (randnc_keeps g1).trans (randnc_keeps g2), (randnc_keeps g1').trans (randnc_keeps g2'), [], shotZ ords.length 1 zn zs,
      fun hh => absurd hm hh, ⟨e, g3, fun b t i hb => ?_⟩, ⟨e', g3', fun b t i hb => ?_⟩⟩
    · unfold seenAt turnIx
      rw [if_pos hm, if_pos hm]
      have := g4 b 0
      simp only [getD_of hb] at this
      exact this
    · unfold seenAt turnIx
      rw [if_pos hm', if_pos hm']
      have := g4' b 0
      simp only [getD_of hb] at this
      exact this
  · have hm' : t.INJ.trackMode ≠ "ORB" := by rw [← hi]; exact hm
    rw [if_neg hm] at h h' a1
    rw [if_neg hm'] at a1'
    obtain ⟨Z, s2, a2, a1⟩ := bind_eq_ok.1 a1
    obtain ⟨Z', t2, a2', a1'⟩ := bind_eq_ok.1 a1'
    cases a1; cases a1'
    obtain ⟨rfl, r0, o1, o2⟩ := generateBunches_same hr hi a2 a2'
    have i1 : s1.INJ = s.INJ := by rw [o1.1]
    have i2 : t1.INJ = t.INJ := by rw [o2.1]
    have j1 : s1.RING = s.RING := by rw [o1.1]
    have j2 : t1.RING = t.RING := by rw [o2.1]
    obtain ⟨e, zn, zs, s3, g1, g2, g3, g4⟩ := realBpmReading_draws h
    obtain ⟨e', zn', zs', t3, g1', g2', g3', g4'⟩ := realBpmReading_draws h'
    rw [i1, j1] at g3
    rw [i2, j2] at g3'
    rw [i1] at g4
    rw [i2] at g4'
    obtain ⟨rfl, r1⟩ := randnc_same r0 g1 g1'
    obtain ⟨rfl, r2⟩ := randnc_same r1 g2 g2'
    refine ⟨r2, o1.trans ((randnc_keeps g1).trans (randnc_keeps g2)), o2.trans ((randnc_keeps g1').trans (randnc_keeps g2')), Z,
      shotZ ords.length nt zn zs, fun _ => ⟨s, s1, rfl, a2⟩, ⟨e, g3, fun b t i hb => ?_⟩, ⟨e', g3', fun b t i hb => ?_⟩⟩
    · unfold seenAt turnIx
      rw [if_neg hm, if_neg hm, g4, getD_of hb]
    · unfold seenAt turnIx
      rw [if_neg hm', if_neg hm', g4', getD_of hb]

theorem ShotOf.keep {B : BeamEnv K} {s s1 : SC K} {ords : List Nat} {Z : List (List K)} {z : ZIx → K} {c : Nat → Nat → Cell K} (ho : OnlyRng s s1)
    (h : ShotOf B s1 ords Z z c) : ShotOf B s ords Z z c := by
  have hi : s1.INJ = s.INJ := by rw [ho.1]
  have hr : s1.RING = s.RING := by rw [ho.1]
  unfold ShotOf seenAt turnIx at h ⊢
  rw [hi, hr] at h
  exact h

theorem shots_pair {E : Env K} {B : BeamEnv K} {ords : List Nat} {n nt : Nat} {s t s' t' : SC K} {shots shots' : List (Nat → Nat → Cell K)}
    (hr : s.rng = t.rng) (hi : s.INJ = t.INJ)
    (h : mapEach (List.range n) (fun _ => oneShot E B ords (s.INJ.trackMode = "ORB") nt) s = .ok shots s')
    (h' : mapEach (List.range n) (fun _ => oneShot E B ords (s.INJ.trackMode = "ORB") nt) t = .ok shots' t') :
    s'.rng = t'.rng ∧ OnlyRng s s' ∧ OnlyRng t t' ∧ shots.length = n ∧ shots'.length = n ∧ ∃ (Z : Nat → List (List K)) (z : Nat × ZIx → K),
      (∀ k < n, s.INJ.trackMode ≠ "ORB" → Injected E B s.INJ (Z k)) ∧
      ∀ k < n, ∃ c c', shots[k]? = some c ∧ shots'[k]? = some c' ∧ ShotOf B s ords (Z k) (fun i => z (k, i)) c ∧
        ShotOf B t ords (Z k) (fun i => z (k, i)) c' := by
  obtain ⟨hl, st, e0, en, hst⟩ := mapEach_chain h
  obtain ⟨hl', st', e0', en', hst'⟩ := mapEach_chain h'
  rw [List.length_range] at hl hl' en en'
  have step : ∀ k < n, (st k).rng = (st' k).rng → OnlyRng s (st k) → OnlyRng t (st' k) →
      (st (k + 1)).rng = (st' (k + 1)).rng ∧ OnlyRng s (st (k + 1)) ∧ OnlyRng t (st' (k + 1)) ∧ ∃ c c' Z z, (s.INJ.trackMode ≠ "ORB" → Injected E B s.INJ Z) ∧ shots[k]? = some c ∧ shots'[k]? = some c' ∧
        ShotOf B s ords Z z c ∧ ShotOf B t ords Z z c' := by
    intro k hk h1 h2 h3
    obtain ⟨c, hc, g⟩ := hst k k (by rw [List.getElem?_range hk])
    obtain ⟨c', hc', g'⟩ := hst' k k (by rw [List.getElem?_range hk])
    have i1 : (st k).INJ = s.INJ := by rw [h2.1]
    have i2 : (st' k).INJ = t.INJ := by rw [h3.1]
    have hp := oneShot_pair (s := st k) (t := st' k) (E := E) (B := B) (ords := ords) (nt := nt) (c := c) (c' := c') (s' := st (k+1)) (t' := st' (k+1))
      h1 (by rw [i1, i2, hi]) (by simp only [i1]; exact g) (by simp only [i1]; exact g')
    obtain ⟨p1, p2, p3, Z, z, p0, p4, p5⟩ := hp
    rw [i1] at p0
    exact ⟨p1, h2.trans p2, h3.trans p3, c, c', Z, z, p0, hc, hc', p4.keep h2, p5.keep h3⟩
  have chain : ∀ k ≤ n, (st k).rng = (st' k).rng ∧ OnlyRng s (st k) ∧ OnlyRng t (st' k) := by
    intro k
    induction k with
    | zero => intro _; rw [e0, e0']; exact ⟨hr, OnlyRng.refl _, OnlyRng.refl _⟩
    | succ k ih =>
      intro hk
      obtain ⟨a, b, c⟩ := ih (by omega)
      obtain ⟨a', b', c', -⟩ := step k (by omega) a b c
      exact ⟨a', b', c'⟩
  have each : ∀ k, k < n → ∃ c c' Z z, (s.INJ.trackMode ≠ "ORB" → Injected E B s.INJ Z) ∧ shots[k]? = some c ∧ shots'[k]? = some c' ∧ ShotOf B s ords Z z c ∧ ShotOf B t ords Z z c' := by
    intro k hk
    obtain ⟨a, b, c⟩ := chain k (by omega)
    exact (step k hk a b c).2.2.2
  choose! c c' Z z r using each
  obtain ⟨a, b, d⟩ := chain n (le_refl _)
  rw [en] at a b
  rw [en'] at a d
  exact ⟨a, b, d, hl, hl', Z, fun i => z i.1 i.2, fun k hk => (r k hk).1,
    fun k hk => ⟨c k, c' k, (r k hk).2⟩⟩

/-- the mean of the shots -/
theorem means_of {B : BeamEnv K} {s : SC K} {ords : List Nat} {n : Nat} {shots : List (Nat → Nat → Cell K)} {Z : Nat → List (List K)}
    {z : Nat × ZIx → K} (hn : s.INJ.nShots = n) (hn0 : n ≠ 0) (hl : shots.length = n) (hloss : ∀ Z i t, WholeLoss (seenAt B s Z i t))
    (h : ∀ k < n, ∃ c, shots[k]? = some c ∧ ShotOf B s ords (Z k) (fun i => z (k, i)) c) :
    ∃ e : Nat → BpmErr K, (∀ b i, ords[b]? = some i → BpmAt s.RING (if s.INJ.trackMode = "ORB" then "NoiseCO" else "Noise") i (e b)) ∧
      ∀ b t i, ords[b]? = some i →
        maskedAverage (shots.map (fun c => ((c b t).x, (c b t).sum))) = (shotMean (shotsAt B s e Z z b t i)).map Prod.fst ∧
        maskedAverage (shots.map (fun c => ((c b t).y, (c b t).sum))) = (shotMean (shotsAt B s e Z z b t i)).map Prod.snd ∧
        nansum (shots.map (fun c => (c b t).sum)) = (((shotsAt B s e Z z b t i).filterMap id).map Prod.snd).sum := by
  obtain ⟨c0, -, e, he, -⟩ := h 0 (by omega)
  refine ⟨e, he, fun b t i hb => ?_⟩
  have hf : List.Forall₂ (fun c o => both c.x c.sum = o.map (fun p : (K × K) × K => (p.1.1, p.2)) ∧
      both c.y c.sum = o.map (fun p => (p.1.2, p.2)) ∧ c.sum.getD 0 = (o.map Prod.snd).getD 0)
      (shots.map (fun c => c b t)) (shotsAt B s e Z z b t i) := by
    rw [List.forall₂_iff_get]
    refine ⟨by simp [shotsAt, hl, hn], fun k hk1 hk2 => ?_⟩
    have hk : k < n := by simpa [hl] using hk1
    obtain ⟨c, hc1, e', he', hc2⟩ := h k hk
    have hcb := hc2 b t i hb
    rw [← BpmAt_unique (he b i hb) (he' b i hb)] at hcb
    have : shots[k]'(by omega) = c := by
      rw [List.getElem?_eq_getElem (by omega)] at hc1; simpa using hc1
    simp only [List.get_eq_getElem, List.getElem_map, this, shotsAt, List.getElem_range]
    have := realReading1_spec B s.INJ.beamLostAt (e b) (seenAt B s (Z k) i t) (hloss _ _ _)
      (z (k, 0, b, turnIx s t)) (z (k, 1, b, turnIx s t)) (z (k, 2, b, turnIx s t))
    rw [hcb]
    exact ⟨this.1, this.2.1, this.2.2.2.2⟩
  have := average_spec hf
  simp only [List.map_map, Function.comp_def] at this
  exact ⟨this.1, this.2.1, this.2.2⟩

/-- the parts of a reading -/
theorem bpmReading_shots {E : Env K} {B : BeamEnv K} {req : Option (List Nat)} {ce : Bool} {s s' : SC K} {out : Reading K}
    (h : bpmReading E B req ce s = .ok out s') : ∃ ords shots, registeredBpms s.ORD.BPM req = .ok ords ∧ s.INJ.nShots ≠ 0 ∧
      mapEach (List.range s.INJ.nShots) (fun _ => oneShot E B ords (s.INJ.trackMode = "ORB") s.INJ.nTurns) s = .ok shots s' ∧
      (s.INJ.trackMode ≠ "PORB" →
        out.x = flatten2 ords.length s.INJ.nTurns (fun b t => maskedAverage (shots.map (fun c => ((c b t).x, (c b t).sum)))) ∧
        out.y = flatten2 ords.length s.INJ.nTurns (fun b t => maskedAverage (shots.map (fun c => ((c b t).y, (c b t).sum)))) ∧
        out.sums = flatten2 ords.length s.INJ.nTurns (fun b t => nansum (shots.map (fun c => (c b t).sum)) / (s.INJ.nShots : K))) ∧
      (s.INJ.trackMode = "PORB" →
        tabulate ords.length 1 (fun b _ => porbAverage s.INJ.nTurns (fun t => maskedAverage (shots.map (fun c => ((c b t).x, (c b t).sum))))
          (fun t => nansum (shots.map (fun c => (c b t).sum)) / (s.INJ.nShots : K))) = .ok out.x ∧
        tabulate ords.length 1 (fun b _ => porbAverage s.INJ.nTurns (fun t => maskedAverage (shots.map (fun c => ((c b t).y, (c b t).sum))))
          (fun t => nansum (shots.map (fun c => (c b t).sum)) / (s.INJ.nShots : K))) = .ok out.y ∧
        out.sums = flatten2 ords.length 1 (fun b _ => ((List.range s.INJ.nTurns).map (fun t =>
          nansum (shots.map (fun c => (c b t).sum)) / (s.INJ.nShots : K))).sum / (s.INJ.nTurns : K))) := by
  unfold bpmReading at h
  have h := bindGet_eq_ok.1 h
  obtain ⟨ords, ho, h⟩ := bindLift_eq_ok.1 h
  simp only at h
  obtain ⟨shots, s1, h1, h⟩ := bind_eq_ok.1 h
  by_cases hn : s.INJ.nShots = 0
  · rw [if_pos hn] at h; cases h
  rw [if_neg hn] at h
  by_cases hp : s.INJ.trackMode = "PORB"
  · rw [if_pos hp] at h
    obtain ⟨x, hx, h⟩ := bindLift_eq_ok.1 h
    obtain ⟨y, hy, h⟩ := bindLift_eq_ok.1 h
    cases h
    exact ⟨ords, shots, ho, hn, h1, fun hh => absurd hp hh, fun _ => ⟨hx, hy, rfl⟩⟩
  · rw [if_neg hp] at h
    split at h
    · obtain ⟨x, _, h⟩ := bindLift_eq_ok.1 h
      obtain ⟨y, _, h⟩ := bindLift_eq_ok.1 h
      cases h
      exact ⟨ords, shots, ho, hn, h1, fun _ => ⟨rfl, rfl, rfl⟩, fun hh => absurd hh hp⟩
    · cases h
      exact ⟨ords, shots, ho, hn, h1, fun _ => ⟨rfl, rfl, rfl⟩, fun hh => absurd hh hp⟩

/-- the shots make the reading -/
theorem madeWith_of_shots {B : BeamEnv K} {s : SC K} {ords : List Nat} {shots : List (Nat → Nat → Cell K)} {Z : Nat → List (List K)}
    {z : Nat × ZIx → K} {out : Reading K} (hn0 : s.INJ.nShots ≠ 0) (hl : shots.length = s.INJ.nShots) (hloss : ∀ Z i t, WholeLoss (seenAt B s Z i t))
    (h : ∀ k < s.INJ.nShots, ∃ c, shots[k]? = some c ∧ ShotOf B s ords (Z k) (fun i => z (k, i)) c)
    (h1 : s.INJ.trackMode ≠ "PORB" →
        out.x = flatten2 ords.length s.INJ.nTurns (fun b t => maskedAverage (shots.map (fun c => ((c b t).x, (c b t).sum)))) ∧
        out.y = flatten2 ords.length s.INJ.nTurns (fun b t => maskedAverage (shots.map (fun c => ((c b t).y, (c b t).sum)))) ∧
        out.sums = flatten2 ords.length s.INJ.nTurns (fun b t => nansum (shots.map (fun c => (c b t).sum)) / (s.INJ.nShots : K)))
    (h2 : s.INJ.trackMode = "PORB" →
        tabulate ords.length 1 (fun b _ => porbAverage s.INJ.nTurns (fun t => maskedAverage (shots.map (fun c => ((c b t).x, (c b t).sum))))
          (fun t => nansum (shots.map (fun c => (c b t).sum)) / (s.INJ.nShots : K))) = .ok out.x ∧
        tabulate ords.length 1 (fun b _ => porbAverage s.INJ.nTurns (fun t => maskedAverage (shots.map (fun c => ((c b t).y, (c b t).sum))))
          (fun t => nansum (shots.map (fun c => (c b t).sum)) / (s.INJ.nShots : K))) = .ok out.y ∧
        out.sums = flatten2 ords.length 1 (fun b _ => ((List.range s.INJ.nTurns).map (fun t =>
          nansum (shots.map (fun c => (c b t).sum)) / (s.INJ.nShots : K))).sum / (s.INJ.nTurns : K))) :
    MadeWith B s ords Z z out := by
  obtain ⟨e, he, hm⟩ := means_of rfl hn0 hl hloss h
  refine ⟨e, he, fun hp => ?_, fun hp => ?_⟩
  · obtain ⟨hx, hy, hs⟩ := h1 hp
    refine ⟨by rw [hx, flatten2_length], by rw [hy, flatten2_length], fun b j i hb hj => ?_⟩
    have hbl : b < ords.length := (List.getElem?_eq_some_iff.1 hb).1
    rw [hx, hy, hs, flatten2_get _ hbl hj, flatten2_get _ hbl hj, flatten2_get _ hbl hj, (hm b j i hb).1, (hm b j i hb).2.1, (hm b j i hb).2.2]
    exact ⟨rfl, rfl, rfl⟩
  · obtain ⟨hx, hy, hs⟩ := h2 hp
    obtain ⟨lx, gx⟩ := tabulate_eq_ok hx
    obtain ⟨ly, gy⟩ := tabulate_eq_ok hy
    refine ⟨by simpa using lx, by simpa using ly, fun b i hb => ?_⟩
    have hbl : b < ords.length := (List.getElem?_eq_some_iff.1 hb).1
    obtain ⟨yx, f1, f2⟩ := gx b 0 hbl (by omega)
    obtain ⟨yy, f3, f4⟩ := gy b 0 hbl (by omega)
    simp only [Nat.zero_mul, Nat.zero_add] at f2 f4
    simp only [(hm b _ i hb).1, (hm b _ i hb).2.1, (hm b _ i hb).2.2] at f1 f3
    have hzero : ∀ t, shotMean (shotsAt B s e Z z b t i) = none → (((shotsAt B s e Z z b t i).filterMap id).map Prod.snd).sum / (s.INJ.nShots : K) = 0 := by
      intro t hnone
      rw [shotMean_none hnone]; simp
    have e1 := (porbAverage_spec f1 (fun t _ hv => hzero t (by simpa using hv))).1
    have e2 := (porbAverage_spec f3 (fun t _ hv => hzero t (by simpa using hv))).1
    refine ⟨by rw [f2, e1]; rfl, by rw [f4, e2]; rfl, ?_⟩
    have := flatten2_get (nb := ords.length) (nt := 1) (fun b _ => ((List.range s.INJ.nTurns).map (fun t =>
          nansum (shots.map (fun c => (c b t).sum)) / (s.INJ.nShots : K))).sum / (s.INJ.nTurns : K)) hbl (show 0 < 1 by omega)
    rw [Nat.zero_mul, Nat.zero_add, ← hs] at this
    rw [this]
    simp only [(hm b _ i hb).2.2]
    rfl

theorem shotMean_shift {l l' : List (Option ((K × K) × K))} {d : K × K}
    (h : l' = l.map (Option.map (fun p => ((p.1.1 + d.1, p.1.2 + d.2), p.2)))) :
    shotMean l' = (shotMean l).map (fun p => (p.1 + d.1, p.2 + d.2)) := by
  have hf : l'.filterMap id = (l.filterMap id).map (fun p => ((p.1.1 + d.1, p.1.2 + d.2), p.2)) := by
    rw [h]
    clear h
    induction l with
    | nil => rfl
    | cons a l ih => cases a <;> simpa using ih
  have hsum : ∀ (m : List ((K × K) × K)) (f : (K × K) × K → K) (c : K), (m.map (fun p => (f p + c) * p.2)).sum =
      (m.map (fun p => f p * p.2)).sum + c * (m.map Prod.snd).sum := by
    intro m f c
    induction m with
    | nil => simp
    | cons a m ih => simp only [List.map_cons, List.sum_cons, ih]; ring
  unfold shotMean
  simp only [hf, List.map_map, Function.comp_def]
  have hw : (List.map (fun x : (K × K) × K => x.2) (l.filterMap id)) = (l.filterMap id).map Prod.snd := rfl
  rw [hw]
  by_cases hW : ((l.filterMap id).map Prod.snd).sum = 0
  · rw [if_pos hW, if_pos hW]; rfl
  · rw [if_neg hW, if_neg hW]
    simp only [Option.map_some, Option.some.injEq]
    rw [hsum _ (fun p => p.1.1) d.1, hsum _ (fun p => p.1.2) d.2]
    refine Prod.ext ?_ ?_ <;> simp only <;> field_simp

theorem survivors_length {P : List (Option K × Option K)} (h : ∀ p ∈ P, p.1.isSome = true ∧ p.2.isSome = true) :
    (survivors P).length = P.length := by
  unfold survivors
  induction P with
  | nil => rfl
  | cons p P ih =>
    obtain ⟨x, y⟩ := p
    have := h (x, y) (by simp)
    cases x <;> cases y <;> simp at this
    simp only [List.filterMap_cons, List.length_cons]
    rw [ih (fun q hq => h q (by simp [hq]))]

theorem Spec.AllArrive.survive {P : List (Option K × Option K)} (h : AllArrive P) : survivors P ≠ [] := fun he => by
  have := survivors_length h.2
  rw [he] at this
  exact h.1 (List.length_eq_zero_iff.1 this.symm)

variable [IsStrictOrderedRing K]

theorem Spec.AllArrive.signal {P : List (Option K × Option K)} (h : AllArrive P) (e : BpmErr K) (zs : K) : Spec.signal e P zs = 1 + e.sum * zs := by
  unfold Spec.signal
  rw [survivors_length h.2]
  have : (P.length : K) ≠ 0 := by
    rw [Nat.cast_ne_zero]
    exact fun h0 => h.1 (List.length_eq_zero_iff.1 h0)
  rw [div_self this, one_mul]

theorem shot_shift {cs : K → K × K} {lostAt : K} {e : BpmErr K} {P Q : List (Option K × Option K)} {d : K × K} (hP : AllArrive P) (hQ : AllArrive Q)
    (hd : centre Q = ((centre P).1 + d.1, (centre P).2 + d.2)) (zx zy zs : K) :
    shot cs lostAt e Q zx zy zs = (shot cs lostAt e P zx zy zs).map (fun p =>
      ((p.1.1 + (rolled (cs e.roll) d).1 * (1 + e.cal.1), p.1.2 + (rolled (cs e.roll) d).2 * (1 + e.cal.2)), p.2)) := by
  unfold shot Seen
  rw [hQ.signal, hP.signal]
  by_cases h1 : 1 - lostAt ≤ 1 + e.sum * zs
  · rw [if_pos ⟨hQ.survive, h1⟩, if_pos ⟨hP.survive, h1⟩]
    simp only [Option.map_some, Option.some.injEq, Prod.mk.injEq, and_true]
    unfold shotReading rolled
    rw [hd, hQ.signal, hP.signal]
    simp only [Prod.mk.injEq]
    constructor <;> ring
  · rw [if_neg (fun h => h1 h.2), if_neg (fun h => h1 h.2)]
    rfl

theorem bpmAt_of_attr {r r' : Ring K} {n : String} {i : Nat} {e : BpmErr K}
    (h : ∀ a ∈ [n, "Offset", "SupportOffset", "Roll", "SupportRoll", "CalError", "SumError"], r.attr i a = r'.attr i a) (hb : BpmAt r n i e) : BpmAt r' n i e := by
  obtain ⟨h1, ⟨ox, oy, sx, sy, a1, a2, a3⟩, ⟨ra, rb, b1, b2, b3⟩, h4, h5⟩ := hb
  rw [h _ (by simp)] at h1 a1 a2 b1 b2 h4 h5
  exact ⟨h1, ⟨ox, oy, sx, sy, a1, a2, a3⟩, ⟨ra, rb, b1, b2, b3⟩, h4, h5⟩

end PySC
