import Verif.Lemmas.CommonNumbers
import Verif.Lemmas.ErrorLaw
import Verif.Spec.ReadingLaw
/-
The calls of `randnc` made by `bpm_reading`.
-/
namespace PySC
open Py Spec
set_option linter.unusedSectionVars false

theorem returns_randnc {E : Env ℝ} {cut : ℝ} {n : ℕ} {s s' : SC ℝ} {l : List ℝ} (h : randnc E cut n s = .ok l s') :
    Returns E E.randn cut n s.rng l s'.rng := by
  obtain ⟨pos, h1, rfl⟩ := randnc_eq_ok.1 h
  exact returns_of h1

theorem generateBunches_calls {E : Env ℝ} {B : BeamEnv ℝ} {s s' : SC ℝ} {Z : List (List ℝ)}
    (h6 : s.INJ.randomInjectionZ.length = 6) (h : generateBunches E B none s = .ok Z s') :
    OnlyRng s s' ∧ ∃ (z w : List ℝ) (mid : ℕ), Returns E E.randn 2 6 s.rng z mid ∧
      ((s.INJ.nParticles = 1 ∧ s'.rng = mid) ∨ (s.INJ.nParticles ≠ 1 ∧ Returns E E.randn 3 (6 * s.INJ.nParticles) mid w s'.rng)) ∧
      BunchFrom B s.INJ (fun i => z.getD i 0) (fun j i => w.getD (i * s.INJ.nParticles + j) 0) Z := by
  unfold generateBunches at h
  have h := bindGet_eq_ok.1 h
  obtain ⟨z, s1, h1, h⟩ := bind_eq_ok.1 h
  obtain ⟨o1, hz, -⟩ := randnc_fresh h1
  obtain ⟨j, g2, h⟩ := bindLift_eq_ok.1 h
  have hj := bmul_six h6 hz g2
  obtain ⟨c, g3, h⟩ := bindLift_eq_ok.1 h
  obtain ⟨hl3, hc⟩ := vadd_eq_ok.1 g3
  have hjl : j.length = 6 := by rw [hj]; simp [h6, hz]
  have hZ0 : s.INJ.Z0.length = 6 := by omega
  have hcl : c.length = 6 := by rw [hc]; simp [hjl, hZ0]
  have hcv : ∀ k < 6, coef c k = coef s.INJ.Z0 k + coef s.INJ.randomInjectionZ k * z.getD k 0 := by
    intro k hk
    unfold coef
    rw [getD_lt c 0 (by omega), getD_lt z 0 (by omega), getD_lt _ 0 (by omega : k < s.INJ.Z0.length),
      getD_lt _ 0 (by omega : k < s.INJ.randomInjectionZ.length)]
    subst hc hj
    simp [add_comm]
  by_cases hn : s.INJ.nParticles = 1
  · simp only [Option.getD_none] at h
    rw [if_pos hn] at h
    cases h
    exact ⟨o1, z, [], _, returns_randnc h1, Or.inl ⟨hn, rfl⟩, c, hcl, hcv, Or.inl ⟨hn, rfl⟩⟩
  · simp only [Option.getD_none] at h
    rw [if_neg hn] at h
    obtain ⟨m, g4, h⟩ := bindLift_eq_ok.1 h
    obtain ⟨w, s5, h5, h⟩ := bind_eq_ok.1 h
    obtain ⟨o5, hw, -⟩ := randnc_fresh h5
    obtain ⟨Zs, g6', h⟩ := bindLift_eq_ok.1 h
    cases h
    obtain ⟨hlen, hZ⟩ := mapM_except_eq_ok g6'
    refine ⟨o1.trans o5, z, w, _, returns_randnc h1, Or.inr ⟨hn, returns_randnc h5⟩, c, hcl, hcv,
      Or.inr ⟨hn, m, Zs, g4, rfl, by simpa using hlen, fun j hj => ?_⟩⟩
    obtain ⟨y, hy, hyj⟩ := hZ j j (by simp [hj])
    rw [hyj, (vadd_eq_ok.1 hy).2]
    rfl

/-- the stages of a shot in which random numbers are drawn -/
inductive Stage where
  | jitter | particles | noise | sum
deriving DecidableEq

/-- the stages of a shot -/
def stages (s : SC ℝ) : List Stage :=
  (if s.INJ.trackMode = "ORB" then [] else if s.INJ.nParticles = 1 then [.jitter] else [.jitter, .particles]) ++ [.noise, .sum]

/-- the call of `randnc` made in a stage -/
def stageCall (s : SC ℝ) (nb : ℕ) : Stage → ℝ × ℕ
  | .jitter => (2, 6)
  | .particles => (3, 6 * s.INJ.nParticles)
  | .noise => (2, 2 * nb * turns s)
  | .sum => (2, nb * turns s)

/-- what the cells of a shot made from the numbers `o` are -/
def ShotFrom (B : BeamEnv ℝ) (s : SC ℝ) (ords : List Nat) (o : Stage → List ℝ) (c : Nat → Nat → Cell ℝ) : Prop :=
  ∃ Z, (s.INJ.trackMode ≠ "ORB" → BunchFrom B s.INJ (fun i => (o .jitter).getD i 0)
      (fun j i => (o .particles).getD (i * s.INJ.nParticles + j) 0) Z) ∧
    ShotOf B s ords Z (shotZ ords.length (turns s) (o .noise) (o .sum)) c

theorem oneShot_calls {E : Env ℝ} {B : BeamEnv ℝ} {ords : List Nat} {s s' : SC ℝ} {c : Nat → Nat → Cell ℝ}
    (h6 : s.INJ.randomInjectionZ.length = 6) (h : oneShot E B ords (s.INJ.trackMode = "ORB") s.INJ.nTurns s = .ok c s') :
    OnlyRng s s' ∧ ∃ o : Stage → List ℝ,
      ReturnsAll E E.randn ((stages s).map (stageCall s ords.length)) s.rng ((stages s).map o) s'.rng ∧ ShotFrom B s ords o c := by
  unfold oneShot at h
  obtain ⟨trk, s1, a1, h⟩ := bind_eq_ok.1 h
  unfold tracking at a1
  have a1 := bindGet_eq_ok.1 a1
  by_cases hm : s.INJ.trackMode = "ORB"
  · have ht : turns s = 1 := by unfold turns; rw [if_pos hm]
    rw [if_pos hm] at h a1
    cases a1
    obtain ⟨c0, s2, a2, h⟩ := bind_eq_ok.1 h
    cases h
    obtain ⟨e, zn, zs, s3, g1, g2, g3, g4⟩ := realBpmReading_draws a2
    refine ⟨(randnc_keeps g1).trans (randnc_keeps g2), fun st => match st with | .noise => zn | .sum => zs | _ => [], ?_, [],
      fun hh => absurd hm hh, e, g3, fun b t i hb => ?_⟩
    · unfold stages stageCall
      rw [if_pos hm, ht]
      exact ⟨zn, s3.rng, _, rfl, returns_randnc g1, zs, _, _, rfl, returns_randnc g2, rfl, rfl⟩
    · unfold seenAt turnIx
      rw [if_pos hm, if_pos hm, ht]
      have := g4 b 0
      simp only [getD_of hb] at this
      exact this
  · have ht : turns s = s.INJ.nTurns := by unfold turns; rw [if_neg hm]
    rw [if_neg hm] at h a1
    obtain ⟨Z, s2, a2, a1⟩ := bind_eq_ok.1 a1
    cases a1
    obtain ⟨o1, z, w, mid, b1, b2, b3⟩ := generateBunches_calls h6 a2
    have i1 : s1.INJ = s.INJ := by rw [o1.1]
    have j1 : s1.RING = s.RING := by rw [o1.1]
    obtain ⟨e, zn, zs, s3, g1, g2, g3, g4⟩ := realBpmReading_draws h
    rw [i1, j1] at g3
    rw [i1] at g4
    refine ⟨o1.trans ((randnc_keeps g1).trans (randnc_keeps g2)),
      fun st => match st with | .noise => zn | .sum => zs | .jitter => z | .particles => w, ?_, Z, fun _ => b3, e, g3, fun b t i hb => ?_⟩
    · unfold stages stageCall
      rw [if_neg hm, ht]
      rcases b2 with ⟨hn, b2⟩ | ⟨hn, b2⟩
      · rw [if_pos hn]
        rw [← b2] at b1
        exact ⟨z, _, _, rfl, b1, zn, s3.rng, _, rfl, returns_randnc g1, zs, _, _, rfl, returns_randnc g2, rfl, rfl⟩
      · rw [if_neg hn]
        exact ⟨z, _, _, rfl, b1, w, _, _, rfl, b2, zn, s3.rng, _, rfl, returns_randnc g1, zs, _, _, rfl, returns_randnc g2, rfl, rfl⟩
    · unfold seenAt turnIx
      rw [if_neg hm, if_neg hm, g4, getD_of hb, ht]

/-- a loop whose steps make several calls each -/
theorem mapEach_calls {α β σ : Type} {E : Env ℝ} {f : α → Py (SC ℝ) β} {calls : List (ℝ × ℕ)} {st : List σ} {I : SC ℝ → Prop}
    {Q : (σ → List ℝ) → β → Prop}
    (hstep : ∀ x s s' y, I s → f x s = .ok y s' → I s' ∧ ∃ o, ReturnsAll E E.randn calls s.rng (st.map o) s'.rng ∧ Q o y) :
    ∀ {l : List α} {s s' : SC ℝ} {out : List β}, I s → mapEach l f s = .ok out s' →
      I s' ∧ out.length = l.length ∧ ∃ o : ℕ → σ → List ℝ,
        ReturnsAll E E.randn ((List.range l.length).flatMap (fun _ => calls)) s.rng
          ((List.range l.length).flatMap (fun k => st.map (o k))) s'.rng ∧ ∀ k y, out[k]? = some y → Q (o k) y := by
  intro l
  induction l with
  | nil =>
    intro s s' out hi h
    rw [mapEach_nil, pure_apply'] at h
    cases h
    exact ⟨hi, rfl, fun _ _ => [], ⟨rfl, rfl⟩, by simp⟩
  | cons x l ih =>
    intro s s' out hi h
    rw [mapEach_cons] at h
    obtain ⟨y, s1, h1, h⟩ := bind_eq_ok.1 h
    obtain ⟨ys, s2, h2, h⟩ := bind_eq_ok.1 h
    cases h
    obtain ⟨hi1, o, hr, hq⟩ := hstep x s s1 y hi h1
    obtain ⟨hi2, hl, o', hr', hq'⟩ := ih hi1 h2
    refine ⟨hi2, by simp [hl], fun k => match k with | 0 => o | k + 1 => o' k, ?_, ?_⟩
    · rw [List.length_cons, List.range_succ_eq_map, List.flatMap_cons, List.flatMap_cons, List.flatMap_map, List.flatMap_map]
      exact returnsAll_append hr hr'
    · intro k y' hk
      cases k with
      | zero => simp at hk; subst hk; exact hq
      | succ k => exact hq' k y' (by simpa using hk)

/-- the calls made during a measurement -/
def readingSrcs (s : SC ℝ) : List (ℕ × Stage) := (List.range s.INJ.nShots).flatMap (fun k => (stages s).map (fun st => (k, st)))

/-- where a number comes from: the call and the position among the numbers it returns -/
def Spec.Number.place (s : SC ℝ) (nb : ℕ) : Number → (ℕ × Stage) × ℕ
  | .jitter k i => ((k, .jitter), i)
  | .particle k j i => ((k, .particles), i * s.INJ.nParticles + j)
  | .bpm k (0, b, t) => ((k, .noise), b * turns s + t)
  | .bpm k (1, b, t) => ((k, .noise), nb * turns s + b * turns s + t)
  | .bpm k (2, b, t) => ((k, .sum), b * turns s + t)

theorem place_used {s : SC ℝ} {nb : ℕ} : ∀ {x : Number}, x.Used s nb →
    (x.place s nb).1 ∈ readingSrcs s ∧ (x.place s nb).2 < (stageCall s nb (x.place s nb).1.2).2 ∧
      (stageCall s nb (x.place s nb).1.2).1 = x.cutoff := by
  have hmem : ∀ k < s.INJ.nShots, ∀ st ∈ stages s, (k, st) ∈ readingSrcs s := by
    intro k hk st hst
    unfold readingSrcs
    exact List.mem_flatMap.2 ⟨k, List.mem_range.2 hk, List.mem_map.2 ⟨st, hst, rfl⟩⟩
  intro x hx
  match x, hx with
  | .jitter k i, ⟨h1, h2, h3⟩ =>
    refine ⟨hmem _ h2 _ ?_, h3, rfl⟩
    unfold stages; rw [if_neg h1]; split <;> simp
  | .particle k j i, ⟨h1, h2, h3, h4, h5⟩ =>
    refine ⟨hmem _ h3 _ ?_, index_lt h5 h4, rfl⟩
    unfold stages; rw [if_neg h1, if_neg h2]; simp
  | .bpm k (0, b, t), ⟨h1, h2, h3⟩ =>
    refine ⟨hmem _ h1 _ (by unfold stages; simp), ?_, rfl⟩
    have := index_lt h2 h3
    simp only at this
    show b * turns s + t < 2 * nb * turns s
    have e : 2 * nb * turns s = nb * turns s + nb * turns s := by ring
    omega
  | .bpm k (1, b, t), ⟨h1, h2, h3⟩ =>
    refine ⟨hmem _ h1 _ (by unfold stages; simp), ?_, rfl⟩
    have := index_lt h2 h3
    simp only at this
    show nb * turns s + b * turns s + t < 2 * nb * turns s
    have e : 2 * nb * turns s = nb * turns s + nb * turns s := by ring
    omega
  | .bpm k (2, b, t), ⟨h1, h2, h3⟩ => exact ⟨hmem _ h1 _ (by unfold stages; simp), index_lt h2 h3, rfl⟩

theorem place_inj {s : SC ℝ} {nb : ℕ} {x y : Number} (hx : x.Used s nb) (hy : y.Used s nb) (h : x.place s nb = y.place s nb) : x = y := by
  match x, y, hx, hy, h with
  | .jitter k i, .jitter k' i', _, _, h => simp only [Number.place, Prod.mk.injEq] at h; obtain ⟨⟨rfl, -⟩, rfl⟩ := h; rfl
  | .particle k j i, .particle k' j' i', ⟨_, _, _, h1, _⟩, ⟨_, _, _, h2, _⟩, h =>
    simp only [Number.place, Prod.mk.injEq] at h
    obtain ⟨⟨rfl, -⟩, h⟩ := h
    obtain ⟨rfl, rfl⟩ := index_inj h1 h2 h
    rfl
  | .bpm k (0, b, t), .bpm k' (0, b', t'), ⟨_, _, h1⟩, ⟨_, _, h2⟩, h =>
    simp only [Number.place, Prod.mk.injEq] at h
    obtain ⟨⟨rfl, -⟩, h⟩ := h
    obtain ⟨rfl, rfl⟩ := index_inj h1 h2 h
    rfl
  | .bpm k (1, b, t), .bpm k' (1, b', t'), ⟨_, _, h1⟩, ⟨_, _, h2⟩, h =>
    simp only [Number.place, Prod.mk.injEq] at h
    obtain ⟨⟨rfl, -⟩, h⟩ := h
    obtain ⟨rfl, rfl⟩ := index_inj h1 h2 (by omega : b * turns s + t = b' * turns s + t')
    rfl
  | .bpm k (2, b, t), .bpm k' (2, b', t'), ⟨_, _, h1⟩, ⟨_, _, h2⟩, h =>
    simp only [Number.place, Prod.mk.injEq] at h
    obtain ⟨⟨rfl, -⟩, h⟩ := h
    obtain ⟨rfl, rfl⟩ := index_inj h1 h2 h
    rfl
  | .bpm k (0, b, t), .bpm k' (1, b', t'), ⟨_, h1, h2⟩, _, h =>
    simp only [Number.place, Prod.mk.injEq] at h
    have := index_lt h1 h2
    simp only at this
    omega
  | .bpm k (1, b, t), .bpm k' (0, b', t'), _, ⟨_, h1, h2⟩, h =>
    simp only [Number.place, Prod.mk.injEq] at h
    have := index_lt h1 h2
    simp only at this
    omega
  | .jitter _ _, .particle _ _ _, _, _, h => simp [Number.place] at h
  | .particle _ _ _, .jitter _ _, _, _, h => simp [Number.place] at h
  | .jitter _ _, .bpm _ (0, _, _), _, _, h => simp [Number.place] at h
  | .jitter _ _, .bpm _ (1, _, _), _, _, h => simp [Number.place] at h
  | .jitter _ _, .bpm _ (2, _, _), _, _, h => simp [Number.place] at h
  | .particle _ _ _, .bpm _ (0, _, _), _, _, h => simp [Number.place] at h
  | .particle _ _ _, .bpm _ (1, _, _), _, _, h => simp [Number.place] at h
  | .particle _ _ _, .bpm _ (2, _, _), _, _, h => simp [Number.place] at h
  | .bpm _ (0, _, _), .jitter _ _, _, _, h => simp [Number.place] at h
  | .bpm _ (1, _, _), .jitter _ _, _, _, h => simp [Number.place] at h
  | .bpm _ (2, _, _), .jitter _ _, _, _, h => simp [Number.place] at h
  | .bpm _ (0, _, _), .particle _ _ _, _, _, h => simp [Number.place] at h
  | .bpm _ (1, _, _), .particle _ _ _, _, _, h => simp [Number.place] at h
  | .bpm _ (2, _, _), .particle _ _ _, _, _, h => simp [Number.place] at h
  | .bpm _ (0, _, _), .bpm _ (2, _, _), _, _, h => simp [Number.place] at h
  | .bpm _ (2, _, _), .bpm _ (0, _, _), _, _, h => simp [Number.place] at h
  | .bpm _ (1, _, _), .bpm _ (2, _, _), _, _, h => simp [Number.place] at h
  | .bpm _ (2, _, _), .bpm _ (1, _, _), _, _, h => simp [Number.place] at h

theorem Spec.BunchFrom.congr {B : BeamEnv ℝ} {inj : Inj ℝ} {z z' : Nat → ℝ} {w w' : Nat → Nat → ℝ} {Z : List (List ℝ)}
    (h : BunchFrom B inj z w Z) (hz : ∀ i < 6, z i = z' i) (hw : inj.nParticles ≠ 1 → ∀ j < inj.nParticles, ∀ i < 6, w j i = w' j i) :
    BunchFrom B inj z' w' Z := by
  obtain ⟨c, h1, h2, h3⟩ := h
  refine ⟨c, h1, fun k hk => by rw [← hz k hk]; exact h2 k hk, ?_⟩
  rcases h3 with h3 | ⟨hn, m, Zs, a, b, d, e⟩
  · exact Or.inl h3
  · refine Or.inr ⟨hn, m, Zs, a, b, d, fun j hj => ?_⟩
    rw [e j hj]
    congr 3
    exact List.map_congr_left (fun i hi => hw hn j hj i (List.mem_range.1 hi))

theorem Spec.MadeWith.congr {B : BeamEnv ℝ} {s : SC ℝ} {ords : List Nat} {Z : Nat → List (List ℝ)} {z z' : Nat × ZIx → ℝ} {out : Reading ℝ}
    (h : MadeWith B s ords Z z out) (hz : ∀ k < s.INJ.nShots, ∀ p b t, b < ords.length → t < turns s → z (k, p, b, t) = z' (k, p, b, t)) :
    MadeWith B s ords Z z' out := by
  obtain ⟨e, he, hm, hp⟩ := h
  have key : ∀ b t i, ords[b]? = some i → t < s.INJ.nTurns → shotsAt B s e Z z b t i = shotsAt B s e Z z' b t i := by
    intro b t i hb ht
    have hbl : b < ords.length := (List.getElem?_eq_some_iff.1 hb).1
    unfold shotsAt
    refine List.map_congr_left (fun k hk => ?_)
    have hk := List.mem_range.1 hk
    rw [hz k hk 0 b _ hbl (turnIx_lt ht), hz k hk 1 b _ hbl (turnIx_lt ht), hz k hk 2 b _ hbl (turnIx_lt ht)]
  have keys : ∀ b t i, ords[b]? = some i → t < s.INJ.nTurns → signalAt B s e Z z b t i = signalAt B s e Z z' b t i := by
    intro b t i hb ht
    unfold signalAt
    rw [key b t i hb ht]
  refine ⟨e, he, fun hmo => ⟨(hm hmo).1, (hm hmo).2.1, fun b t i hb ht => ?_⟩, fun hmo => ⟨(hp hmo).1, (hp hmo).2.1, fun b i hb => ?_⟩⟩
  · rw [← key b t i hb ht, ← keys b t i hb ht]
    exact (hm hmo).2.2 b t i hb ht
  · obtain ⟨a1, a2, a3⟩ := (hp hmo).2.2 b i hb
    refine ⟨a1.trans ?_, a2.trans ?_, a3.trans ?_⟩
    · congr 2
      exact List.map_congr_left (fun t ht => by rw [key b t i hb (List.mem_range.1 ht), keys b t i hb (List.mem_range.1 ht)])
    · congr 2
      exact List.map_congr_left (fun t ht => by rw [key b t i hb (List.mem_range.1 ht), keys b t i hb (List.mem_range.1 ht)])
    · congr 3
      exact List.map_congr_left (fun t ht => by rw [keys b t i hb (List.mem_range.1 ht)])

/-- the calls of a measurement, and what the reading is made from -/
theorem bpmReading_calls {E : Env ℝ} {B : BeamEnv ℝ} {req : Option (List Nat)} {ce : Bool} {s s' : SC ℝ} {out : Reading ℝ} {ords : List Nat}
    (ho : registeredBpms s.ORD.BPM req = .ok ords) (h6 : s.INJ.randomInjectionZ.length = 6)
    (hloss : ∀ Z i t, WholeLoss (seenAt B s Z i t)) (h : bpmReading E B req ce s = .ok out s') :
    ∃ o : ℕ × Stage → List ℝ,
      ReturnsAll E E.randn ((readingSrcs s).map (fun x => stageCall s ords.length x.2)) s.rng ((readingSrcs s).map o) s'.rng ∧
      ReadFrom B s ords (fun x => (o (x.place s ords.length).1).getD (x.place s ords.length).2 0) out := by
  obtain ⟨ords', shots, h1, h2, h3, h4, h5⟩ := bpmReading_shots h
  rw [ho] at h1
  cases h1
  obtain ⟨-, hl, o, hr, hq⟩ := mapEach_calls (E := E) (calls := (stages s).map (stageCall s ords.length)) (st := stages s)
    (I := fun t => OnlyRng s t) (Q := fun o c => ShotFrom B s ords o c)
    (f := fun _ => oneShot E B ords (s.INJ.trackMode = "ORB") s.INJ.nTurns)
    (fun _ t t' y hi hf => by
      have i1 : t.INJ = s.INJ := by rw [hi.1]
      have j1 : t.RING = s.RING := by rw [hi.1]
      have hs := oneShot_calls (E := E) (B := B) (ords := ords) (s := t) (s' := t') (c := y) (by rw [i1]; exact h6)
        (by simp only [i1]; exact hf)
      have e1 : stages t = stages s := by unfold stages; rw [i1]
      have e2 : turns t = turns s := by unfold turns; rw [i1]
      have e3 : stageCall t ords.length = stageCall s ords.length := by
        funext st; unfold stageCall; rw [i1, e2]
      rw [e1, e3] at hs
      obtain ⟨k1, o, k2, Z, k3, k4⟩ := hs
      rw [i1] at k3
      rw [e2] at k4
      exact ⟨hi.trans k1, o, k2, Z, k3, k4.keep hi⟩) (OnlyRng.refl s) h3
  rw [List.length_range] at hl hr
  refine ⟨fun x => o x.1 x.2, ?_, ?_⟩
  · unfold readingSrcs
    rw [List.map_flatMap, List.map_flatMap]
    simp only [List.map_map, Function.comp_def]
    exact hr
  · have each : ∀ k, k < s.INJ.nShots → ∃ c, shots[k]? = some c ∧ ShotFrom B s ords (o k) c := by
      intro k hk
      exact ⟨shots[k]'(by omega), List.getElem?_eq_getElem _, hq _ _ (List.getElem?_eq_getElem _)⟩
    have each' : ∀ k, k < s.INJ.nShots → ∃ Z, (s.INJ.trackMode ≠ "ORB" → BunchFrom B s.INJ (fun i => (o k .jitter).getD i 0)
        (fun j i => (o k .particles).getD (i * s.INJ.nParticles + j) 0) Z) ∧ ∃ c, shots[k]? = some c ∧
        ShotOf B s ords Z (shotZ ords.length (turns s) (o k .noise) (o k .sum)) c := by
      intro k hk
      obtain ⟨c, hc, Z, a, b⟩ := each k hk
      exact ⟨Z, a, c, hc, b⟩
    choose! Z hZ using each'
    refine ⟨Z, fun hm k hk => (hZ k hk).1 hm, ?_⟩
    have hz : (fun i : Nat × ZIx => (o ((Number.bpm i.1 i.2).place s ords.length).1.1 ((Number.bpm i.1 i.2).place s ords.length).1.2).getD
        ((Number.bpm i.1 i.2).place s ords.length).2 0) = fun i => shotZ ords.length (turns s) (o i.1 .noise) (o i.1 .sum) i.2 := by
      funext ⟨k, p, b, t⟩
      match p with
      | 0 => rfl
      | 1 => rfl
      | 2 => rfl
    rw [hz]
    exact madeWith_of_shots h2 hl hloss (fun k hk => (hZ k hk).2) h4 h5

section law
open MeasureTheory ProbabilityTheory
variable {Ω : Type} [MeasurableSpace Ω] {P : Measure Ω} [IsProbabilityMeasure P]

theorem bpmReading_law (E : Env ℝ) (B : BeamEnv ℝ) {X : ℕ → Ω → ℝ} (hX : StandardNormal P X) (req : Option (List Nat)) (s : SC ℝ)
    {ords : List Nat} (ho : registeredBpms s.ORD.BPM req = .ok ords) (h6 : s.INJ.randomInjectionZ.length = 6)
    (hloss : ∀ Z i t, WholeLoss (seenAt B s Z i t)) :
    ∃ z : Number → Ω → ℝ,
      IndependentWithLaws P (fun x : {x : Number // x.Used s ords.length} => z x.1) (fun x => truncatedNormal x.1.cutoff) ∧
      ∀ ω fuel ce out s', bpmReading { E with randn := fun k => X k ω, fuel := fuel } B req ce s = .ok out s' →
        ReadFrom B s ords (fun x => z x ω) out := by
  obtain ⟨W, h1, h2⟩ := labelled_law (P := P) (readingSrcs s) (fun x => stageCall s ords.length x.2) (μ := gaussianReal 0 1)
    (fun x _ => gaussian_within_pos (by cases hx : x.2 <;> norm_num [stageCall])) E hX s.rng
  refine ⟨fun x => W (x.place s ords.length).1 (x.place s ords.length).2, ?_, fun ω fuel ce out s' h => ?_⟩
  · have := h1 (fun x : {x : Number // x.Used s ords.length} => x.1.place s ords.length)
      (fun x y h => Subtype.ext (place_inj x.2 y.2 h)) (fun x => ⟨(place_used x.2).1, (place_used x.2).2.1⟩)
    refine ⟨this.measurable, this.independent, fun x => ?_⟩
    rw [this.law x, (place_used x.2).2.2]
    rfl
  · obtain ⟨o, hr, Z, hZ, hm⟩ := bpmReading_calls ho h6 hloss h
    have hz := h2 ω o _ (returnsAll_env hr)
    have key : ∀ x : Number, x.Used s ords.length → (o (x.place s ords.length).1).getD (x.place s ords.length).2 0 =
        W (x.place s ords.length).1 (x.place s ords.length).2 ω := fun x hx =>
      hz _ (place_used hx).1 _ (place_used hx).2.1
    refine ⟨Z, fun hmo k hk => ?_, ?_⟩
    · exact Spec.BunchFrom.congr (hZ hmo k hk) (fun i hi => key (.jitter k i) ⟨hmo, hk, hi⟩)
        (fun hn j hj i hi => key (.particle k j i) ⟨hmo, hn, hk, hj, hi⟩)
    · exact Spec.MadeWith.congr hm (fun k hk p b t hb ht => key (.bpm k (p, b, t)) ⟨hk, hb, ht⟩)

end law
end PySC
