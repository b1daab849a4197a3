import Verif.Spec.Beam
import Verif.Lemmas.Random
import Verif.Lemmas.SupportUpdate
import Mathlib.Tactic.FinCases
import Mathlib.Data.Fintype.Basic
/-
Lemmas about BPM readings.
-/
set_option linter.unusedSectionVars false
namespace PySC
open Py Spec
variable {K : Type} [Field K] [LinearOrder K]

theorem bindLift_eq_ok {σ α β : Type _} {x : Except Err α} {f : α → Py σ β} {s s' : σ} {b : β} :
    (lift x >>= f) s = .ok b s' ↔ ∃ a, x = .ok a ∧ f a s = .ok b s' := by
  rw [bind_eq_ok]
  constructor
  · rintro ⟨a, s1, h1, h2⟩
    obtain ⟨h3, rfl⟩ := lift_eq_ok.1 h1
    exact ⟨a, h3, h2⟩
  · rintro ⟨a, h1, h2⟩
    exact ⟨a, s, lift_eq_ok.2 ⟨h1, rfl⟩, h2⟩

theorem bindRd_eq_ok {α β : Type} {g : Ring K → Except Err α} {f : α → Py (SC K) β} {s s' : SC K} {b : β} :
    (rd g >>= f) s = .ok b s' ↔ ∃ a, g s.RING = .ok a ∧ f a s = .ok b s' := by
  rw [bind_eq_ok]
  constructor
  · rintro ⟨a, s1, h1, h2⟩
    obtain ⟨h3, rfl⟩ := rd_eq_ok.1 h1
    exact ⟨a, h3, h2⟩
  · rintro ⟨a, h1, h2⟩
    exact ⟨a, s, rd_eq_ok.2 ⟨h1, rfl⟩, h2⟩

theorem bindGet_eq_ok {σ β : Type _} {f : σ → Py σ β} {s s' : σ} {b : β} :
    (Py.get >>= f) s = .ok b s' ↔ f s s = .ok b s' := by
  rw [bind_eq_ok]
  constructor
  · rintro ⟨a, s1, h1, h2⟩
    cases h1
    exact h2
  · intro h
    exact ⟨s, s, rfl, h⟩

theorem mapEach_chain {σ α β : Type _} {f : α → Py σ β} : ∀ {l : List α} {s : σ} {out : List β} {s' : σ},
    mapEach l f s = .ok out s' → out.length = l.length ∧ ∃ st : Nat → σ, st 0 = s ∧ st l.length = s' ∧
      ∀ k x, l[k]? = some x → ∃ y, out[k]? = some y ∧ f x (st k) = .ok y (st (k + 1)) := by
  intro l
  induction l with
  | nil =>
    intro s out s' h
    rw [mapEach_nil, pure_apply'] at h
    cases h
    exact ⟨rfl, fun _ => s, rfl, rfl, by simp⟩
  | cons a l ih =>
    intro s out s' h
    rw [mapEach_cons, bind_eq_ok] at h
    obtain ⟨y, s1, h1, h2⟩ := h
    rw [bind_eq_ok] at h2
    obtain ⟨ys, s2, h3, h4⟩ := h2
    cases h4
    obtain ⟨hl, st, e0, en, hk⟩ := ih h3
    refine ⟨by simp [hl], fun k => match k with | 0 => s | k + 1 => st k, rfl, en, ?_⟩
    intro k x hx
    cases k with
    | zero =>
      have : a = x := by simpa using hx
      subst this
      exact ⟨y, rfl, h1.trans (by rw [← e0])⟩
    | succ k => exact hk k x hx

theorem getD_lt {α : Type} (l : List α) (d : α) {k : Nat} (h : k < l.length) : l.getD k d = l[k] := by
  simp [List.getD_eq_getElem?_getD, h]

/-- only random numbers were consumed -/
def OnlyRng (s s' : SC K) : Prop := s' = { s with rng := s'.rng } ∧ s.rng ≤ s'.rng

theorem OnlyRng.refl (s : SC K) : OnlyRng s s := ⟨rfl, le_refl _⟩
theorem OnlyRng.trans {a b c : SC K} (h1 : OnlyRng a b) (h2 : OnlyRng b c) : OnlyRng a c := by
  refine ⟨?_, h1.2.trans h2.2⟩
  rw [h2.1, h1.1]

/-- the numbers of one call of `randnc` -/
theorem randnc_fresh {E : Env K} {cut : K} {n : Nat} {s s' : SC K} {l : List K} (h : randnc E cut n s = .ok l s') :
    OnlyRng s s' ∧ l.length = n ∧ Fresh E.randn s.rng s'.rng cut (· < n) (fun k => l.getD k 0) := by
  unfold randnc at h
  cases hr : randncFrom E cut n s.rng with
  | error e => rw [hr] at h; cases h
  | ok p =>
    obtain ⟨l', pos⟩ := p
    rw [hr] at h
    cases h
    obtain ⟨hb, hl, hp, qs, hq, hnd, hin⟩ := randncFrom_eq_ok hr
    refine ⟨⟨rfl, by simp only; omega⟩, hl, fun k => qs.getD k 0, ?_, ?_⟩
    · intro i j hi hj hij
      have hlen : qs.length = n := by rw [← hl, hq, List.length_map]
      simp only at hij
      rw [getD_lt qs 0 (k := i) (by omega), getD_lt qs 0 (k := j) (by omega)] at hij
      exact (List.Nodup.getElem_inj_iff hnd).1 hij
    · intro i hi
      have hlen : qs.length = n := by rw [← hl, hq, List.length_map]
      have hi' : i < qs.length := by omega
      have hil : i < l.length := by omega
      have h1 : l.getD i 0 = l[i] := getD_lt _ _ hil
      have h2 : qs.getD i 0 = qs[i] := getD_lt _ _ hi'
      simp only
      rw [h1, h2]
      refine ⟨(hin _ (List.getElem_mem hi')).1, (hin _ (List.getElem_mem hi')).2, ?_, hb _ (List.getElem_mem hil)⟩
      subst hq
      simp

theorem Spec.Fresh.mono {ι : Type} {randn : Nat → K} {lo hi lo' hi' : Nat} {cut : K} {valid : ι → Prop} {z : ι → K}
    (h : Fresh randn lo hi cut valid z) (h1 : lo' ≤ lo) (h2 : hi ≤ hi') : Fresh randn lo' hi' cut valid z := by
  obtain ⟨p, hp, hq⟩ := h
  exact ⟨p, hp, fun i hi => ⟨h1.trans (hq i hi).1, (hq i hi).2.1.trans_le h2, (hq i hi).2.2⟩⟩

/-- re-indexing -/
theorem Spec.Fresh.comp {ι κ : Type} {randn : Nat → K} {lo hi : Nat} {cut : K} {valid : ι → Prop} {z : ι → K}
    (h : Fresh randn lo hi cut valid z) {valid' : κ → Prop} (g : κ → ι) (hg : ∀ k, valid' k → valid (g k))
    (hinj : ∀ k l, valid' k → valid' l → g k = g l → k = l) : Fresh randn lo hi cut valid' (fun k => z (g k)) := by
  obtain ⟨p, hp, hq⟩ := h
  exact ⟨fun k => p (g k), fun i j hi hj he => hinj i j hi hj (hp _ _ (hg i hi) (hg j hj) he), fun i hi => hq _ (hg i hi)⟩

theorem Spec.Fresh.congr {ι : Type} {randn : Nat → K} {lo hi : Nat} {cut : K} {valid : ι → Prop} {z z' : ι → K}
    (h : Fresh randn lo hi cut valid z) (hz : ∀ i, valid i → z' i = z i) : Fresh randn lo hi cut valid z' := by
  obtain ⟨p, hp, hq⟩ := h
  refine ⟨p, hp, fun i hi => ?_⟩
  rw [hz i hi]
  exact hq i hi

/-- numbers from successive calls -/
theorem Spec.Fresh.steps {ι : Type} {randn : Nat → K} {q : Nat → Nat} {cut : K} {valid : ι → Prop} {z : Nat → ι → K} {n : Nat}
    (hq : ∀ k < n, q k ≤ q (k + 1)) (h : ∀ k < n, Fresh randn (q k) (q (k + 1)) cut valid (z k)) :
    Fresh randn (q 0) (q n) cut (fun ki : Nat × ι => ki.1 < n ∧ valid ki.2) (fun ki => z ki.1 ki.2) := by
  have hmono : ∀ a b, a ≤ b → b ≤ n → q a ≤ q b := by
    intro a b hab
    induction hab with
    | refl => intro _; exact le_refl _
    | step _ ih => intro hb; exact (ih (by omega)).trans (hq _ (by omega))
  choose! p hp1 hp2 using h
  refine ⟨fun ki => p ki.1 ki.2, ?_, ?_⟩
  · rintro ⟨k, i⟩ ⟨l, j⟩ ⟨hk, hi⟩ ⟨hl, hj⟩ he
    simp only at hk hl hi hj he
    have h1 := hp2 k hk i hi
    have h2 := hp2 l hl j hj
    rcases lt_trichotomy k l with hkl | hkl | hkl
    · have := hmono (k + 1) l hkl (by omega); omega
    · subst hkl; rw [hp1 k hk i j hi hj he]
    · have := hmono (l + 1) k hkl (by omega); omega
  · rintro ⟨k, i⟩ ⟨hk, hi⟩
    have h1 := hp2 k hk i hi
    exact ⟨(hmono 0 k (by omega) (by omega)).trans h1.1, h1.2.1.trans_le (hmono (k + 1) n (by omega) (le_refl _)), h1.2.2⟩

theorem index_inj {nt b t b' t' : Nat} (ht : t < nt) (ht' : t' < nt) (h : b * nt + t = b' * nt + t') : b = b' ∧ t = t' := by
  have hb : b = b' := by
    have h1 : (b * nt + t) / nt = b := by rw [Nat.add_comm, Nat.add_mul_div_right _ _ (by omega), Nat.div_eq_of_lt ht]; omega
    have h2 : (b' * nt + t') / nt = b' := by rw [Nat.add_comm, Nat.add_mul_div_right _ _ (by omega), Nat.div_eq_of_lt ht']; omega
    rw [← h1, ← h2, h]
  subst hb
  exact ⟨rfl, by omega⟩

theorem index_lt {nb nt b t : Nat} (hb : b < nb) (ht : t < nt) : b * nt + t < nb * nt := by
  have : (b + 1) * nt ≤ nb * nt := Nat.mul_le_mul_right _ hb
  rw [Nat.add_mul] at this
  omega

theorem Ring.getPair_eq_ok {r : Ring K} {i : Nat} {a : String} {p : K × K} :
    r.getPair i a = .ok p ↔ r.attr i a = some (.vec [p.1, p.2]) := by
  unfold Ring.getPair Ring.getVec
  simp only [Except.bind_eq_ok', Ring.getA_eq_ok]
  constructor
  · rintro ⟨v, ⟨x, hx, hv⟩, h⟩
    cases x <;> simp only [Attr.toVec, reduceCtorEq] at hv
    cases hv
    match v, h with
    | [a, b], h => cases h; exact hx
  · intro h
    exact ⟨[p.1, p.2], ⟨_, h, rfl⟩, rfl⟩


/-! ### Bunches and tracking -/

theorem bmul_six {v z w : List K} (hv : v.length = 6) (hz : z.length = 6) (h : bmul v z = .ok w) :
    w = List.zipWith (· * ·) v z := by
  unfold bmul at h
  rw [if_pos (by omega)] at h
  cases h; rfl

theorem vadd_eq_ok {v w u : List K} : vadd v w = .ok u ↔ v.length = w.length ∧ u = List.zipWith (· + ·) v w := by
  unfold vadd
  split
  · rename_i h; simp [h, eq_comm]
  · rename_i h; simp [h]

theorem generateBunches_ok {E : Env K} {B : BeamEnv K} {np : Option Nat} {s s' : SC K} {Z : List (List K)}
    (h6 : s.INJ.randomInjectionZ.length = 6) (h : generateBunches E B np s = .ok Z s') :
    OnlyRng s s' ∧ IsBunch B E.randn s.rng s'.rng s.INJ (np.getD s.INJ.nParticles) Z := by
  unfold generateBunches at h
  have h := bindGet_eq_ok.1 h
  obtain ⟨z, s1, h1, h⟩ := bind_eq_ok.1 h
  obtain ⟨o1, hz, f1⟩ := randnc_fresh h1
  obtain ⟨j, g2, h⟩ := bindLift_eq_ok.1 h
  have hj := bmul_six h6 hz g2
  obtain ⟨c, g3, h⟩ := bindLift_eq_ok.1 h
  obtain ⟨hl3, hc⟩ := vadd_eq_ok.1 g3
  have hjl : j.length = 6 := by rw [hj]; simp [h6, hz]
  have hZ0 : s.INJ.Z0.length = 6 := by omega
  have hcl : c.length = 6 := by rw [hc]; simp [hjl, hZ0]
  have hcv : ∀ k < 6, ∃ r z0, s.INJ.randomInjectionZ[k]? = some r ∧ s.INJ.Z0[k]? = some z0 ∧
      c[k]? = some (r * z.getD k 0 + z0) := by
    intro k hk
    have hk1 : k < s.INJ.randomInjectionZ.length := by omega
    have hk2 : k < s.INJ.Z0.length := by omega
    refine ⟨s.INJ.randomInjectionZ[k], s.INJ.Z0[k], List.getElem?_eq_getElem _, List.getElem?_eq_getElem _, ?_⟩
    clear hjl hcl hl3
    rw [hc, hj, getD_lt z 0 (k := k) (by omega)]
    rw [List.getElem?_zipWith, List.getElem?_zipWith, List.getElem?_eq_getElem (by omega : k < s.INJ.randomInjectionZ.length),
      List.getElem?_eq_getElem (by omega : k < z.length), List.getElem?_eq_getElem (by omega : k < s.INJ.Z0.length)]
  by_cases hn : np.getD s.INJ.nParticles = 1
  · rw [if_pos hn] at h
    cases h
    exact ⟨o1, s'.rng, c, _, f1, le_refl _, hcl, hcv, Or.inl ⟨hn, rfl⟩⟩
  · rw [if_neg hn] at h
    obtain ⟨m, g4, h⟩ := bindLift_eq_ok.1 h
    obtain ⟨w, s5, h5, h⟩ := bind_eq_ok.1 h
    obtain ⟨o5, hw, f5⟩ := randnc_fresh h5
    obtain ⟨Zs, g6', h⟩ := bindLift_eq_ok.1 h
    cases h
    obtain ⟨hlen, hZ⟩ := mapM_except_eq_ok g6'
    refine ⟨o1.trans o5, _, c, _, f1, o5.2, hcl, hcv, Or.inr ⟨hn, m,
      fun jk => w.getD (jk.2 * np.getD s.INJ.nParticles + jk.1) 0, Zs, g4, ?_, rfl, by simpa using hlen, ?_⟩⟩
    · refine f5.comp (fun jk : Nat × Nat => jk.2 * np.getD s.INJ.nParticles + jk.1) ?_ ?_
      · rintro ⟨j, k⟩ ⟨h1, h2⟩
        simp only at h1 h2 ⊢
        exact index_lt h2 h1
      · rintro ⟨j, k⟩ ⟨j', k'⟩ ⟨h1, h2⟩ ⟨h1', h2'⟩ he
        simp only at h1 h2 h1' h2' he
        obtain ⟨rfl, rfl⟩ := index_inj h1 h1' he
        rfl
    · intro j hj
      obtain ⟨y, hy, hyj⟩ := hZ j j (by simp [hj])
      rw [hyj, (vadd_eq_ok.1 hy).2]
      rfl

theorem tracking_ok {E : Env K} {B : BeamEnv K} {refs : List Nat} {s s' : SC K} {trk : Nat → Nat → List (Option K × Option K)}
    (h6 : s.INJ.randomInjectionZ.length = 6) (h : tracking E B refs s = .ok trk s') :
    OnlyRng s s' ∧
    ((s.INJ.trackMode = "ORB" ∧ trk = fun b _ => [maskY (B.orbit s.RING (refs.getD b 0))]) ∨
     (s.INJ.trackMode ≠ "ORB" ∧ ∃ Z, IsBunch B E.randn s.rng s'.rng s.INJ s.INJ.nParticles Z ∧
        trk = fun b t => (B.track s.RING Z (refs.getD b 0) t).map maskY)) := by
  unfold tracking at h
  have h := bindGet_eq_ok.1 h
  by_cases hm : s.INJ.trackMode = "ORB"
  · rw [if_pos hm] at h
    cases h
    exact ⟨OnlyRng.refl _, Or.inl ⟨hm, rfl⟩⟩
  · rw [if_neg hm] at h
    obtain ⟨Z, s1, h1, h⟩ := bind_eq_ok.1 h
    cases h
    obtain ⟨o, hb⟩ := generateBunches_ok h6 h1
    exact ⟨o, Or.inr ⟨hm, Z, hb, rfl⟩⟩

/-! ### One shot -/

theorem realBpmReading_ok {E : Env K} {B : BeamEnv K} {ords : List Nat} {nt : Nat}
    {trk : Nat → Nat → List (Option K × Option K)} {s s' : SC K} {c : Nat → Nat → Cell K}
    (h : realBpmReading E B ords nt trk s = .ok c s') :
    OnlyRng s s' ∧ ∃ (e : Nat → BpmErr K) (z : ZIx → K),
      (∀ b i, ords[b]? = some i → BpmAt s.RING (if s.INJ.trackMode = "ORB" then "NoiseCO" else "Noise") i (e b)) ∧
      Fresh E.randn s.rng s'.rng 2 (fun i : ZIx => i.2.1 < ords.length ∧ i.2.2 < nt) z ∧
      (∀ b t, b < ords.length → t < nt → c b t = realReading1 B s.INJ.beamLostAt (e b) (trk b t) (z (0, b, t)) (z (1, b, t)) (z (2, b, t)) ∧
        cellInfinite (e b) (trk b t) (z (2, b, t)) = false) := by
  unfold realBpmReading at h
  have h := bindGet_eq_ok.1 h
  obtain ⟨noise, g1, h⟩ := bindRd_eq_ok.1 h
  obtain ⟨hnl, hn⟩ := mapM_except_eq_ok g1
  obtain ⟨zn, s2, h2, h⟩ := bind_eq_ok.1 h
  obtain ⟨o2, hzn, f2⟩ := randnc_fresh h2
  obtain ⟨errs, g3, h⟩ := bindRd_eq_ok.1 h
  obtain ⟨hel, he⟩ := mapM_except_eq_ok g3
  obtain ⟨zs, s4, h4, h⟩ := bind_eq_ok.1 h
  obtain ⟨o4, hzs, f4⟩ := randnc_fresh h4
  have hring : s2.RING = s.RING := by rw [o2.1]
  split at h
  · cases h
  rename_i hfin
  cases h
  refine ⟨o2.trans o4, fun b => errs.getD b ⟨(0, 0), (0, 0), (0, 0), 0, 0⟩,
    fun i => match i with
      | (0, b, t) => zn.getD (b * nt + t) 0
      | (1, b, t) => zn.getD (ords.length * nt + b * nt + t) 0
      | (2, b, t) => zs.getD (b * nt + t) 0, ?_, ?_, ?_⟩
  · intro b i hb
    have hbl : b < ords.length := (List.getElem?_eq_some_iff.1 hb).1
    obtain ⟨n, hn1, hn2⟩ := hn b i hb
    obtain ⟨y, hy1, hy2⟩ := he b (i, n) (by rw [List.getElem?_zip_eq_some]; exact ⟨hb, hn2⟩)
    have hy : errs.getD b ⟨(0, 0), (0, 0), (0, 0), 0, 0⟩ = y := by
      rw [List.getD_eq_getElem?_getD, hy2]; rfl
    simp only [hy]
    rw [hring] at hy1
    simp only [Except.bind_eq_ok', Ring.getPair_eq_ok, Ring.getNum_eq_ok] at hy1
    obtain ⟨o, ho, so, hso, cc, hcc, ro, hro, sr, hsr, su, hsu, hy1⟩ := hy1
    cases hy1
    exact ⟨Ring.getPair_eq_ok.1 hn1, ⟨o.1, o.2, so.1, so.2, ho, hso, rfl⟩, ⟨ro, sr, hro, hsr, rfl⟩, hcc, hsu⟩
  · obtain ⟨p2, i2, r2⟩ := f2
    obtain ⟨p4, i4, r4⟩ := f4
    refine ⟨fun i => match i with
      | (0, b, t) => p2 (b * nt + t)
      | (1, b, t) => p2 (ords.length * nt + b * nt + t)
      | (2, b, t) => p4 (b * nt + t), ?_, ?_⟩
    · have key : ∀ b t, b < ords.length → t < nt → b * nt + t < 2 * ords.length * nt ∧
          ords.length * nt + b * nt + t < 2 * ords.length * nt := by
        intro b t hb ht
        have := index_lt hb ht
        have : 2 * ords.length * nt = ords.length * nt + ords.length * nt := by ring
        omega
      rintro ⟨a, b, t⟩ ⟨a', b', t'⟩ ⟨h1, h2⟩ ⟨h1', h2'⟩ heq
      simp only at h1 h2 h1' h2'
      have k1 := key b t h1 h2
      have k2 := key b' t' h1' h2'
      have l1 := index_lt h1 h2
      have l2 := index_lt h1' h2'
      fin_cases a <;> fin_cases a' <;> simp only [Fin.zero_eta, Fin.mk_one, Fin.reduceFinMk] at heq ⊢
      · obtain ⟨rfl, rfl⟩ := index_inj h2 h2' (i2 _ _ k1.1 k2.1 heq); rfl
      · have := i2 _ _ k1.1 k2.2 heq; omega
      · have e1 := r2 _ k1.1; have e2 := r4 _ l2; omega
      · have := i2 _ _ k1.2 k2.1 heq; omega
      · obtain ⟨rfl, rfl⟩ := index_inj h2 h2' (by have := i2 _ _ k1.2 k2.2 heq; omega : b * nt + t = b' * nt + t'); rfl
      · have e1 := r2 _ k1.2; have e2 := r4 _ l2; omega
      · have e1 := r2 _ k2.1; have e2 := r4 _ l1; omega
      · have e1 := r2 _ k2.2; have e2 := r4 _ l1; omega
      · obtain ⟨rfl, rfl⟩ := index_inj h2 h2' (i4 _ _ l1 l2 heq); rfl
    · rintro ⟨a, b, t⟩ ⟨h1, h2⟩
      simp only at h1 h2
      have l1 := index_lt h1 h2
      have e : 2 * ords.length * nt = ords.length * nt + ords.length * nt := by ring
      fin_cases a
      · have := r2 (b * nt + t) (by omega)
        exact ⟨this.1, this.2.1.trans_le o4.2, this.2.2⟩
      · have := r2 (ords.length * nt + b * nt + t) (by omega)
        exact ⟨this.1, this.2.1.trans_le o4.2, this.2.2⟩
      · have := r4 (b * nt + t) l1
        exact ⟨o2.2.trans this.1, this.2⟩
  · intro b t hb ht
    refine ⟨rfl, ?_⟩
    rw [Bool.not_eq_true, List.any_eq_false] at hfin
    have := hfin b (by simp [hb])
    rw [Bool.not_eq_true, List.any_eq_false] at this
    simpa using this t (by simp [ht])


instance : Inhabited (BpmErr K) := ⟨⟨(0, 0), (0, 0), (0, 0), 0, 0⟩⟩
instance : Inhabited (Cell K) := ⟨⟨none, none, none⟩⟩

theorem BpmAt_unique {r : Ring K} {n : String} {i : Nat} {e e' : BpmErr K} (h : BpmAt r n i e) (h' : BpmAt r n i e') :
    e = e' := by
  obtain ⟨h1, ⟨ox, oy, sx, sy, a1, a2, a3⟩, ⟨ra, rb, b1, b2, b3⟩, h4, h5⟩ := h
  obtain ⟨h1', ⟨ox', oy', sx', sy', a1', a2', a3'⟩, ⟨ra', rb', b1', b2', b3'⟩, h4', h5'⟩ := h'
  rw [h1] at h1'; rw [a1] at a1'; rw [a2] at a2'; rw [b1] at b1'; rw [b2] at b2'; rw [h4] at h4'; rw [h5] at h5'
  cases e; cases e'
  simp only [Option.some.injEq, Attr.vec.injEq, List.cons.injEq, and_true, Attr.num.injEq] at *
  obtain ⟨rfl, rfl⟩ := a1'
  obtain ⟨rfl, rfl⟩ := a2'
  subst b1' b2' h5'
  simp only [BpmErr.mk.injEq]
  refine ⟨Prod.ext h1'.1 h1'.2, by rw [a3, a3'], Prod.ext h4'.1 h4'.2, by rw [b3, b3'], trivial⟩

theorem turnIx_lt {s : SC K} {t : Nat} (h : t < s.INJ.nTurns) : turnIx s t < turns s := by
  unfold turnIx turns; split <;> omega

/-- the loop over the shots -/
theorem shots_ok {E : Env K} {B : BeamEnv K} {ords : List Nat} {n : Nat} {s s' : SC K} {shots : List (Nat → Nat → Cell K)}
    (h6 : s.INJ.randomInjectionZ.length = 6) (hn : n ≠ 0)
    (h : mapEach (List.range n) (fun _ => do
      let trk ← tracking E B ords
      if s.INJ.trackMode = "ORB" then do
        let c ← realBpmReading E B ords 1 trk
        Py.pure (fun b (_ : Nat) => c b 0)
      else realBpmReading E B ords s.INJ.nTurns trk) s = .ok shots s') :
    OnlyRng s s' ∧ shots.length = n ∧ ∃ (e : Nat → BpmErr K) (Z : Nat → List (List K)) (q : Nat → Nat) (z : Nat × ZIx → K),
      (∀ b i, ords[b]? = some i → BpmAt s.RING (if s.INJ.trackMode = "ORB" then "NoiseCO" else "Noise") i (e b)) ∧
      (s.INJ.trackMode ≠ "ORB" → q 0 = s.rng ∧ q n = s'.rng ∧ ∀ k < n, q k ≤ q (k + 1) ∧
        IsBunch B E.randn (q k) (q (k + 1)) s.INJ s.INJ.nParticles (Z k)) ∧
      Fresh E.randn s.rng s'.rng 2 (fun i : Nat × ZIx => i.1 < n ∧ i.2.2.1 < ords.length ∧ i.2.2.2 < turns s) z ∧
      ∀ k < n, ∃ c, shots[k]? = some c ∧ ∀ b t i, ords[b]? = some i → t < s.INJ.nTurns →
        c b t = realReading1 B s.INJ.beamLostAt (e b) ((seenAt B s (Z k) i t).map maskY) (z (k, 0, b, turnIx s t))
          (z (k, 1, b, turnIx s t)) (z (k, 2, b, turnIx s t)) ∧
        cellInfinite (e b) ((seenAt B s (Z k) i t).map maskY) (z (k, 2, b, turnIx s t)) = false := by
  obtain ⟨hlen, st, e0, en, hst⟩ := mapEach_chain h
  rw [List.length_range] at hlen en
  -- one shot
  have step : ∀ k < n, ∀ s0 : SC K, OnlyRng s s0 → ∀ c s1, (do
      let trk ← tracking E B ords
      if s.INJ.trackMode = "ORB" then do
        let c ← realBpmReading E B ords 1 trk
        Py.pure (fun b (_ : Nat) => c b 0)
      else realBpmReading E B ords s.INJ.nTurns trk : Py (SC K) (Nat → Nat → Cell K)) s0 = .ok c s1 →
      OnlyRng s0 s1 ∧ ∃ (e : Nat → BpmErr K) (Z : List (List K)) (z : ZIx → K),
        (∀ b i, ords[b]? = some i → BpmAt s.RING (if s.INJ.trackMode = "ORB" then "NoiseCO" else "Noise") i (e b)) ∧
        (s.INJ.trackMode ≠ "ORB" → IsBunch B E.randn s0.rng s1.rng s.INJ s.INJ.nParticles Z) ∧
        Fresh E.randn s0.rng s1.rng 2 (fun i : ZIx => i.2.1 < ords.length ∧ i.2.2 < turns s) z ∧
        ∀ b t i, ords[b]? = some i → t < s.INJ.nTurns →
          c b t = realReading1 B s.INJ.beamLostAt (e b) ((seenAt B s Z i t).map maskY) (z (0, b, turnIx s t))
            (z (1, b, turnIx s t)) (z (2, b, turnIx s t)) ∧
          cellInfinite (e b) ((seenAt B s Z i t).map maskY) (z (2, b, turnIx s t)) = false := by
    intro k _ s0 ho c s1 h
    have hI : s0.INJ = s.INJ := by rw [ho.1]
    have hR : s0.RING = s.RING := by rw [ho.1]
    obtain ⟨trk, s2, h1, h2⟩ := bind_eq_ok.1 h
    obtain ⟨o1, ht⟩ := tracking_ok (by rw [hI]; exact h6) h1
    have hI2 : s2.INJ = s.INJ := by rw [o1.1]; exact hI
    have hR2 : s2.RING = s.RING := by rw [o1.1]; exact hR
    rw [hI, hR] at ht
    by_cases hm : s.INJ.trackMode = "ORB"
    · rw [if_pos hm] at h2
      obtain ⟨c0, s3, h3, h4⟩ := bind_eq_ok.1 h2
      cases h4
      obtain ⟨o3, e, z, he, hz, hc⟩ := realBpmReading_ok h3
      rw [hI2, hR2] at he
      rw [hI2] at hc
      obtain ⟨-, rfl⟩ : s.INJ.trackMode = "ORB" ∧ trk = fun b _ => [maskY (B.orbit s.RING (ords.getD b 0))] := by
        rcases ht with ht | ht
        · exact ht
        · exact absurd hm ht.1
      refine ⟨o1.trans o3, e, [], z, he, fun hh => absurd hm hh, ?_, ?_⟩
      · unfold turns
        rw [if_pos hm]
        exact hz.mono o1.2 (le_refl _)
      · intro b t i hb _
        have hbl : b < ords.length := (List.getElem?_eq_some_iff.1 hb).1
        have hbi : ords.getD b 0 = i := by rw [List.getD_eq_getElem?_getD, hb]; rfl
        unfold turnIx seenAt
        rw [if_pos hm, if_pos hm]
        have := hc b 0 hbl (by omega)
        simp only [hbi] at this
        exact this
    · rw [if_neg hm] at h2
      obtain ⟨o3, e, z, he, hz, hc⟩ := realBpmReading_ok h2
      rw [hI2, hR2] at he
      rw [hI2] at hc
      obtain ⟨-, Z, hZ, rfl⟩ : s.INJ.trackMode ≠ "ORB" ∧ ∃ Z, IsBunch B E.randn s0.rng s2.rng s.INJ s.INJ.nParticles Z ∧
          trk = fun b t => (B.track s.RING Z (ords.getD b 0) t).map maskY := by
        rcases ht with ht | ht
        · exact absurd ht.1 hm
        · exact ht
      refine ⟨o1.trans o3, e, Z, z, he, fun _ => ?_, ?_, ?_⟩
      · obtain ⟨mid, cc, zz, f1, hle, r1, r2, r3⟩ := hZ
        refine ⟨mid, cc, zz, f1, hle.trans o3.2, r1, r2, ?_⟩
        rcases r3 with r3 | ⟨r3, m, w, Zs, t1, t2, t3⟩
        · exact Or.inl r3
        · exact Or.inr ⟨r3, m, w, Zs, t1, t2.mono (le_refl _) o3.2, t3⟩
      · unfold turns
        rw [if_neg hm]
        exact hz.mono o1.2 (le_refl _)
      · intro b t i hb ht
        have hbl : b < ords.length := (List.getElem?_eq_some_iff.1 hb).1
        have hbi : ords.getD b 0 = i := by rw [List.getD_eq_getElem?_getD, hb]; rfl
        unfold turnIx seenAt
        rw [if_neg hm, if_neg hm]
        have := hc b t hbl ht
        simp only [hbi] at this
        exact this
  -- all states
  have chain : ∀ k ≤ n, OnlyRng s (st k) := by
    intro k
    induction k with
    | zero => intro _; rw [e0]; exact OnlyRng.refl _
    | succ k ih =>
      intro hk
      obtain ⟨c, -, hc⟩ := hst k k (by rw [List.getElem?_range (by omega)])
      exact (ih (by omega)).trans (step k (by omega) _ (ih (by omega)) c _ hc).1
  have each : ∀ k, k < n → ∃ (c : Nat → Nat → Cell K) (e : Nat → BpmErr K) (Z : List (List K)) (z : ZIx → K),
      shots[k]? = some c ∧ OnlyRng (st k) (st (k + 1)) ∧
      (∀ b i, ords[b]? = some i → BpmAt s.RING (if s.INJ.trackMode = "ORB" then "NoiseCO" else "Noise") i (e b)) ∧
      (s.INJ.trackMode ≠ "ORB" → IsBunch B E.randn (st k).rng (st (k + 1)).rng s.INJ s.INJ.nParticles Z) ∧
      Fresh E.randn (st k).rng (st (k + 1)).rng 2 (fun i : ZIx => i.2.1 < ords.length ∧ i.2.2 < turns s) z ∧
      ∀ b t i, ords[b]? = some i → t < s.INJ.nTurns →
        c b t = realReading1 B s.INJ.beamLostAt (e b) ((seenAt B s Z i t).map maskY) (z (0, b, turnIx s t))
          (z (1, b, turnIx s t)) (z (2, b, turnIx s t)) ∧
        cellInfinite (e b) ((seenAt B s Z i t).map maskY) (z (2, b, turnIx s t)) = false := by
    intro k hk
    obtain ⟨c, hc1, hc⟩ := hst k k (by rw [List.getElem?_range (by omega)])
    obtain ⟨o, e, Z, z, r⟩ := step k hk _ (chain k (by omega)) c _ hc
    exact ⟨c, e, Z, z, hc1, o, r⟩
  choose! c e Z z r1 r2 r3 r4 r5 r6 using each
  have hsame : ∀ k < n, ∀ b i, ords[b]? = some i → e k b = e 0 b := fun k hk b i hb =>
    BpmAt_unique (r3 k hk b i hb) (r3 0 (by omega) b i hb)
  refine ⟨en ▸ chain n (le_refl _), hlen, e 0, Z, fun k => (st k).rng, fun i => z i.1 i.2, r3 0 (by omega), fun hm => ?_, ?_, ?_⟩
  · refine ⟨by simp only [e0], by simp only [en], fun k hk => ⟨(r2 k hk).2, r4 k hk hm⟩⟩
  · have := Fresh.steps (q := fun k => (st k).rng) (n := n) (z := z) (fun k hk => (r2 k hk).2) r5
    simp only [e0, en] at this
    exact this
  · intro k hk
    refine ⟨c k, r1 k hk, fun b t i hb ht => ?_⟩
    rw [← hsame k hk b i hb]
    exact r6 k hk b t i hb ht

/-! ### One shot compared with its specification -/

theorem survivors_map (P : List (Option K × Option K)) (h : WholeLoss P) :
    ((P.map maskY).map Prod.fst).filterMap id = (survivors P).map Prod.fst ∧
    ((P.map maskY).map Prod.snd).filterMap id = (survivors P).map Prod.snd ∧
    ((P.map maskY).filter (fun p => p.1.isSome)).length = (survivors P).length := by
  induction P with
  | nil => simp [survivors]
  | cons p P ih =>
    have ih := ih (fun q hq => h q (by simp [hq]))
    have hp := h p (by simp)
    obtain ⟨x, y⟩ := p
    cases x with
    | none => simpa [survivors, maskY] using ih
    | some x =>
      cases y with
      | none => simp at hp
      | some y => simpa [survivors, maskY] using ih

theorem aliveFraction_mask (P : List (Option K × Option K)) (h : WholeLoss P) :
    aliveFraction (P.map maskY) = ((survivors P).length : K) / (P.length : K) := by
  unfold aliveFraction
  rw [(survivors_map P h).2.2, List.length_map]

theorem transmission_mask (e : BpmErr K) (P : List (Option K × Option K)) (h : WholeLoss P) (zs : K) :
    transmission e (P.map maskY) zs = signal e P zs := by
  unfold transmission signal
  rw [aliveFraction_mask P h]

/-- value and weight, if both are there -/
def both {α β : Type} : Option α → Option β → Option (α × β)
  | some a, some b => some (a, b)
  | _, _ => none

theorem realReading1_spec (B : BeamEnv K) (lostAt : K) (e : BpmErr K) (P : List (Option K × Option K)) (h : WholeLoss P)
    (zx zy zs : K) :
    let c := realReading1 B lostAt e (P.map maskY) zx zy zs
    let sh := shot B.cosSin lostAt e P zx zy zs
    both c.x c.sum = sh.map (fun p => (p.1.1, p.2)) ∧ both c.y c.sum = sh.map (fun p => (p.1.2, p.2)) ∧
      c.x = sh.map (fun p => p.1.1) ∧ c.y = sh.map (fun p => p.1.2) ∧
      c.sum.getD 0 = (sh.map Prod.snd).getD 0 := by
  simp only
  obtain ⟨h1, h2, h3⟩ := survivors_map P h
  unfold realReading1
  rw [transmission_mask e P h]
  by_cases hl : signal e P zs < 1 - lostAt
  · rw [if_pos hl]
    have : shot B.cosSin lostAt e P zx zy zs = none := by
      unfold shot; rw [if_neg (fun hs => absurd hl (not_lt.2 hs.2))]
    rw [this]
    exact ⟨rfl, rfl, rfl, rfl, rfl⟩
  · rw [if_neg hl]
    by_cases hs : survivors P = []
    · have n1 : nanmean ((P.map maskY).map Prod.fst) = none := by
        unfold nanmean; rw [h1, hs]; rfl
      have : shot B.cosSin lostAt e P zx zy zs = none := by
        unfold shot; rw [if_neg (fun hh => hh.1 hs)]
      have h0 : signal e P zs = 0 := by unfold signal; rw [hs]; simp
      rw [n1, this]
      exact ⟨rfl, rfl, rfl, rfl, by simpa using h0⟩
    · have n1 : nanmean ((P.map maskY).map Prod.fst) = some (centre P).1 := by
        unfold nanmean; rw [h1, if_neg (by simpa using hs)]; simp [centre]
      have n2 : nanmean ((P.map maskY).map Prod.snd) = some (centre P).2 := by
        unfold nanmean; rw [h2, if_neg (by simpa using hs)]; simp [centre]
      have : shot B.cosSin lostAt e P zx zy zs = some (shotReading B.cosSin e P zx zy zs, signal e P zs) := by
        unfold shot; rw [if_pos ⟨hs, not_lt.1 hl⟩]
      rw [n1, n2, this]
      exact ⟨rfl, rfl, rfl, rfl, rfl⟩

theorem valid_eq (l : List (Option K × Option K)) : valid l = l.filterMap (fun p => both p.1 p.2) := by
  unfold valid
  congr 1
  funext p
  obtain ⟨x, y⟩ := p
  cases x <;> cases y <;> rfl

theorem average_spec {l : List (Cell K)} {sh : List (Option ((K × K) × K))}
    (h : List.Forall₂ (fun c o => both c.x c.sum = o.map (fun p => (p.1.1, p.2)) ∧ both c.y c.sum = o.map (fun p => (p.1.2, p.2)) ∧
      c.sum.getD 0 = (o.map Prod.snd).getD 0) l sh) :
    maskedAverage (l.map (fun c => (c.x, c.sum))) = (shotMean sh).map Prod.fst ∧
    maskedAverage (l.map (fun c => (c.y, c.sum))) = (shotMean sh).map Prod.snd ∧
    nansum (l.map (fun c => c.sum)) = ((sh.filterMap id).map Prod.snd).sum := by
  have hx : valid (l.map (fun c => (c.x, c.sum))) = (sh.filterMap id).map (fun p => (p.1.1, p.2)) := by
    rw [valid_eq]
    induction h with
    | nil => rfl
    | cons hab _ ih =>
      rename_i c o _ _ _
      rw [List.map_cons, List.filterMap_cons, hab.1]
      cases o <;> simpa using ih
  have hy : valid (l.map (fun c => (c.y, c.sum))) = (sh.filterMap id).map (fun p => (p.1.2, p.2)) := by
    clear hx
    rw [valid_eq]
    induction h with
    | nil => rfl
    | cons hab _ ih =>
      rename_i c o _ _ _
      rw [List.map_cons, List.filterMap_cons, hab.2.1]
      cases o <;> simpa using ih
  have hs : nansum (l.map (fun c => c.sum)) = ((sh.filterMap id).map Prod.snd).sum := by
    clear hx hy
    unfold nansum
    induction h with
    | nil => rfl
    | cons hab _ ih =>
      rename_i c o _ _ _
      have := hab.2.2
      rw [List.map_cons, List.filterMap_cons, List.filterMap_cons]
      cases hc : c.sum with
      | none =>
        rw [hc] at this
        cases o with
        | none => simpa using ih
        | some p => simp only [Option.map_some, Option.getD_some, Option.getD_none] at this; simpa [← this] using ih
      | some w =>
        rw [hc] at this
        cases o with
        | none => simp only [Option.map_none, Option.getD_some, Option.getD_none] at this; simpa [this] using ih
        | some p => simp only [Option.map_some, Option.getD_some] at this; simpa [this] using ih
  refine ⟨?_, ?_, hs⟩
  · unfold maskedAverage shotMean
    rw [hx]
    simp only [List.map_map]
    have : (Prod.snd ∘ fun p : (K × K) × K => (p.1.1, p.2)) = Prod.snd := rfl
    rw [this]
    split
    · rfl
    · rfl
  · unfold maskedAverage shotMean
    rw [hy]
    simp only [List.map_map]
    have : (Prod.snd ∘ fun p : (K × K) × K => (p.1.2, p.2)) = Prod.snd := rfl
    rw [this]
    split
    · rfl
    · rfl

theorem flatten2_length {α : Type} (nb nt : Nat) (f : Nat → Nat → α) : (flatten2 nb nt f).length = nt * nb := by
  unfold flatten2
  induction nt with
  | zero => simp
  | succ n ih => rw [List.range_succ, List.flatMap_append, List.length_append, ih]; simp; ring

theorem flatten2_get {α : Type} {nb nt : Nat} (f : Nat → Nat → α) {b t : Nat} (hb : b < nb) (ht : t < nt) :
    (flatten2 nb nt f)[t * nb + b]? = some (f b t) := by
  induction nt with
  | zero => omega
  | succ n ih =>
    have e : flatten2 nb (n + 1) f = flatten2 nb n f ++ (List.range nb).map (fun b => f b n) := by
      unfold flatten2; rw [List.range_succ, List.flatMap_append]; simp
    rw [e]
    by_cases h : t < n
    · rw [List.getElem?_append_left (by rw [flatten2_length]; exact index_lt h hb)]
      exact ih h
    · have : t = n := by omega
      subst this
      rw [List.getElem?_append_right (by rw [flatten2_length]; omega), flatten2_length]
      simp [hb]


theorem flatten2_congr {α : Type} {nb nt : Nat} {f g : Nat → Nat → α} (h : ∀ b < nb, ∀ t < nt, f b t = g b t) :
    flatten2 nb nt f = flatten2 nb nt g := by
  unfold flatten2
  induction nt with
  | zero => rfl
  | succ n ih =>
    rw [List.range_succ, List.flatMap_append, List.flatMap_append, ih (fun b hb t ht => h b hb t (by omega))]
    congr 1
    simp only [List.flatMap_cons, List.flatMap_nil, List.append_nil]
    apply List.map_congr_left
    intro b hb
    exact h b (by simpa using hb) n (by omega)

theorem tabulate_eq_ok {α : Type} {nb nt : Nat} {f : Nat → Nat → Except Err α} {l : List α} (h : tabulate nb nt f = .ok l) :
    l.length = nt * nb ∧ ∀ b t, b < nb → t < nt → ∃ y, f b t = .ok y ∧ l[t * nb + b]? = some y := by
  unfold tabulate at h
  obtain ⟨hl, hy⟩ := mapM_except_eq_ok h
  refine ⟨by rw [hl, flatten2_length], fun b t hb ht => ?_⟩
  exact hy _ (b, t) (flatten2_get _ hb ht)

theorem registeredBpms_ok {bpms : List Nat} {req : Option (List Nat)} {ords : List Nat}
    (h : registeredBpms bpms req = .ok ords) : Requested bpms req ords := by
  cases req with
  | none => cases h; exact ⟨List.Sublist.refl _, by simp⟩
  | some l =>
    unfold registeredBpms at h
    simp only at h
    split at h
    · cases h
    · cases h
      exact ⟨List.filter_sublist, by simp⟩

/-- the shots of a successful call -/
theorem bpmReading_ok {E : Env K} {B : BeamEnv K} {req : Option (List Nat)} {ce : Bool} {s s' : SC K} {out : Reading K}
    (h6 : s.INJ.randomInjectionZ.length = 6) (hloss : ∀ Z i t, WholeLoss (seenAt B s Z i t))
    (h : bpmReading E B req ce s = .ok out s') :
    ∃ ords, Requested s.ORD.BPM req ords ∧ OnlyRng s s' ∧ s.INJ.nShots ≠ 0 ∧
      ∃ (e : Nat → BpmErr K) (Z : Nat → List (List K)) (z : Nat × ZIx → K), Shots E B s s' ords e Z z ∧
      ∃ (mx my : Nat → Nat → Option K) (sm : Nat → Nat → K),
        (∀ b t i, ords[b]? = some i → t < s.INJ.nTurns →
          mx b t = (shotMean (shotsAt B s e Z z b t i)).map Prod.fst ∧ my b t = (shotMean (shotsAt B s e Z z b t i)).map Prod.snd ∧
          sm b t = (((shotsAt B s e Z z b t i).filterMap id).map Prod.snd).sum / (s.INJ.nShots : K)) ∧
        (s.INJ.trackMode ≠ "PORB" → out.x = flatten2 ords.length s.INJ.nTurns mx ∧
          out.y = flatten2 ords.length s.INJ.nTurns my ∧ out.sums = flatten2 ords.length s.INJ.nTurns sm) ∧
        (s.INJ.trackMode = "PORB" → tabulate ords.length 1 (fun b _ => porbAverage s.INJ.nTurns (mx b) (sm b)) = .ok out.x ∧
          tabulate ords.length 1 (fun b _ => porbAverage s.INJ.nTurns (my b) (sm b)) = .ok out.y ∧
          out.sums = flatten2 ords.length 1 (fun b _ => ((List.range s.INJ.nTurns).map (sm b)).sum / (s.INJ.nTurns : K))) := by
  unfold bpmReading at h
  have h := bindGet_eq_ok.1 h
  obtain ⟨ords, ho, h⟩ := bindLift_eq_ok.1 h
  simp only at h
  obtain ⟨shots, s1, h1, h⟩ := bind_eq_ok.1 h
  by_cases hn : s.INJ.nShots = 0
  · rw [if_pos hn] at h; cases h
  rw [if_neg hn] at h
  obtain ⟨o1, hlen, e, Z, q, z, r1, r2, r3, r4⟩ := shots_ok h6 hn h1
  have hs1 : s1 = s' := by
    by_cases hp : s.INJ.trackMode = "PORB"
    · rw [if_pos hp] at h
      obtain ⟨x, _, h⟩ := bindLift_eq_ok.1 h
      obtain ⟨y, _, h⟩ := bindLift_eq_ok.1 h
      cases h; rfl
    · rw [if_neg hp] at h
      split at h
      · obtain ⟨x, _, h⟩ := bindLift_eq_ok.1 h
        obtain ⟨y, _, h⟩ := bindLift_eq_ok.1 h
        cases h; rfl
      · cases h; rfl
  subst hs1
  refine ⟨ords, registeredBpms_ok ho, o1, hn, e, Z, z, ⟨r1, ?_, r3⟩,
    fun b t => maskedAverage (shots.map (fun c => ((c b t).x, (c b t).sum))),
    fun b t => maskedAverage (shots.map (fun c => ((c b t).y, (c b t).sum))),
    fun b t => nansum (shots.map (fun c => (c b t).sum)) / (s.INJ.nShots : K), ?_, ?_, ?_⟩
  · intro hm
    exact ⟨q, (r2 hm).1, (r2 hm).2.1, (r2 hm).2.2⟩
  · intro b t i hb ht
    have hf : List.Forall₂ (fun c o => both c.x c.sum = o.map (fun p : (K × K) × K => (p.1.1, p.2)) ∧
        both c.y c.sum = o.map (fun p => (p.1.2, p.2)) ∧ c.sum.getD 0 = (o.map Prod.snd).getD 0)
        (shots.map (fun c => c b t)) (shotsAt B s e Z z b t i) := by
      rw [List.forall₂_iff_get]
      refine ⟨by simp [shotsAt, hlen], fun k hk1 hk2 => ?_⟩
      have hk : k < s.INJ.nShots := by simpa [hlen] using hk1
      obtain ⟨c, hc1, hc2⟩ := r4 k hk
      have hcb := (hc2 b t i hb ht).1
      have : shots[k]'(by omega) = c := by
        rw [List.getElem?_eq_getElem (by omega)] at hc1; simpa using hc1
      simp only [List.get_eq_getElem, List.getElem_map, this, shotsAt, List.getElem_range]
      have := realReading1_spec B s.INJ.beamLostAt (e b) (seenAt B s (Z k) i t) (hloss _ _ _)
        (z (k, 0, b, turnIx s t)) (z (k, 1, b, turnIx s t)) (z (k, 2, b, turnIx s t))
      rw [hcb]
      exact ⟨this.1, this.2.1, this.2.2.2.2⟩
    have := average_spec hf
    simp only [List.map_map, Function.comp_def] at this
    refine ⟨this.1, this.2.1, ?_⟩
    simp only
    rw [this.2.2]
  · intro hp
    rw [if_neg hp] at h
    split at h
    · obtain ⟨x, _, h⟩ := bindLift_eq_ok.1 h
      obtain ⟨y, _, h⟩ := bindLift_eq_ok.1 h
      cases h; exact ⟨rfl, rfl, rfl⟩
    · cases h; exact ⟨rfl, rfl, rfl⟩
  · intro hp
    rw [if_pos hp] at h
    obtain ⟨x, hx, h⟩ := bindLift_eq_ok.1 h
    obtain ⟨y, hy, h⟩ := bindLift_eq_ok.1 h
    cases h
    exact ⟨hx, hy, rfl⟩

end PySC
