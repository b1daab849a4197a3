import Verif.Model.AllElements
import Verif.Spec.AllElements
import Verif.Lemmas.Beam
/-
Lemmas about all_elements_reading.
-/
set_option linter.unusedSectionVars false
namespace PySC
open Py Spec
variable {K : Type} [Field K] [LinearOrder K]

theorem maskY_eq (p : Option K × Option K) : maskY p = lostWhole p := by
  unfold maskY lostWhole
  cases hp : p.1 <;> simp

/-- tracking to some reference points, from tracking to all of them -/
theorem tracking_select (E : Env K) (B : BeamEnv K) (bpms : List Nat) (n : Nat) (hb : ∀ b ∈ bpms, b < n) (hn : 0 < n) (s : SC K) :
    (do let trk ← tracking E B (List.range n); Py.pure (fun b t => trk (bpms.getD b 0) t) :
      Py (SC K) (Nat → Nat → List (Option K × Option K))) s = tracking E B bpms s := by
  have hr : ∀ b, (List.range n).getD (bpms.getD b 0) 0 = bpms.getD b 0 := by
    intro b
    have hlt : bpms.getD b 0 < n := by
      rcases lt_or_ge b bpms.length with h | h
      · rw [List.getD_eq_getElem?_getD, List.getElem?_eq_getElem h]
        exact hb _ (List.getElem_mem h)
      · rw [List.getD_eq_getElem?_getD, List.getElem?_eq_none h]
        exact hn
    rw [List.getD_eq_getElem?_getD, List.getElem?_range hlt]
    rfl
  rw [bind_apply]
  unfold tracking
  rw [bind_apply, bind_apply]
  simp only [get_apply]
  by_cases hm : s.INJ.trackMode = "ORB"
  · rw [if_pos hm, if_pos hm]
    show Res.ok (fun b (_ : Nat) => [maskY (B.orbit s.RING ((List.range n).getD (bpms.getD b 0) 0))]) s = _
    simp only [hr]
    rfl
  · rw [if_neg hm, if_neg hm, bind_apply, bind_apply]
    cases generateBunches E B none s with
    | ok Z s1 =>
      show Res.ok (fun b t => (B.track s.RING Z ((List.range n).getD (bpms.getD b 0) 0) t).map maskY) s1 = _
      simp only [hr]
      rfl
    | error e s1 => rfl

/-- the BPM part of a shot is the same as in `bpm_reading` -/
theorem allShot_fst (E : Env K) (B : BeamEnv K) (orb : Prop) [Decidable orb] (bpms : List Nat) (n nt : Nat) (hb : ∀ b ∈ bpms, b < n)
    (hn : 0 < n) (s : SC K) :
    (do let c ← allShot E B (decide orb) bpms n nt; Py.pure c.1 : Py (SC K) (Nat → Nat → Cell K)) s =
    (do
      let trk ← tracking E B bpms
      if orb then do
        let c ← realBpmReading E B bpms 1 trk
        Py.pure (fun b (_ : Nat) => c b 0)
      else realBpmReading E B bpms nt trk : Py (SC K) (Nat → Nat → Cell K)) s := by
  have hg : bpms.any (fun b => decide (n ≤ b)) = false := by
    rw [List.any_eq_false]
    intro b hbm
    simpa using hb b hbm
  have ht := tracking_select E B bpms n hb hn s
  rw [bind_apply] at ht
  rw [bind_apply]
  unfold allShot
  rw [bind_apply, bind_apply]
  rw [hg]
  cases htr : tracking E B (List.range n) s with
  | error e s1 =>
    rw [htr] at ht
    rw [← ht]
  | ok trk s1 =>
    rw [htr] at ht
    rw [← ht]
    simp only [Bool.false_eq_true, if_false]
    by_cases ho : orb
    · simp only [ho, decide_true, if_true]
      rw [bind_apply]
      show _ = (realBpmReading E B bpms 1 _ >>= _ : Py (SC K) (Nat → Nat → Cell K)) s1
      rw [bind_apply]
      cases realBpmReading E B bpms 1 (fun b t => trk (bpms.getD b 0) t) s1 <;> rfl
    · simp only [ho, decide_false, Bool.false_eq_true, if_false]
      rw [bind_apply]
      show _ = realBpmReading E B bpms nt (fun b t => trk (bpms.getD b 0) t) s1
      cases realBpmReading E B bpms nt (fun b t => trk (bpms.getD b 0) t) s1 <;> rfl

/-- a loop whose results are only transformed -/
theorem mapEach_post {σ α β γ : Type} (f : α → Py σ β) (g : α → Py σ γ) (t : β → γ) (l : List α)
    (h : ∀ x ∈ l, ∀ s, (do let y ← f x; Py.pure (t y) : Py σ γ) s = g x s) (s : σ) :
    mapEach l g s = (do let ys ← mapEach l f; Py.pure (ys.map t) : Py σ (List γ)) s := by
  induction l generalizing s with
  | nil => rfl
  | cons x l ih =>
    rw [mapEach_cons, mapEach_cons, bind_apply, bind_apply, bind_apply, ← h x (by simp), bind_apply]
    cases f x s with
    | error e s1 => rfl
    | ok y s1 =>
      show (mapEach l g >>= _ : Py σ (List γ)) s1 = _
      rw [bind_apply, ih (fun z hz => h z (by simp [hz])), bind_apply]
      simp only [bind_apply]
      cases mapEach l f s1 <;> rfl

/-- the loop over the shots, with the positions at all elements -/
theorem allShots_ok {E : Env K} {B : BeamEnv K} {ords : List Nat} {n L : Nat} {s s' : SC K}
    {shots : List ((Nat → Nat → Cell K) × (Nat → Nat → List (Option K × Option K)))}
    (h6 : s.INJ.randomInjectionZ.length = 6)
    (h : mapEach (List.range n) (fun _ => allShot E B (decide (s.INJ.trackMode = "ORB")) ords (L + 1) s.INJ.nTurns) s = .ok shots s') :
    OnlyRng s s' ∧ shots.length = n ∧ ∃ (e : Nat → BpmErr K) (Z : Nat → List (List K)) (q : Nat → Nat) (z : Nat × ZIx → K),
      (n ≠ 0 → ∀ b i, ords[b]? = some i → BpmAt s.RING (if s.INJ.trackMode = "ORB" then "NoiseCO" else "Noise") i (e b)) ∧
      (s.INJ.trackMode ≠ "ORB" → q 0 = s.rng ∧ q n = s'.rng ∧ ∀ k < n, q k ≤ q (k + 1) ∧
        IsBunch B E.randn (q k) (q (k + 1)) s.INJ s.INJ.nParticles (Z k)) ∧
      Fresh E.randn s.rng s'.rng 2 (fun i : Nat × ZIx => i.1 < n ∧ i.2.2.1 < ords.length ∧ i.2.2.2 < turns s) z ∧
      ∀ k < n, ∃ c, shots[k]? = some c ∧ (∀ i ≤ L, ∀ t, c.2 i t = (seenAt B s (Z k) i t).map maskY) ∧
        ∀ b t i, ords[b]? = some i → t < s.INJ.nTurns →
        c.1 b t = realReading1 B s.INJ.beamLostAt (e b) ((seenAt B s (Z k) i t).map maskY) (z (k, 0, b, turnIx s t))
          (z (k, 1, b, turnIx s t)) (z (k, 2, b, turnIx s t)) := by
  obtain ⟨hlen, st, e0, en, hst⟩ := mapEach_chain h
  rw [List.length_range] at hlen en
  have hgetD : ∀ i ≤ L, (List.range (L + 1)).getD i 0 = i := by
    intro i hi
    rw [List.getD_eq_getElem?_getD, List.getElem?_range (by omega)]
    rfl
  -- one shot
  have step : ∀ s0 : SC K, OnlyRng s s0 → ∀ c s1,
      allShot E B (decide (s.INJ.trackMode = "ORB")) ords (L + 1) s.INJ.nTurns s0 = .ok c s1 →
      OnlyRng s0 s1 ∧ ∃ (e : Nat → BpmErr K) (Z : List (List K)) (z : ZIx → K),
        (∀ b i, ords[b]? = some i → BpmAt s.RING (if s.INJ.trackMode = "ORB" then "NoiseCO" else "Noise") i (e b)) ∧
        (s.INJ.trackMode ≠ "ORB" → IsBunch B E.randn s0.rng s1.rng s.INJ s.INJ.nParticles Z) ∧
        Fresh E.randn s0.rng s1.rng 2 (fun i : ZIx => i.2.1 < ords.length ∧ i.2.2 < turns s) z ∧
        (∀ i ≤ L, ∀ t, c.2 i t = (seenAt B s Z i t).map maskY) ∧
        ∀ b t i, ords[b]? = some i → t < s.INJ.nTurns →
          c.1 b t = realReading1 B s.INJ.beamLostAt (e b) ((seenAt B s Z i t).map maskY) (z (0, b, turnIx s t))
            (z (1, b, turnIx s t)) (z (2, b, turnIx s t)) := by
    intro s0 ho c s1 h
    have hI : s0.INJ = s.INJ := by rw [ho.1]
    have hR : s0.RING = s.RING := by rw [ho.1]
    unfold allShot at h
    obtain ⟨trk, s2, h1, h2⟩ := bind_eq_ok.1 h
    obtain ⟨o1, ht⟩ := tracking_ok (by rw [hI]; exact h6) h1
    have hI2 : s2.INJ = s.INJ := by rw [o1.1]; exact hI
    have hR2 : s2.RING = s.RING := by rw [o1.1]; exact hR
    rw [hI, hR] at ht
    by_cases hin : ords.any (fun b => decide (L + 1 ≤ b)) = true
    · rw [if_pos hin] at h2; cases h2
    rw [if_neg hin] at h2
    have hord : ∀ (b : Nat) (i : Nat), ords[b]? = some i → i ≤ L := by
      intro b i hb
      by_contra hcon
      exact hin (List.any_eq_true.2 ⟨i, List.mem_of_getElem? hb, by simp; omega⟩)
    by_cases hm : s.INJ.trackMode = "ORB"
    · rw [if_pos (by simpa using hm)] at h2
      obtain ⟨c0, s3, h3, h4⟩ := bind_eq_ok.1 h2
      cases h4
      obtain ⟨o3, e, z, he, hz, hc⟩ := realBpmReading_ok h3
      rw [hI2, hR2] at he
      rw [hI2] at hc
      obtain ⟨-, rfl⟩ : s.INJ.trackMode = "ORB" ∧ trk = fun b _ => [maskY (B.orbit s.RING ((List.range (L + 1)).getD b 0))] := by
        rcases ht with ht | ht
        · exact ht
        · exact absurd hm ht.1
      refine ⟨o1.trans o3, e, [], z, he, fun hh => absurd hm hh, ?_, ?_, ?_⟩
      · unfold turns
        rw [if_pos hm]
        exact hz.mono o1.2 (le_refl _)
      · intro i hi t
        unfold seenAt
        simp only [hgetD i hi]
        rw [if_pos hm]
        rfl
      · intro b t i hb _
        have hbl : b < ords.length := (List.getElem?_eq_some_iff.1 hb).1
        have hbi : ords.getD b 0 = i := by rw [List.getD_eq_getElem?_getD, hb]; rfl
        unfold turnIx seenAt
        rw [if_pos hm, if_pos hm]
        have := (hc b 0 hbl (by omega)).1
        simp only [hbi, hgetD i (hord b i hb)] at this
        exact this
    · rw [if_neg (by simpa using hm)] at h2
      obtain ⟨c0, s3, h3, h4⟩ := bind_eq_ok.1 h2
      cases h4
      obtain ⟨o3, e, z, he, hz, hc⟩ := realBpmReading_ok h3
      rw [hI2, hR2] at he
      rw [hI2] at hc
      obtain ⟨-, Z, hZ, rfl⟩ : s.INJ.trackMode ≠ "ORB" ∧ ∃ Z, IsBunch B E.randn s0.rng s2.rng s.INJ s.INJ.nParticles Z ∧
          trk = fun b t => (B.track s.RING Z ((List.range (L + 1)).getD b 0) t).map maskY := by
        rcases ht with ht | ht
        · exact absurd ht.1 hm
        · exact ht
      refine ⟨o1.trans o3, e, Z, z, he, fun _ => ?_, ?_, ?_, ?_⟩
      · obtain ⟨mid, cc, zz, f1, hle, r1, r2, r3⟩ := hZ
        refine ⟨mid, cc, zz, f1, hle.trans o3.2, r1, r2, ?_⟩
        rcases r3 with r3 | ⟨r3, m, w, Zs, t1, t2, t3⟩
        · exact Or.inl r3
        · exact Or.inr ⟨r3, m, w, Zs, t1, t2.mono (le_refl _) o3.2, t3⟩
      · unfold turns
        rw [if_neg hm]
        exact hz.mono o1.2 (le_refl _)
      · intro i hi t
        unfold seenAt
        simp only [hgetD i hi]
        rw [if_neg hm]
      · intro b t i hb ht
        have hbl : b < ords.length := (List.getElem?_eq_some_iff.1 hb).1
        have hbi : ords.getD b 0 = i := by rw [List.getD_eq_getElem?_getD, hb]; rfl
        unfold turnIx seenAt
        rw [if_neg hm, if_neg hm]
        have := (hc b t hbl ht).1
        simp only [hbi, hgetD i (hord b i hb)] at this
        exact this
  -- all states
  have chain : ∀ k ≤ n, OnlyRng s (st k) := by
    intro k
    induction k with
    | zero => intro _; rw [e0]; exact OnlyRng.refl _
    | succ k ih =>
      intro hk
      obtain ⟨c, -, hc⟩ := hst k k (by rw [List.getElem?_range (by omega)])
      exact (ih (by omega)).trans (step _ (ih (by omega)) c _ hc).1
  have each : ∀ k, k < n → ∃ (c : (Nat → Nat → Cell K) × (Nat → Nat → List (Option K × Option K))) (e : Nat → BpmErr K)
      (Z : List (List K)) (z : ZIx → K),
      shots[k]? = some c ∧ OnlyRng (st k) (st (k + 1)) ∧
      (∀ b i, ords[b]? = some i → BpmAt s.RING (if s.INJ.trackMode = "ORB" then "NoiseCO" else "Noise") i (e b)) ∧
      (s.INJ.trackMode ≠ "ORB" → IsBunch B E.randn (st k).rng (st (k + 1)).rng s.INJ s.INJ.nParticles Z) ∧
      Fresh E.randn (st k).rng (st (k + 1)).rng 2 (fun i : ZIx => i.2.1 < ords.length ∧ i.2.2 < turns s) z ∧
      (∀ i ≤ L, ∀ t, c.2 i t = (seenAt B s Z i t).map maskY) ∧
      ∀ b t i, ords[b]? = some i → t < s.INJ.nTurns →
        c.1 b t = realReading1 B s.INJ.beamLostAt (e b) ((seenAt B s Z i t).map maskY) (z (0, b, turnIx s t))
          (z (1, b, turnIx s t)) (z (2, b, turnIx s t)) := by
    intro k hk
    obtain ⟨c, hc1, hc⟩ := hst k k (by rw [List.getElem?_range (by omega)])
    obtain ⟨o, e, Z, z, r⟩ := step _ (chain k (by omega)) c _ hc
    exact ⟨c, e, Z, z, hc1, o, r⟩
  choose! c e Z z r1 r2 r3 r4 r5 r6 r7 using each
  have hsame : ∀ k < n, ∀ b i, ords[b]? = some i → e k b = e 0 b := fun k hk b i hb =>
    BpmAt_unique (r3 k hk b i hb) (r3 0 (by omega) b i hb)
  refine ⟨en ▸ chain n (le_refl _), hlen, e 0, Z, fun k => (st k).rng, fun i => z i.1 i.2, fun hn => r3 0 (by omega), fun hm => ?_, ?_, ?_⟩
  · refine ⟨by simp only [e0], by simp only [en], fun k hk => ⟨(r2 k hk).2, r4 k hk hm⟩⟩
  · have := Fresh.steps (q := fun k => (st k).rng) (n := n) (z := z) (fun k hk => (r2 k hk).2) r5
    simp only [e0, en] at this
    exact this
  · intro k hk
    refine ⟨c k, r1 k hk, r6 k hk, fun b t i hb ht => ?_⟩
    rw [← hsame k hk b i hb]
    exact r7 k hk b t i hb ht

/-- `np.nanmean` over the shots -/
theorem nanmean_shots (l : List (Option ((K × K) × K))) :
    nanmean (l.map (fun o => o.map (fun p => p.1.1))) = (plainMean l).map Prod.fst ∧
    nanmean (l.map (fun o => o.map (fun p => p.1.2))) = (plainMean l).map Prod.snd := by
  have h : ∀ f : (K × K) × K → K, (l.map (fun o => o.map f)).filterMap id = (l.filterMap id).map f := by
    intro f
    induction l with
    | nil => rfl
    | cons a l ih =>
      cases a with
      | none => exact ih
      | some p => exact congrArg (List.cons _) ih
  unfold nanmean plainMean
  rw [h, h]
  simp only
  by_cases he : l.filterMap id = []
  · rw [he]
    exact ⟨rfl, rfl⟩
  · have hm : ∀ f : (K × K) × K → K, ¬ ((l.filterMap id).map f).isEmpty = true := by
      intro f hh
      exact he (by simpa using hh)
    rw [if_neg (hm _), if_neg (hm _), if_neg he, List.length_map, List.length_map]
    exact ⟨rfl, rfl⟩

end PySC
