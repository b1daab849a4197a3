import Verif.Lemmas.ReadingMoments
import Verif.Lemmas.Measurement
/-
Readings of a beam which is the same in every shot.
-/
namespace PySC
open Py Spec MeasureTheory ProbabilityTheory
set_option linter.unusedSectionVars false

theorem shotMean_steady {cosSin : ℝ → ℝ × ℝ} {lostAt : ℝ} {e : BpmErr ℝ} {P : List (Option ℝ × Option ℝ)} (hP : AllArrive P)
    (he : 2 * |e.sum| < 1) (hl : 2 * |e.sum| ≤ lostAt) {n : ℕ} (hn : n ≠ 0) {zx zy zs : ℕ → ℝ} (hz : ∀ k < n, |zs k| ≤ 2) :
    shotMean ((List.range n).map (fun k => shot cosSin lostAt e P (zx k) (zy k) (zs k))) =
      some ((quietReading cosSin e P).1 + e.noise.1 * ((∑ k : Fin n, zx k) * (∑ k : Fin n, (1 + e.sum * zs k))⁻¹),
        (quietReading cosSin e P).2 + e.noise.2 * ((∑ k : Fin n, zy k) * (∑ k : Fin n, (1 + e.sum * zs k))⁻¹)) := by
  have hsum : ∀ f : ℕ → ℝ, ((List.range n).map f).sum = ∑ k : Fin n, f k := by
    intro f
    rw [← Finset.sum_range]
    clear hn hz
    induction n with
    | zero => simp
    | succ n ih => rw [List.range_succ, List.map_append, List.sum_append, Finset.sum_range_succ, ih]; simp
  have hshot : ∀ k < n, shot cosSin lostAt e P (zx k) (zy k) (zs k) = some
      (((quietReading cosSin e P).1 + e.noise.1 * zx k / (1 + e.sum * zs k), (quietReading cosSin e P).2 + e.noise.2 * zy k / (1 + e.sum * zs k)),
        1 + e.sum * zs k) := by
    intro k hk
    have hseen : Seen lostAt e P (zs k) := by
      refine ⟨hP.survive, ?_⟩
      rw [hP.signal]
      have h6 : |e.sum * zs k| ≤ |e.sum| * 2 := by rw [abs_mul]; exact mul_le_mul_of_nonneg_left (hz k hk) (abs_nonneg _)
      have h7 := neg_abs_le (e.sum * zs k)
      linarith
    unfold shot
    rw [if_pos hseen]
    unfold shotReading quietReading
    rw [hP.signal]
  have hpos : ∀ k < n, 0 < 1 + e.sum * zs k := fun k hk => bpm_signal_pos he (hz k hk)
  have hlist : (List.range n).map (fun k => shot cosSin lostAt e P (zx k) (zy k) (zs k)) = (List.range n).map (fun k => some
      (((quietReading cosSin e P).1 + e.noise.1 * zx k / (1 + e.sum * zs k), (quietReading cosSin e P).2 + e.noise.2 * zy k / (1 + e.sum * zs k)),
        1 + e.sum * zs k)) := List.map_congr_left (fun k hk => hshot k (List.mem_range.1 hk))
  have hfm : ∀ {α : Type} (f : ℕ → α), ((List.range n).map (fun k => some (f k))).filterMap id = (List.range n).map f := by
    intro α f
    rw [List.filterMap_map]
    exact congrFun (List.filterMap_eq_map' (f := f)) _
  have hW : 0 < ∑ k : Fin n, (1 + e.sum * zs k) := by
    haveI : Nonempty (Fin n) := ⟨⟨0, Nat.pos_of_ne_zero hn⟩⟩
    exact Finset.sum_pos (fun k _ => hpos k k.2) Finset.univ_nonempty
  have hterm : ∀ (q ν : ℝ) (x : ℕ → ℝ), (∑ k : Fin n, (q + ν * x k / (1 + e.sum * zs k)) * (1 + e.sum * zs k)) /
      ∑ k : Fin n, (1 + e.sum * zs k) = q + ν * ((∑ k : Fin n, x k) * (∑ k : Fin n, (1 + e.sum * zs k))⁻¹) := by
    intro q ν x
    have h1 : ∀ k ∈ (Finset.univ : Finset (Fin n)), (q + ν * x k / (1 + e.sum * zs k)) * (1 + e.sum * zs k) = q * (1 + e.sum * zs k) + ν * x k := by
      intro k _
      have := (hpos k k.2).ne'
      field_simp
    rw [Finset.sum_congr rfl h1, Finset.sum_add_distrib, ← Finset.mul_sum, ← Finset.mul_sum]
    have := hW.ne'
    field_simp
  rw [hlist]
  unfold shotMean
  simp only [hfm, List.map_map, Function.comp_def]
  rw [hsum, hsum, hsum, if_neg hW.ne', hterm, hterm]

theorem bunchFrom_steady {B : BeamEnv ℝ} {inj : Inj ℝ} (h1 : inj.nParticles = 1) (h2 : ∀ k < 6, coef inj.randomInjectionZ k = 0)
    (h3 : inj.Z0.length = 6) {z : ℕ → ℝ} {w : ℕ → ℕ → ℝ} {Z : List (List ℝ)} (h : BunchFrom B inj z w Z) : Z = B.postFun [inj.Z0] := by
  obtain ⟨c, hc, hk, h⟩ := h
  have hcz : c = inj.Z0 := by
    refine List.ext_getElem (by rw [hc, h3]) (fun k g1 g2 => ?_)
    have := hk k (by omega)
    rw [h2 k (by omega), zero_mul, add_zero] at this
    simpa only [coef, List.getD_eq_getElem _ _ g1, List.getD_eq_getElem _ _ g2] using this
  rcases h with ⟨-, rfl⟩ | ⟨h, -⟩
  · rw [hcz]
  · exact (h h1).elim

variable {Ω : Type} [MeasurableSpace Ω] {P : Measure Ω} [IsProbabilityMeasure P]

theorem castSucc_ne_two : ∀ p : Fin 2, p.castSucc ≠ (2 : Fin 3) := by decide

/-- **The noise of a reading**: what a BPM reads of a steady beam is its reading without noise plus a random variable -/
theorem reading_noise (E : Env ℝ) (B : BeamEnv ℝ) {X : ℕ → Ω → ℝ} (hX : StandardNormal P X) (req : Option (List Nat)) (s : SC ℝ)
    {ords : List Nat} (ho : registeredBpms s.ORD.BPM req = .ok ords) (h6 : s.INJ.randomInjectionZ.length = 6) (h6' : s.INJ.Z0.length = 6)
    (hmode : s.INJ.trackMode ≠ "PORB") (hloss : ∀ Z i t, WholeLoss (seenAt B s Z i t)) (hst : SameEveryShot s) (hn : s.INJ.nShots ≠ 0)
    (e : Nat → BpmErr ℝ) (he : ∀ i ∈ s.ORD.BPM, AlwaysSeen B s i (e i)) :
    ∃ N : Fin 2 → ℕ → ℕ → Ω → ℝ,
      (∀ᵐ ω ∂P, ∀ fuel ce out s', bpmReading { E with randn := fun k => X k ω, fuel := fuel } B req ce s = .ok out s' →
        ∀ b i t, ords[b]? = some i → t < s.INJ.nTurns →
          out.x[t * ords.length + b]? = some (some ((quietReading B.cosSin (e i) (steadySeen B s i t)).1 + N 0 b (turnIx s t) ω)) ∧
          out.y[t * ords.length + b]? = some (some ((quietReading B.cosSin (e i) (steadySeen B s i t)).2 + N 1 b (turnIx s t) ω))) ∧
      (∀ p b i τ, ords[b]? = some i → τ < turns s → BoundedRv P (N p b τ) ∧ ∫ ω, N p b τ ω ∂P = 0 ∧
        ∫ ω, N p b τ ω ^ 2 ∂P ≤ ofPlane p (e i).noise ^ 2 * (∫ x, x ^ 2 ∂(truncatedNormal 2)) / s.INJ.nShots / (1 - 2 * |(e i).sum|) ^ 2 ∧
        ((e i).sum = 0 → ∫ ω, N p b τ ω ^ 2 ∂P = ofPlane p (e i).noise ^ 2 * (∫ x, x ^ 2 ∂(truncatedNormal 2)) / s.INJ.nShots)) ∧
      (∀ p b i τ p' b' i' τ', ords[b]? = some i → τ < turns s → ords[b']? = some i' → τ' < turns s → (p, b, τ) ≠ (p', b', τ') →
        ∫ ω, N p b τ ω * N p' b' τ' ω ∂P = 0) := by
  obtain ⟨z, hz, hread⟩ := bpmReading_law E B hX req s ho h6 hloss
  obtain ⟨hsub, -⟩ := registeredBpms_ok ho
  have hmem : ∀ {b i}, ords[b]? = some i → i ∈ s.ORD.BPM := fun h => hsub.subset (List.mem_of_getElem? h)
  have hlt : ∀ {b i}, ords[b]? = some i → b < ords.length := fun h => (List.getElem?_eq_some_iff.1 h).1
  let n := s.INJ.nShots
  let N : Fin 2 → ℕ → ℕ → Ω → ℝ := fun p b τ ω => ofPlane p (e (ords.getD b 0)).noise * ((∑ k : Fin n, z (.bpm k (p.castSucc, b, τ)) ω) *
    (∑ k : Fin n, (1 + (e (ords.getD b 0)).sum * z (.bpm k (2, b, τ)) ω))⁻¹)
  let Z : {x : Number // x.Used s ords.length} → Ω → ℝ := fun x => z x.1
  let a : ∀ (q : Fin 3) (b τ : ℕ), b < ords.length → τ < turns s → Fin n → {x : Number // x.Used s ords.length} :=
    fun q b τ hb hτ k => ⟨.bpm k (q, b, τ), k.2, hb, hτ⟩
  have hN : ∀ {p b i τ} (hb : ords[b]? = some i) (hτ : τ < turns s), N p b τ = fun ω => ofPlane p (e i).noise *
      meanNoise Z (e i).sum (a p.castSucc b τ (hlt hb) hτ) (a 2 b τ (hlt hb) hτ) ω := by
    intro p b i τ hb hτ
    funext ω
    simp only [N, getD_of_getElem? hb]
    rfl
  have hcut : ∀ q b τ (hb : b < ords.length) (hτ : τ < turns s) k, (a q b τ hb hτ k).1.cutoff = 2 := fun _ _ _ _ _ _ => rfl
  have hc : ∀ {b i}, ords[b]? = some i → |(e i).sum| < 1 / 2 := fun h => by have := (he _ (hmem h)).signal; linarith
  have hne : ∀ {q b τ q' b' τ'} (hb hτ hb' hτ') {j k : Fin n}, (q, b, τ) ≠ (q', b', τ') → a q b τ hb hτ j ≠ a q' b' τ' hb' hτ' k := by
    intro q b τ q' b' τ' hb hτ hb' hτ' j k h heq
    have := Subtype.mk.inj heq
    simp only [Number.bpm.injEq] at this
    exact h this.2
  refine ⟨N, ?_, fun p b i τ hb hτ => ?_, fun p b i τ p' b' i' τ' hb hτ hb' hτ' hd => ?_⟩
  · have hbound : ∀ᵐ ω ∂P, ∀ b τ k : ℕ, b < ords.length → τ < turns s → k < n → |z (.bpm k (2, b, τ)) ω| ≤ 2 := by
      rw [ae_all_iff]; intro b
      rw [ae_all_iff]; intro τ
      rw [ae_all_iff]; intro k
      by_cases h : b < ords.length ∧ τ < turns s ∧ k < n
      · have := number_bounded hz ⟨.bpm k (2, b, τ), h.2.2, h.1, h.2.1⟩
        simp only [Number.cutoff, abs_of_pos (by norm_num : (0 : ℝ) < 2)] at this
        filter_upwards [this] with ω hω _ _ _ using hω
      · exact ae_of_all _ (fun ω h1 h2 h3 => (h ⟨h1, h2, h3⟩).elim)
    filter_upwards [hbound] with ω hω fuel ce out s' hrun b i t hb ht
    obtain ⟨Zb, hZb, e', he', hout, -⟩ := hread ω fuel ce out s' hrun
    replace hout := (hout hmode).2.2
    obtain ⟨hx, hy, -⟩ := hout b t i hb ht
    have hi := he i (hmem hb)
    have hee : e' b = e i := BpmAt_unique (he' b i hb) hi.errors
    have hτ : turnIx s t < turns s := by
      unfold turnIx turns
      split
      · exact zero_lt_one
      · exact ht
    have hlist : shotsAt B s e' Zb (fun i => z (.bpm i.1 i.2) ω) b t i = (List.range n).map (fun k =>
        shot B.cosSin s.INJ.beamLostAt (e i) (steadySeen B s i t) (z (.bpm k (0, b, turnIx s t)) ω) (z (.bpm k (1, b, turnIx s t)) ω)
          (z (.bpm k (2, b, turnIx s t)) ω)) := by
      unfold shotsAt
      refine List.map_congr_left (fun k hk => ?_)
      have hseen : seenAt B s (Zb k) i t = steadySeen B s i t := by
        rcases hst with h | ⟨h1, h2⟩
        · unfold steadySeen seenAt; rw [if_pos h, if_pos h]
        · by_cases h : s.INJ.trackMode = "ORB"
          · unfold steadySeen seenAt; rw [if_pos h, if_pos h]
          · rw [bunchFrom_steady h1 h2 h6' (hZb h k (List.mem_range.1 hk))]; rfl
      simp only [hseen, hee]
    have hmean := shotMean_steady (cosSin := B.cosSin) (hi.arrives t ht) hi.signal hi.visible hn
      (zx := fun k => z (.bpm k (0, b, turnIx s t)) ω) (zy := fun k => z (.bpm k (1, b, turnIx s t)) ω)
      (zs := fun k => z (.bpm k (2, b, turnIx s t)) ω) (fun k hk => hω b (turnIx s t) k (hlt hb) hτ hk)
    rw [hlist, hmean] at hx hy
    rw [hx, hy]
    simp only [Option.map_some, N, getD_of_getElem? hb]
    exact ⟨rfl, rfl⟩
  · rw [hN hb hτ]
    have hrv := meanNoise_rv hz hn (a := a p.castSucc b τ (hlt hb) hτ) (σ := a 2 b τ (hlt hb) hτ) (hcut 2 b τ (hlt hb) hτ) (hc hb)
    have hp2 : p.castSucc ≠ (2 : Fin 3) := castSucc_ne_two p
    have hinj : Function.Injective (a p.castSucc b τ (hlt hb) hτ) := by
      intro j k h
      have := Subtype.mk.inj h
      simp only [Number.bpm.injEq] at this
      exact Fin.ext this.1
    have hq : ∀ k, ∫ ω, Z (a p.castSucc b τ (hlt hb) hτ k) ω ^ 2 ∂P = ∫ x, x ^ 2 ∂(truncatedNormal 2) := fun k => number_square hz _
    refine ⟨?_, ?_, ?_, fun h0 => ?_⟩
    · have hcst : BoundedRv P (fun _ : Ω => ofPlane p (e i).noise) := ⟨measurable_const, _, ae_of_all _ (fun _ => le_refl _)⟩
      exact BoundedRv.mul hcst hrv
    · have hd1 : ∀ j k, a p.castSucc b τ (hlt hb) hτ j ≠ a 2 b τ (hlt hb) hτ k := fun j k => hne (hlt hb) hτ (hlt hb) hτ (by simp [hp2])
      rw [integral_const_mul, meanNoise_mean hz hn (hcut 2 b τ (hlt hb) hτ) (hc hb) hd1, mul_zero]
    · simp only [mul_pow]
      rw [integral_const_mul]
      have := mul_le_mul_of_nonneg_left (meanNoise_square_le hz hn hinj hq (hcut 2 b τ (hlt hb) hτ) (hc hb)) (sq_nonneg (ofPlane p (e i).noise))
      refine this.trans (le_of_eq ?_)
      ring
    · simp only [mul_pow]
      rw [integral_const_mul, h0, meanNoise_square hz hn hinj hq]
      ring
  · rw [hN hb hτ, hN hb' hτ']
    have hp2 : p.castSucc ≠ (2 : Fin 3) := castSucc_ne_two p
    have e1 : ∀ ω, ofPlane p (e i).noise * meanNoise Z (e i).sum (a p.castSucc b τ (hlt hb) hτ) (a 2 b τ (hlt hb) hτ) ω *
        (ofPlane p' (e i').noise * meanNoise Z (e i').sum (a p'.castSucc b' τ' (hlt hb') hτ') (a 2 b' τ' (hlt hb') hτ') ω) =
        ofPlane p (e i).noise * ofPlane p' (e i').noise * (meanNoise Z (e i).sum (a p.castSucc b τ (hlt hb) hτ) (a 2 b τ (hlt hb) hτ) ω *
          meanNoise Z (e i').sum (a p'.castSucc b' τ' (hlt hb') hτ') (a 2 b' τ' (hlt hb') hτ') ω) := fun ω => by ring
    simp only [e1]
    have hd1 : ∀ j k, a p.castSucc b τ (hlt hb) hτ j ≠ a 2 b τ (hlt hb) hτ k := fun j k => hne (hlt hb) hτ (hlt hb) hτ (by simp [hp2])
    have hd2 : ∀ j k, a p.castSucc b τ (hlt hb) hτ j ≠ a 2 b' τ' (hlt hb') hτ' k := fun j k => hne (hlt hb) hτ (hlt hb') hτ' (by simp [hp2])
    have hd3 : ∀ j k, a p.castSucc b τ (hlt hb) hτ j ≠ a p'.castSucc b' τ' (hlt hb') hτ' k := fun j k => hne (hlt hb) hτ (hlt hb') hτ' (by
      intro h
      simp only [Prod.mk.injEq, Fin.castSucc_inj] at h
      exact hd (by rw [h.1, h.2.1, h.2.2]))
    rw [integral_const_mul, meanNoise_product hz hn (hcut 2 b τ (hlt hb) hτ) (hcut 2 b' τ' (hlt hb') hτ') (hc hb) (hc hb') hd1 hd2 hd3, mul_zero]

end PySC
