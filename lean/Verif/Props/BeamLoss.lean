import Verif.Props.Beam
import Mathlib.Tactic.Linarith
import Mathlib.Tactic.FieldSimp
/-
C33 Reading of perfect BPMs.  C34 Lost beam.  C35 beam_transmission.  C36 Second moments of the bunch.
-/
set_option linter.unusedSectionVars false
namespace PySC
open Py Spec
variable {K : Type} [Field K] [LinearOrder K]

/-! ### weighted means -/

theorem shotMean_const {l : List (Option ((K × K) × K))} {m : K × K} (h : ∀ r w, some (r, w) ∈ l → r = m) :
    shotMean l = none ∨ shotMean l = some m := by
  have hs : ∀ p ∈ l.filterMap id, p.1 = m := by
    intro p hp
    obtain ⟨q, hq, hqp⟩ := List.mem_filterMap.1 hp
    simp only [id] at hqp
    subst hqp
    exact h p.1 p.2 hq
  unfold shotMean
  simp only
  split
  · exact Or.inl rfl
  · rename_i hW
    refine Or.inr ?_
    have e1 : ∀ (f : K × K → K), ((l.filterMap id).map (fun p => f p.1 * p.2)).sum = f m * ((l.filterMap id).map Prod.snd).sum := by
      intro f
      revert hs
      generalize l.filterMap id = l'
      intro hs
      induction l' with
      | nil => simp
      | cons a l' ih =>
        simp only [List.map_cons, List.sum_cons, hs a (by simp), ih (fun p hp => hs p (by simp [hp]))]
        ring
    rw [e1 Prod.fst, e1 Prod.snd, mul_div_assoc, mul_div_assoc, div_self hW]
    simp

section ord
variable [IsStrictOrderedRing K]

theorem weighted_bounds (l : List (K × K)) (hw : ∀ p ∈ l, 0 < p.2) (hl : l ≠ []) :
    0 < (l.map Prod.snd).sum ∧ (∃ p ∈ l, p.1 * (l.map Prod.snd).sum ≤ (l.map (fun p => p.1 * p.2)).sum) ∧
    ∃ p ∈ l, (l.map (fun p => p.1 * p.2)).sum ≤ p.1 * (l.map Prod.snd).sum := by
  induction l with
  | nil => exact absurd rfl hl
  | cons a l ih =>
    by_cases h : l = []
    · subst h
      have := hw a (by simp)
      exact ⟨by simpa using this, ⟨a, by simp, by simp⟩, ⟨a, by simp, by simp⟩⟩
    · obtain ⟨h1, ⟨p, hp, h2⟩, ⟨q, hq, h3⟩⟩ := ih (fun p hp => hw p (by simp [hp])) h
      have ha := hw a (by simp)
      simp only [List.map_cons, List.sum_cons]
      refine ⟨by positivity, ?_, ?_⟩
      · rcases le_total a.1 p.1 with h4 | h4
        · refine ⟨a, by simp, ?_⟩
          nlinarith [mul_le_mul_of_nonneg_right h4 h1.le]
        · refine ⟨p, by simp [hp], ?_⟩
          nlinarith [mul_le_mul_of_nonneg_right h4 ha.le]
      · rcases le_total q.1 a.1 with h4 | h4
        · refine ⟨a, by simp, ?_⟩
          nlinarith [mul_le_mul_of_nonneg_right h4 h1.le]
        · refine ⟨q, by simp [hq], ?_⟩
          nlinarith [mul_le_mul_of_nonneg_right h4 ha.le]

/-- shots with positive weights: their mean exists if there is one, and lies between two of them in each plane -/
theorem shotMean_bounds {l : List (Option ((K × K) × K))} (hw : ∀ r w, some (r, w) ∈ l → 0 < w) :
    (shotMean l = none ↔ ∀ p, some p ∉ l) ∧
    ∀ v, shotMean l = some v →
      (∃ p, some p ∈ l ∧ p.1.1 ≤ v.1) ∧ (∃ p, some p ∈ l ∧ v.1 ≤ p.1.1) ∧ (∃ p, some p ∈ l ∧ p.1.2 ≤ v.2) ∧ ∃ p, some p ∈ l ∧ v.2 ≤ p.1.2 := by
  have hmem : ∀ p, p ∈ l.filterMap id ↔ some p ∈ l := by simp
  have key : ∀ f : K × K → K, l.filterMap id ≠ [] → 0 < ((l.filterMap id).map Prod.snd).sum ∧
      (∃ p, some p ∈ l ∧ f p.1 * ((l.filterMap id).map Prod.snd).sum ≤ ((l.filterMap id).map (fun p => f p.1 * p.2)).sum) ∧
      ∃ p, some p ∈ l ∧ ((l.filterMap id).map (fun p => f p.1 * p.2)).sum ≤ f p.1 * ((l.filterMap id).map Prod.snd).sum := by
    intro f hne
    obtain ⟨h1, ⟨p, hp, h2⟩, ⟨q, hq, h3⟩⟩ := weighted_bounds ((l.filterMap id).map (fun p => (f p.1, p.2))) (by
      intro p hp
      obtain ⟨q, hq, rfl⟩ := List.mem_map.1 hp
      exact hw q.1 q.2 ((hmem q).1 hq)) (by simpa using hne)
    obtain ⟨p', hp', rfl⟩ := List.mem_map.1 hp
    obtain ⟨q', hq', rfl⟩ := List.mem_map.1 hq
    simp only [List.map_map, Function.comp_def] at h1 h2 h3
    exact ⟨h1, ⟨p', (hmem _).1 hp', h2⟩, q', (hmem _).1 hq', h3⟩
  constructor
  · constructor
    · intro h p hp
      have hne : l.filterMap id ≠ [] := fun he => by have := (hmem p).2 hp; rw [he] at this; simp at this
      exact absurd (shotMean_none h) (ne_of_gt (key Prod.fst hne).1)
    · intro h
      have : l.filterMap id = [] := by
        rw [List.eq_nil_iff_forall_not_mem]
        exact fun p hp => h p ((hmem p).1 hp)
      unfold shotMean
      simp only [this]
      rw [if_pos (by simp)]
  · intro v hv
    have hne : l.filterMap id ≠ [] := by
      intro he
      unfold shotMean at hv
      simp only [he] at hv
      rw [if_pos (by simp)] at hv
      cases hv
    unfold shotMean at hv
    simp only at hv
    split at hv
    · cases hv
    · cases hv
      obtain ⟨h0, ⟨p, hp, h1⟩, q, hq, h2⟩ := key Prod.fst hne
      obtain ⟨-, ⟨p', hp', h1'⟩, q', hq', h2'⟩ := key Prod.snd hne
      exact ⟨⟨p, hp, (le_div_iff₀ h0).2 h1⟩, ⟨q, hq, (div_le_iff₀ h0).2 h2⟩, ⟨p', hp', (le_div_iff₀ h0).2 h1'⟩,
        q', hq', (div_le_iff₀ h0).2 h2'⟩

end ord

/-! ### C33: perfect BPMs -/

/-- **C33** Without errors the reading is the true beam position: if the surviving particles have their centre at `m` whenever
the beam is seen (as on a closed orbit, or for a single particle without jitter), the reading is `m`, or NaN. -/
theorem C33_perfect_reading {E : Env K} {B : BeamEnv K} {req : Option (List Nat)} {ce : Bool} {s s' : SC K} {out : Reading K}
    (hmode : s.INJ.trackMode ≠ "PORB") (h6 : s.INJ.randomInjectionZ.length = 6)
    (hloss : ∀ Z i t, WholeLoss (seenAt B s Z i t)) (h : bpmReading E B req ce s = .ok out s')
    (hcs : B.cosSin 0 = (1, 0))
    (herr : ∀ i ∈ s.ORD.BPM, BpmAt s.RING (if s.INJ.trackMode = "ORB" then "NoiseCO" else "Noise") i noBpmErr)
    (m : Nat → Nat → K × K) (hm : ∀ Z, ∀ i ∈ s.ORD.BPM, ∀ t, survivors (seenAt B s Z i t) ≠ [] → centre (seenAt B s Z i t) = m i t) :
    ∃ ords, Requested s.ORD.BPM req ords ∧ ∀ b t i, ords[b]? = some i → t < s.INJ.nTurns →
      (out.x[t * ords.length + b]? = some none ∧ out.y[t * ords.length + b]? = some none) ∨
      (out.x[t * ords.length + b]? = some (some (m i t).1) ∧ out.y[t * ords.length + b]? = some (some (m i t).2)) := by
  obtain ⟨-, ords, hr, -, -, -, e, Z, z, hs, hc⟩ := C33_reading hmode h6 hloss h
  refine ⟨ords, hr, fun b t i hb ht => ?_⟩
  obtain ⟨c1, c2, -⟩ := hc b t i hb ht
  have hi : i ∈ s.ORD.BPM := ((hr.2 i).1 (List.mem_of_getElem? hb)).1
  have he : e b = noBpmErr := BpmAt_unique (hs.errors b i hb) (herr i hi)
  have key : shotMean (shotsAt B s e Z z b t i) = none ∨ shotMean (shotsAt B s e Z z b t i) = some (m i t) := by
    refine shotMean_const (fun r w hrw => ?_)
    unfold shotsAt at hrw
    obtain ⟨k, -, hk⟩ := List.mem_map.1 hrw
    unfold shot at hk
    split at hk
    · rename_i hseen
      cases hk
      have := hm (Z k) i hi t hseen.1
      unfold shotReading
      rw [he]
      simp only [noBpmErr, hcs, rolled, this]
      simp
    · cases hk
  rw [c1, c2]
  rcases key with h | h
  · left; rw [h]; exact ⟨rfl, rfl⟩
  · right; rw [h]; exact ⟨rfl, rfl⟩

/-! ### C34 -/

section c34
variable [IsStrictOrderedRing K]

theorem mem_shotsAt {B : BeamEnv K} {s : SC K} {e : Nat → BpmErr K} {Z : Nat → List (List K)} {z : Nat × ZIx → K} {b t i : Nat}
    {p : (K × K) × K} : some p ∈ shotsAt B s e Z z b t i ↔ ∃ k < s.INJ.nShots,
      Seen s.INJ.beamLostAt (e b) (seenAt B s (Z k) i t) (z (k, 2, b, turnIx s t)) ∧
      p = (shotReading B.cosSin (e b) (seenAt B s (Z k) i t) (z (k, 0, b, turnIx s t)) (z (k, 1, b, turnIx s t)) (z (k, 2, b, turnIx s t)),
        signal (e b) (seenAt B s (Z k) i t) (z (k, 2, b, turnIx s t))) := by
  unfold shotsAt
  simp only [List.mem_map, List.mem_range]
  constructor
  · rintro ⟨k, hk, h⟩
    unfold shot at h
    split at h
    · cases h; exact ⟨k, hk, by assumption, rfl⟩
    · cases h
  · rintro ⟨k, hk, h, rfl⟩
    exact ⟨k, hk, by unfold shot; rw [if_pos h]⟩

theorem shotsAt_pos {B : BeamEnv K} {s : SC K} (hb : s.INJ.beamLostAt < 1) {e : Nat → BpmErr K} {Z : Nat → List (List K)}
    {z : Nat × ZIx → K} {b t i : Nat} : ∀ r w, some (r, w) ∈ shotsAt B s e Z z b t i → 0 < w := by
  intro r w h
  obtain ⟨k, -, ⟨-, h2⟩, h3⟩ := mem_shotsAt.1 h
  cases h3
  linarith

/-- **C34** (modes 'TBT' and 'ORB')  The reading of a BPM in a turn is NaN exactly if the beam was seen in no shot: in both
planes at once.  A number lies between the smallest and the largest single-shot reading of those shots in which the beam
was seen, in each plane; the other shots have no influence (`C33_reading`). -/
theorem C34_seen_shots_only_partial {E : Env K} {B : BeamEnv K} {req : Option (List Nat)} {ce : Bool} {s s' : SC K} {out : Reading K}
    (hmode : s.INJ.trackMode ≠ "PORB") (h6 : s.INJ.randomInjectionZ.length = 6) (hbl : s.INJ.beamLostAt < 1)
    (hloss : ∀ Z i t, WholeLoss (seenAt B s Z i t)) (h : bpmReading E B req ce s = .ok out s') :
    ∃ ords e Z z, Requested s.ORD.BPM req ords ∧ Shots E B s s' ords e Z z ∧ ∀ b t i, ords[b]? = some i → t < s.INJ.nTurns →
      let SeenIn := fun k => k < s.INJ.nShots ∧ Seen s.INJ.beamLostAt (e b) (seenAt B s (Z k) i t) (z (k, 2, b, turnIx s t))
      let single := fun k => shotReading B.cosSin (e b) (seenAt B s (Z k) i t) (z (k, 0, b, turnIx s t)) (z (k, 1, b, turnIx s t))
        (z (k, 2, b, turnIx s t))
      (out.x[t * ords.length + b]? = some none ↔ ∀ k, ¬ SeenIn k) ∧ (out.y[t * ords.length + b]? = some none ↔ ∀ k, ¬ SeenIn k) ∧
      (∀ v, out.x[t * ords.length + b]? = some (some v) → (∃ k, SeenIn k ∧ (single k).1 ≤ v) ∧ ∃ k, SeenIn k ∧ v ≤ (single k).1) ∧
      (∀ v, out.y[t * ords.length + b]? = some (some v) → (∃ k, SeenIn k ∧ (single k).2 ≤ v) ∧ ∃ k, SeenIn k ∧ v ≤ (single k).2) := by
  obtain ⟨-, ords, hr, -, -, -, e, Z, z, hs, hc⟩ := C33_reading hmode h6 hloss h
  refine ⟨ords, e, Z, z, hr, hs, fun b t i hb ht => ?_⟩
  simp only
  obtain ⟨c1, c2, -⟩ := hc b t i hb ht
  obtain ⟨n1, n2⟩ := shotMean_bounds (shotsAt_pos (B := B) hbl (e := e) (Z := Z) (z := z) (b := b) (t := t) (i := i))
  rw [c1, c2]
  have hn : shotMean (shotsAt B s e Z z b t i) = none ↔ ∀ k, ¬ (k < s.INJ.nShots ∧
      Seen s.INJ.beamLostAt (e b) (seenAt B s (Z k) i t) (z (k, 2, b, turnIx s t))) := by
    rw [n1]
    simp only [mem_shotsAt]
    constructor
    · intro h k hk; exact h _ ⟨k, hk.1, hk.2, rfl⟩
    · rintro h p ⟨k, hk, hk', -⟩; exact h k ⟨hk, hk'⟩
  refine ⟨by simp [hn], by simp [hn], fun v hv => ?_, fun v hv => ?_⟩
  · simp only [Option.some.injEq, Option.map_eq_some_iff] at hv
    obtain ⟨w, hw, rfl⟩ := hv
    obtain ⟨⟨p, hp, h1⟩, ⟨q, hq, h2⟩, -⟩ := n2 w hw
    obtain ⟨k, hk, hk', rfl⟩ := mem_shotsAt.1 hp
    obtain ⟨k', hk1, hk1', rfl⟩ := mem_shotsAt.1 hq
    exact ⟨⟨k, ⟨hk, hk'⟩, h1⟩, k', ⟨hk1, hk1'⟩, h2⟩
  · simp only [Option.some.injEq, Option.map_eq_some_iff] at hv
    obtain ⟨w, hw, rfl⟩ := hv
    obtain ⟨-, -, ⟨p, hp, h1⟩, ⟨q, hq, h2⟩⟩ := n2 w hw
    obtain ⟨k, hk, hk', rfl⟩ := mem_shotsAt.1 hp
    obtain ⟨k', hk1, hk1', rfl⟩ := mem_shotsAt.1 hq
    exact ⟨⟨k, ⟨hk, hk'⟩, h1⟩, k', ⟨hk1, hk1'⟩, h2⟩

/-- **C34** (modes 'TBT' and 'ORB')  If at a BPM and in a turn too few particles survive, whatever bunch is injected, the
reading is NaN in both planes.  (The BPM has no error of its sum signal; with one, the sum signal decides.) -/
theorem C34_lost_beam_partial {E : Env K} {B : BeamEnv K} {req : Option (List Nat)} {ce : Bool} {s s' : SC K} {out : Reading K}
    (hmode : s.INJ.trackMode ≠ "PORB") (h6 : s.INJ.randomInjectionZ.length = 6) (hbl : s.INJ.beamLostAt < 1)
    (hloss : ∀ Z i t, WholeLoss (seenAt B s Z i t)) (h : bpmReading E B req ce s = .ok out s') :
    ∃ ords, Requested s.ORD.BPM req ords ∧ ∀ b t i, ords[b]? = some i → t < s.INJ.nTurns →
      s.RING.attr i "SumError" = some (.num 0) → (∀ Z, fraction (seenAt B s Z i t) < 1 - s.INJ.beamLostAt) →
      out.x[t * ords.length + b]? = some none ∧ out.y[t * ords.length + b]? = some none := by
  obtain ⟨ords, e, Z, z, hr, hs, hc⟩ := C34_seen_shots_only_partial hmode h6 hbl hloss h
  refine ⟨ords, hr, fun b t i hb ht hsum hlow => ?_⟩
  obtain ⟨c1, c2, -⟩ := hc b t i hb ht
  have : (e b).sum = 0 := by
    have := (hs.errors b i hb).sum
    rw [hsum] at this
    simpa using this.symm
  have hno : ∀ k, ¬ (k < s.INJ.nShots ∧ Seen s.INJ.beamLostAt (e b) (seenAt B s (Z k) i t) (z (k, 2, b, turnIx s t))) := by
    rintro k ⟨-, -, h2⟩
    unfold signal at h2
    rw [this] at h2
    have := hlow (Z k)
    unfold fraction at this
    simp only [zero_mul, add_zero, mul_one] at h2
    linarith
  exact ⟨c1.2 hno, c2.2 hno⟩

end c34

/-! ### an example -/

/-- a machine with two BPMs; of four particles two are lost on the way to the second one -/
def Example.beam : BeamEnv ℚ where
  track := fun _ Z i t =>
    Z.zipIdx.map (fun (p, j) => if (i ≥ 4 ∨ t ≥ 1) ∧ j % 2 = 1 then (none, none) else (some (p.getD 0 0 + i), some (p.getD 2 0)))
  orbit := fun _ i => (some (1 + i), some 2)
  eig := fun _ => ([4, 1, 1, 1, 1, 1],
    [[3/5, -4/5, 0, 0, 0, 0], [4/5, 3/5, 0, 0, 0, 0], [0, 0, 1, 0, 0, 0], [0, 0, 0, 1, 0, 0], [0, 0, 0, 0, 1, 0], [0, 0, 0, 0, 0, 1]])
  cosSin := fun _ => (1, 0)
  sqrt := fun v => if v = 4 then some 2 else if v = 1 then some 1 else none
  postFun := id

/-- the correlated beam which belongs to `Example.beam.eig` -/
def Example.sigma : List (List ℚ) :=
  [[52/25, 36/25, 0, 0, 0, 0], [36/25, 73/25, 0, 0, 0, 0], [0, 0, 1, 0, 0, 0], [0, 0, 0, 1, 0, 0], [0, 0, 0, 0, 1, 0], [0, 0, 0, 0, 0, 1]]

def Example.twoBpms (mode : String) (lostAt : ℚ) : SC ℚ where
  RING := [Example.bpm, Example.drift, Example.quad, Example.drift, Example.bpm]
  IDEALRING := []
  INJ := { beamLostAt := lostAt, Z0ideal := [0, 0, 0, 0, 0, 0], Z0 := [1, 0, 2, 0, 0, 0], beamSize := Example.sigma,
           randomInjectionZ := [0, 0, 0, 0, 0, 0], staticInjectionZ := [0, 0, 0, 0, 0, 0], nParticles := 4, nTurns := 2, nShots := 3,
           trackMode := mode }
  SIG := ⟨[], [], [], [], [], [], 0⟩
  ORD := ⟨[0, 4], [], [], [], [], [], [], [], []⟩
  rng := 0

def Example.rand : Env ℚ where
  randn := fun k => if k % 3 = 0 then 1/2 else if k % 3 = 1 then -1/3 else 1
  fuel := 100
  transform := fun _ _ o a => .ok (o.map Neg.neg, o, [a], [a])

theorem Example.beam_loss (s : SC ℚ) : ∀ Z i t, WholeLoss (seenAt Example.beam s Z i t) := by
  intro Z i t p hp
  unfold seenAt at hp
  split at hp
  · simp only [Example.beam, List.mem_singleton] at hp; subst hp; simp
  · simp only [Example.beam, List.mem_map] at hp
    obtain ⟨⟨q, j⟩, -, rfl⟩ := hp
    simp only
    split <;> simp

/-- readings with and without loss, in all three modes -/
example : (bpmReading Example.rand Example.beam (some [4, 7, 0]) false (Example.twoBpms "TBT" (1/4))).value? =
    some ⟨[some (3497/3000), none, none, none], [some (61/24), none, none, none], [1, 0, 0, 0], none⟩ ∧
    (bpmReading Example.rand Example.beam none true (Example.twoBpms "ORB" (1/4))).isOk ∧
    (bpmReading Example.rand Example.beam none true (Example.twoBpms "PORB" (3/4))).isOk ∧
    (Example.twoBpms "TBT" (1/4)).INJ.randomInjectionZ.length = 6 ∧ (Example.twoBpms "TBT" (1/4)).INJ.beamLostAt < 1 := by
  decide +kernel

theorem err_of_err? {σ α : Type} {r : Res σ α} {e : Err} (h : r.err? = some e) : r = .error e r.state := by
  cases r with
  | ok a s => cases h
  | error e' s => cases h; rfl

/-- perfect BPMs -/
def Example.perfectBpms : SC ℚ := { Example.twoBpms "ORB" (1/4) with
  RING := [Example.bpm.set "Offset" (.vec [0, 0]), Example.drift, Example.quad, Example.drift, Example.bpm.set "Offset" (.vec [0, 0])] }

example : (bpmReading Example.rand Example.beam none false Example.perfectBpms).value? =
      some ⟨[some 1, some 5, some 1, some 5], [some 2, some 2, some 2, some 2], [1, 1, 1, 1], none⟩ ∧
    Example.beam.cosSin 0 = (1, 0) ∧ (∀ i ∈ Example.perfectBpms.ORD.BPM, BpmAt Example.perfectBpms.RING "NoiseCO" i noBpmErr) ∧
    (∀ Z, ∀ i ∈ Example.perfectBpms.ORD.BPM, ∀ t, centre (seenAt Example.beam Example.perfectBpms Z i t) = (1 + (i : ℚ), 2)) := by
  refine ⟨by decide +kernel, rfl, fun i hi => ?_, fun Z i hi t => ?_⟩
  · have : i = 0 ∨ i = 4 := by simpa [Example.perfectBpms, Example.twoBpms] using hi
    rcases this with rfl | rfl
    · exact ⟨rfl, ⟨0, 0, 0, 0, rfl, rfl, by decide +kernel⟩, ⟨0, 0, rfl, rfl, by decide +kernel⟩, rfl, rfl⟩
    · exact ⟨rfl, ⟨0, 0, 0, 0, rfl, rfl, by decide +kernel⟩, ⟨0, 0, rfl, rfl, by decide +kernel⟩, rfl, rfl⟩
  · simp [seenAt, Example.perfectBpms, Example.twoBpms, Example.beam, centre, survivors]

/-- **C34 is violated** in 'PORB' mode: at the second BPM the beam is always below the threshold, and instead of a NaN the
reading raises ZeroDivisionError, although the first BPM sees the beam. -/
theorem C34_violated_porb : ∃ s' : SC ℚ,
    bpmReading Example.rand Example.beam none false (Example.twoBpms "PORB" (1/4)) = .error .zeroDivision s' ∧
    (bpmReading Example.rand Example.beam (some [0]) false (Example.twoBpms "PORB" (1/4))).isOk = true := by
  refine ⟨_, err_of_err? (by decide +kernel), by decide +kernel⟩

/-! ### C35 -/

section c35
variable [IsStrictOrderedRing K]

omit [LinearOrder K] [IsStrictOrderedRing K] in
theorem survivors_alive (P : List (Option K × Option K)) (h : WholeLoss P) :
    (P.filter (fun p => p.1.isSome)).length = (survivors P).length := by
  induction P with
  | nil => rfl
  | cons p P ih =>
    have ih := ih (fun q hq => h q (by simp [hq]))
    have hp := h p (by simp)
    obtain ⟨x, y⟩ := p
    unfold survivors at ih ⊢
    cases x with
    | none => simpa [List.filterMap_cons] using ih
    | some x =>
      cases y with
      | none => simp at hp
      | some y => simpa [List.filterMap_cons] using ih

theorem aliveFraction_eq {P : List (Option K × Option K)} (h : WholeLoss P) : aliveFraction P = fraction P := by
  unfold aliveFraction fraction
  rw [survivors_alive P h]

theorem aliveFraction_bounds (P : List (Option K × Option K)) : 0 ≤ aliveFraction P ∧ aliveFraction P ≤ 1 := by
  unfold aliveFraction
  constructor
  · positivity
  · refine div_le_one_of_le₀ ?_ (by positivity)
    exact_mod_cast List.length_filter_le _ _

theorem staysLost_fraction {P Q : List (Option K × Option K)} (h : StaysLost P Q) : aliveFraction Q ≤ aliveFraction P := by
  have : (Q.filter (fun p => p.1.isSome)).length ≤ (P.filter (fun p => p.1.isSome)).length := by
    unfold StaysLost at h
    induction h with
    | nil => simp
    | @cons p q P Q hpq _ ih =>
      simp only [List.filter_cons]
      cases hp : p.1.isSome with
      | false => rw [hpq hp]; simpa using ih
      | true =>
        cases q.1.isSome with
        | false => simp; omega
        | true => simpa using ih
  unfold aliveFraction
  rw [← List.Forall₂.length_eq h]
  gcongr

/-- counting a property of an initial segment which, once lost, stays lost -/
theorem count_leading (p : Nat → Bool) (n : Nat) (hp : ∀ t, t + 1 < n → p (t + 1) = true → p t = true) :
    ∀ t < n, t < ((List.range n).filter p).length ↔ p t = true := by
  have down : ∀ d t, t + d < n → p (t + d) = true → p t = true := by
    intro d
    induction d with
    | zero => intro t _ h; exact h
    | succ d ih => intro t ht h; exact ih t (by omega) (hp (t + d) (by omega) h)
  by_cases hall : ∀ t < n, p t = true
  · have : (List.range n).filter p = List.range n := List.filter_eq_self.2 (fun t ht => hall t (by simpa using ht))
    intro t ht
    rw [this]
    simp [hall t ht, ht]
  · have hex : ∃ m, m < n ∧ p m = false := by
      by_contra hne
      exact hall (fun t ht => by
        by_contra h
        exact hne ⟨t, ht, by simpa using h⟩)
    obtain ⟨hm, hm'⟩ := Nat.find_spec hex
    have hmin : ∀ t < Nat.find hex, p t = true := fun t ht => by
      by_contra h
      exact Nat.find_min hex ht ⟨by omega, by simpa using h⟩
    generalize Nat.find hex = m at hm hm' hmin
    have hafter : ∀ t, m ≤ t → t < n → p t = false := by
      intro t h1 h2
      by_contra h
      have := down (t - m) m (by omega) (by simpa [Nat.add_sub_cancel' h1] using h)
      rw [hm'] at this
      cases this
    have hlen : ((List.range n).filter p).length = m := by
      obtain ⟨d, rfl⟩ : ∃ d, n = m + d := ⟨n - m, by omega⟩
      rw [List.range_add, List.filter_append, List.filter_eq_self.2 (fun t ht => hmin t (by simpa using ht)),
        List.filter_eq_nil_iff.2 ?_]
      · simp
      · intro t ht
        obtain ⟨u, hu, rfl⟩ := List.mem_map.1 ht
        simp [hafter (m + u) (by omega) (by simp at hu; omega)]
    intro t ht
    rw [hlen]
    constructor
    · exact hmin t
    · intro h
      by_contra hmt
      rw [hafter t (by omega) ht] at h
      cases h

/-- **C35** `beam_transmission` injects one bunch and returns a fraction in [0, 1] for every turn, that of the particles which
survive it, and a number of turns not larger than the number of turns tracked.  If lost particles stay lost, the fractions
do not increase and the number counts exactly the leading turns in which more than `1 - beamLostAt` survive. -/
theorem C35_transmission {E : Env K} {B : BeamEnv K} {np nt : Option Nat} {s s' : SC K} {out : Nat × List K}
    (h6 : s.INJ.randomInjectionZ.length = 6) (h : beamTransmission E B np nt s = .ok out s') :
    (s' = { s with rng := s'.rng } ∧ s.rng ≤ s'.rng) ∧ ∃ Z, IsBunch B E.randn s.rng s'.rng s.INJ (np.getD s.INJ.nParticles) Z ∧
      let P := fun t => B.track s.RING Z s.RING.length t
      out.2.length = nt.getD s.INJ.nTurns ∧ out.1 ≤ nt.getD s.INJ.nTurns ∧
      (∀ t f, out.2[t]? = some f → 0 ≤ f ∧ f ≤ 1 ∧ (WholeLoss (P t) → f = fraction (P t))) ∧
      ((∀ t, StaysLost (P t) (P (t + 1))) →
        (∀ t f g, out.2[t]? = some f → out.2[t + 1]? = some g → g ≤ f) ∧
        ∀ t f, out.2[t]? = some f → (t < out.1 ↔ 1 - s.INJ.beamLostAt < f)) := by
  unfold beamTransmission at h
  have h := bindGet_eq_ok.1 h
  obtain ⟨Z, s1, h1, h⟩ := bind_eq_ok.1 h
  obtain ⟨o1, hZ⟩ := generateBunches_ok h6 h1
  rw [show (some (np.getD s.INJ.nParticles)).getD s.INJ.nParticles = np.getD s.INJ.nParticles from rfl] at hZ
  by_cases he : Z.isEmpty = true
  · rw [if_pos he] at h; cases h
  rw [if_neg he] at h
  by_cases hn : nt.getD s.INJ.nTurns = 0
  · rw [if_pos hn] at h; cases h
  rw [if_neg hn] at h
  cases h
  refine ⟨o1, Z, hZ, ?_⟩
  simp only
  generalize nt.getD s.INJ.nTurns = n
  have get : ∀ t f, ((List.range n).map (fun t => aliveFraction (B.track s.RING Z s.RING.length t)))[t]? = some f →
      t < n ∧ f = aliveFraction (B.track s.RING Z s.RING.length t) := by
    intro t f hf
    by_cases htn : t < n
    · simp [htn] at hf; exact ⟨htn, hf.symm⟩
    · simp [htn] at hf
  refine ⟨by simp, ?_, fun t f hf => ?_, fun hlost => ⟨fun t f g hf hg => ?_, fun t f hf => ?_⟩⟩
  · refine (List.length_filter_le _ _).trans (by simp)
  · obtain ⟨-, rfl⟩ := get t f hf
    exact ⟨(aliveFraction_bounds _).1, (aliveFraction_bounds _).2, aliveFraction_eq⟩
  · obtain ⟨-, rfl⟩ := get t f hf
    obtain ⟨-, rfl⟩ := get _ g hg
    exact staysLost_fraction (hlost t)
  · obtain ⟨htn, rfl⟩ := get t f hf
    rw [List.filter_map, List.length_map]
    rw [count_leading _ n _ t htn]
    · simp
    · intro t _ hp
      simp only [Function.comp_apply, decide_eq_true_eq] at hp ⊢
      exact lt_of_lt_of_le hp (staysLost_fraction (hlost t))

/-- **C35** Without tolerance (`beamLostAt = 0`) no turn is ever counted, even if no particle is lost. -/
theorem C35_no_tolerance {E : Env K} {B : BeamEnv K} {np nt : Option Nat} {s s' : SC K} {out : Nat × List K}
    (h6 : s.INJ.randomInjectionZ.length = 6) (h0 : s.INJ.beamLostAt = 0) (h : beamTransmission E B np nt s = .ok out s')
    (hlost : ∀ Z t, StaysLost (B.track s.RING Z s.RING.length t) (B.track s.RING Z s.RING.length (t + 1))) : out.1 = 0 := by
  obtain ⟨-, Z, -, hl, hle, hb, hc⟩ := C35_transmission h6 h
  by_contra hne
  obtain ⟨f, hf⟩ : ∃ f, out.2[0]? = some f := ⟨_, List.getElem?_eq_getElem (by omega)⟩
  have := ((hc (hlost Z)).2 0 f hf).1 (by omega)
  rw [h0] at this
  have := (hb 0 f hf).2.1
  linarith

example : (beamTransmission Example.rand Example.beam (some 3) (some 5) (Example.twoBpms "TBT" (1/3))).value? =
    some (0, [2/3, 2/3, 2/3, 2/3, 2/3]) ∧
    (beamTransmission Example.rand Example.beam (some 3) (some 5) (Example.twoBpms "TBT" (2/3))).value? =
    some (5, [2/3, 2/3, 2/3, 2/3, 2/3]) ∧
    (beamTransmission Example.rand Example.beam none none (Example.twoBpms "TBT" 0)).value? = some (0, [1/2, 1/2]) := by
  decide +kernel

end c35

/-! ### C36 -/

theorem dot_scale (a b : K) (v w : List K) : dot (v.map (fun x => a * x)) (w.map (fun x => b * x)) = a * b * dot v w := by
  unfold dot
  induction v generalizing w with
  | nil => simp
  | cons x v ih =>
    cases w with
    | nil => simp
    | cons y w =>
      simp only [List.map_cons, List.zipWith_cons_cons, List.sum_cons, ih w]
      ring

/-- The matrix with which the particles of a bunch are spread has the covariance `diag(V)`, where `V` are the eigenvalues of
the beam matrix, if the eigenvectors are orthonormal. -/
theorem bunchMatrix_covariance {B : BeamEnv K} {S m : List (List K)} (h : bunchMatrix B S = .ok m)
    (hlen : (B.eig S).1.length = (B.eig S).2.length) (hL : OrthonormalRows (B.eig S).2)
    (hq : ∀ v q, B.sqrt v = some q → q * q = v) (i j : Nat) (hi : i < (B.eig S).2.length) (hj : j < (B.eig S).2.length) :
    covariance m i j = if i = j then (B.eig S).1.getD i 0 else 0 := by
  unfold bunchMatrix at h
  rw [Except.bind_eq_ok'] at h
  obtain ⟨q, h1, h2⟩ := h
  cases h2
  obtain ⟨hl, hv⟩ := mapM_except_eq_ok h1
  have row : ∀ i, i < (B.eig S).2.length → ∃ a, a * a = (B.eig S).1.getD i 0 ∧
      (List.zipWith (fun d row => row.map (fun x => d * x)) q (B.eig S).2).getD i [] = ((B.eig S).2.getD i []).map (fun x => a * x) := by
    intro i hi
    obtain ⟨a, ha, hqa⟩ := hv i _ (List.getElem?_eq_getElem (by omega : i < (B.eig S).1.length))
    refine ⟨a, ?_, ?_⟩
    · rw [getD_lt _ _ (by omega : i < (B.eig S).1.length)]
      refine hq _ _ ?_
      revert ha
      cases B.sqrt (B.eig S).1[i] with
      | none => intro ha; cases ha
      | some x => intro ha; cases ha; rfl
    · rw [List.getD_eq_getElem?_getD, List.getElem?_zipWith, hqa, List.getElem?_eq_getElem hi]
      simp [hi]
  obtain ⟨a, ha, ra⟩ := row i hi
  obtain ⟨b, hb, rb⟩ := row j hj
  unfold covariance
  rw [ra, rb, dot_scale, hL i j hi hj]
  by_cases hij : i = j
  · subst hij
    have : a * a = b * b := ha.trans hb.symm
    have : a * b = a * a ∨ a * b = -(a * a) := by
      rcases mul_self_eq_mul_self_iff.1 this with h | h
      · left; rw [h]
      · right; rw [h]; ring
    have hab : a = b := by
      have e1 := ra.symm.trans rb
      -- the rows are the same and not zero
      by_contra hne
      have hz : ∀ x ∈ (B.eig S).2.getD i [], x = 0 := by
        intro x hx
        obtain ⟨n, hn, rfl⟩ := List.mem_iff_getElem.1 hx
        have := congrArg (fun l => l[n]?) e1
        simp only [List.getElem?_map, List.getElem?_eq_getElem hn, Option.map_some, Option.some.injEq] at this
        have h0 : (a - b) * ((B.eig S).2.getD i [])[n] = 0 := by rw [sub_mul, this, sub_self]
        exact (mul_eq_zero.1 h0).resolve_left (sub_ne_zero.2 hne)
      have h1 := hL i i hi hi
      rw [if_pos rfl] at h1
      have : ∀ l : List K, (∀ x ∈ l, x = 0) → dot l l = 0 := by
        intro l hl
        unfold dot
        induction l with
        | nil => simp
        | cons x l ih =>
          simp only [List.zipWith_cons_cons, List.sum_cons, ih (fun y hy => hl y (by simp [hy])), hl x (by simp)]
          simp
      rw [this _ hz] at h1
      exact zero_ne_one h1
    subst hab
    simp [ha]
  · simp [hij]

/-- **C36**, what holds: if the coordinates are not correlated (the beam matrix is diagonal and has the unit vectors as
eigenvectors, or any orthonormal rows with its diagonal as eigenvalues), the map applied to the random numbers has the
covariance `beamSize`.  Missing: correlated beams, see `C36_violated`. -/
theorem C36_uncorrelated_partial {B : BeamEnv K} {S m : List (List K)} (h : bunchMatrix B S = .ok m)
    (hlen : (B.eig S).1.length = (B.eig S).2.length) (hL : OrthonormalRows (B.eig S).2)
    (hq : ∀ v q, B.sqrt v = some q → q * q = v)
    (hdiag : ∀ i j, i < (B.eig S).2.length → j < (B.eig S).2.length →
      (S.getD i []).getD j 0 = if i = j then (B.eig S).1.getD i 0 else 0) :
    ∀ i j, i < (B.eig S).2.length → j < (B.eig S).2.length → covariance m i j = (S.getD i []).getD j 0 := by
  intro i j hi hj
  rw [bunchMatrix_covariance h hlen hL hq i j hi hj, hdiag i j hi hj]

/-- **C36 is violated** by a correlated beam: `eig` returns eigenvalues and orthonormal eigenvectors (columns) of the beam
matrix, yet the injected particles have another covariance. -/
theorem C36_violated : ∃ m, bunchMatrix Example.beam Example.sigma = .ok m ∧
    OrthonormalRows (Example.beam.eig Example.sigma).2 ∧
    (∀ i j, i < 6 → j < 6 →
      dot (Example.sigma.getD i []) ((Example.beam.eig Example.sigma).2.map (fun row => row.getD j 0)) =
        (Example.beam.eig Example.sigma).1.getD j 0 * ((Example.beam.eig Example.sigma).2.getD i []).getD j 0) ∧
    covariance m 0 1 = 0 ∧ (Example.sigma.getD 0 []).getD 1 0 = 36/25 := by
  refine ⟨_, rfl, ?_, ?_, by decide +kernel, by decide +kernel⟩
  · have : ∀ i < 6, ∀ j < 6, dot ((Example.beam.eig Example.sigma).2.getD i []) ((Example.beam.eig Example.sigma).2.getD j []) =
      if i = j then 1 else 0 := by decide +kernel
    exact fun i j hi hj => this i hi j hj
  · have : ∀ i < 6, ∀ j < 6, dot (Example.sigma.getD i []) ((Example.beam.eig Example.sigma).2.map (fun row => row.getD j 0)) =
        (Example.beam.eig Example.sigma).1.getD j 0 * ((Example.beam.eig Example.sigma).2.getD i []).getD j 0 := by decide +kernel
    exact fun i j hi hj => this i hi j hj

/-- **C36** A bunch consists of `n` particles around a common centroid; each is displaced by the matrix above applied to six
random numbers of its own.  The first part of `C36_single_particle` in general form. -/
theorem C36_bunch {E : Env K} {B : BeamEnv K} {np : Option Nat} {s s' : SC K} {Z : List (List K)}
    (h6 : s.INJ.randomInjectionZ.length = 6) (h : generateBunches E B np s = .ok Z s') :
    (s' = { s with rng := s'.rng } ∧ s.rng ≤ s'.rng) ∧
    IsBunch B E.randn s.rng s'.rng s.INJ (np.getD s.INJ.nParticles) Z := generateBunches_ok h6 h

/-- **C36** A single particle starts at `Z0` plus jitter, at most twice `randomInjectionZ` in each coordinate. -/
theorem C36_single_particle [IsStrictOrderedRing K] {E : Env K} {B : BeamEnv K} {s s' : SC K} {Z : List (List K)}
    (h6 : s.INJ.randomInjectionZ.length = 6) (hpost : B.postFun = id) (h : generateBunches E B (some 1) s = .ok Z s') :
    ∃ c : List K, Z = [c] ∧ c.length = 6 ∧ ∀ k < 6, ∃ r z0 x, s.INJ.randomInjectionZ[k]? = some r ∧ s.INJ.Z0[k]? = some z0 ∧
      c[k]? = some x ∧ |x - z0| ≤ 2 * |r| := by
  obtain ⟨-, mid, c, z, hf, -, hc, hk, hZ⟩ := generateBunches_ok h6 h
  rcases hZ with ⟨-, rfl⟩ | ⟨hn, -⟩
  · refine ⟨c, by rw [hpost]; rfl, hc, fun k hk6 => ?_⟩
    obtain ⟨r, z0, h1, h2, h3⟩ := hk k hk6
    refine ⟨r, z0, _, h1, h2, h3, ?_⟩
    obtain ⟨p, -, hp⟩ := hf
    have := (hp k hk6).2.2.2
    rw [add_sub_cancel_right, abs_mul, mul_comm, abs_of_nonneg (by norm_num : (0 : K) ≤ 2)] at *
    exact mul_le_mul_of_nonneg_right this (abs_nonneg r)
  · exact absurd rfl hn

example : (generateBunches Example.rand Example.beam none (Example.twoBpms "TBT" 0)).isOk = true ∧
    (generateBunches Example.rand Example.beam (some 1) (Example.twoBpms "TBT" 0)).value? = some [[1, 0, 2, 0, 0, 0]] := by
  decide +kernel

end PySC
