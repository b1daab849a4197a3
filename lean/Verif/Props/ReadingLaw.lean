import Verif.Lemmas.ReadingSteady
import Verif.Props.Truncated
/-
C98: the law of the readings, C99: measurements come to an end, C100: the noise of the readings.
-/
namespace PySC
open Py Spec MeasureTheory ProbabilityTheory
set_option linter.unusedSectionVars false

section complete
variable {K : Type} [Field K] [LinearOrder K] [IsStrictOrderedRing K] [FloorRing K]

theorem ends_of_settles {α : Type} {E : Env K} {m : Env K → Py (SC K) α} {s : SC K}
    (h : Settles (fun _ _ => False) (fun f => m (E.passes f)) s (fun _ t => UpToRng s t)) :
    ∃ passes a pos, ∀ f, passes ≤ f → m { E with fuel := f } s = .ok a { s with rng := pos } := by
  obtain ⟨f0, res, h1, ⟨a, t, rfl, pos, rfl⟩ | ⟨_, _, -, h⟩⟩ := h
  · exact ⟨f0, a, pos, h1⟩
  · exact h.elim

/-- **C99**: on a machine in order a measurement with the BPMs returns readings, and nothing but the state of the random generator changes;
in 'PORB' mode this is proved for machines whose BPMs all see the beam in some turn (otherwise see `C99_violated_pseudo_orbit`).  The
generator must not produce only large numbers from some point on. -/
theorem C99_readings_partial (E : Env K) (hE : KeepsDrawing E.randn) (B : BeamEnv K) (s : SC K) (req : Option (List Nat)) (ce : Bool)
    (hs : ReadingInOrder B s req) (hp : s.INJ.trackMode = "PORB" → SeenInSomeTurn B s) :
    ∃ passes out pos, ∀ f, passes ≤ f → bpmReading { E with fuel := f } B req ce s = .ok out { s with rng := pos } :=
  ends_of_settles (m := fun E => bpmReading E B req ce) (bpmReading_settles hE hs hp ce)

/-- **C99**: on a machine in order the beam transmission is returned. -/
theorem C99_transmission (E : Env K) (hE : KeepsDrawing E.randn) (B : BeamEnv K) (s : SC K) (np nt : Option Nat)
    (h : BunchInOrder B s.INJ (np.getD s.INJ.nParticles)) (hZ : ∀ Z, Z.length = np.getD s.INJ.nParticles → B.postFun Z ≠ [])
    (ht : nt.getD s.INJ.nTurns ≠ 0) :
    ∃ passes out pos, ∀ f, passes ≤ f → beamTransmission { E with fuel := f } B np nt s = .ok out { s with rng := pos } :=
  ends_of_settles (m := fun E => beamTransmission E B np nt) (beamTransmission_settles hE h hZ ht)

/-- **C99** is violated in 'PORB' mode: if the beam does not reach one of the requested BPMs in any turn, the measurement on a machine in
order raises ZeroDivisionError, and there are no readings at all, not even of the BPMs which see the beam. -/
theorem C99_violated_pseudo_orbit (E : Env K) (hE : KeepsDrawing E.randn) (B : BeamEnv K) (s : SC K) (req : Option (List Nat)) (ce : Bool)
    (hs : ReadingInOrder B s req) (hm : s.INJ.trackMode = "PORB") (hout : OutOfReach B s req) :
    ∃ passes pos, ∀ f, passes ≤ f → bpmReading { E with fuel := f } B req ce s = .error .zeroDivision { s with rng := pos } := by
  obtain ⟨f0, res, h1, ⟨_, _, -, h⟩ | ⟨_, _, rfl, rfl, pos, rfl⟩⟩ := bpmReading_porb_fails hE hs hm hout ce
  · exact h.elim
  · exact ⟨f0, pos, h1⟩

end complete

variable {Ω : Type} [MeasurableSpace Ω] {P : Measure Ω} [IsProbabilityMeasure P]

/-- **C99** with a generator of independent standard normal numbers: the measurement almost surely comes to an end. -/
theorem C99_almost_surely_partial (E : Env ℝ) {X : ℕ → Ω → ℝ} (hX : StandardNormal P X) (B : BeamEnv ℝ) (s : SC ℝ) (req : Option (List Nat))
    (hs : ReadingInOrder B s req) (hp : s.INJ.trackMode = "PORB" → SeenInSomeTurn B s) :
    ∀ᵐ ω ∂P, ∀ ce, ∃ passes out pos, ∀ f, passes ≤ f →
      bpmReading { E with randn := fun k => X k ω, fuel := f } B req ce s = .ok out { s with rng := pos } := by
  filter_upwards [standardNormal_keepsDrawing E hX] with ω hω ce
  exact C99_readings_partial { E with randn := fun k => X k ω } hω B s req ce hs hp

/-- **C98**: with a generator of independent standard normal numbers, the readings are made from independent random numbers: one for the
jitter of each coordinate of each injected bunch, one for each coordinate of each particle of a bunch, and one for each BPM, turn, shot and
plane and for each sum signal; each number has the standard normal law given that its magnitude is at most 2 (3 for the particles). -/
theorem C98_law (E : Env ℝ) (B : BeamEnv ℝ) {X : ℕ → Ω → ℝ} (hX : StandardNormal P X) (req : Option (List Nat)) (s : SC ℝ)
    (hreq : ∀ l, req = some l → ∃ i ∈ s.ORD.BPM, i ∈ l) (h6 : s.INJ.randomInjectionZ.length = 6)
    (hloss : ∀ Z i t, WholeLoss (seenAt B s Z i t)) :
    ∃ ords, Requested s.ORD.BPM req ords ∧ ∃ z : Number → Ω → ℝ,
      IndependentWithLaws P (fun x : {x : Number // x.Used s ords.length} => z x.1) (fun x => truncatedNormal x.1.cutoff) ∧
      ∀ ω fuel ce out s', bpmReading { E with randn := fun k => X k ω, fuel := fuel } B req ce s = .ok out s' →
        ReadFrom B s ords (fun x => z x ω) out := by
  obtain ⟨ords, ho⟩ := registeredBpms_total hreq
  exact ⟨ords, registeredBpms_ok ho, bpmReading_law E B hX req s ho h6 hloss⟩

/-- **C98**: on a machine in order the readings are almost surely obtained, and they have this law. -/
theorem C98_machines_in_order (E : Env ℝ) (B : BeamEnv ℝ) {X : ℕ → Ω → ℝ} (hX : StandardNormal P X) (req : Option (List Nat)) (s : SC ℝ)
    (hs : ReadingInOrder B s req) (hp : s.INJ.trackMode = "PORB" → SeenInSomeTurn B s)
    (h6 : s.INJ.randomInjectionZ.length = 6) (hloss : ∀ Z i t, WholeLoss (seenAt B s Z i t)) :
    ∃ ords, Requested s.ORD.BPM req ords ∧ ∃ z : Number → Ω → ℝ,
      IndependentWithLaws P (fun x : {x : Number // x.Used s ords.length} => z x.1) (fun x => truncatedNormal x.1.cutoff) ∧
      ∀ᵐ ω ∂P, ∀ ce, ∃ passes out t, (∀ f, passes ≤ f → bpmReading { E with randn := fun k => X k ω, fuel := f } B req ce s = .ok out t) ∧
        ReadFrom B s ords (fun x => z x ω) out := by
  obtain ⟨ords, h1, z, h2, h3⟩ := C98_law E B hX req s hs.asked h6 hloss
  refine ⟨ords, h1, z, h2, ?_⟩
  filter_upwards [C99_almost_surely_partial E hX B s req hs hp] with ω hω ce
  obtain ⟨passes, out, pos, hp⟩ := hω ce
  exact ⟨passes, out, _, hp, h3 ω passes ce out _ (hp passes (le_refl _))⟩

/-- a machine in order whose beam is the same in every shot and reaches all BPMs -/
theorem inOrder_of_alwaysSeen {B : BeamEnv ℝ} {s : SC ℝ} {req : Option (List Nat)} (hreq : ∀ l, req = some l → ∃ i ∈ s.ORD.BPM, i ∈ l)
    (h6 : s.INJ.randomInjectionZ.length = 6) (h6' : s.INJ.Z0.length = 6) (hst : SameEveryShot s) (hn : s.INJ.nShots ≠ 0)
    (e : Nat → BpmErr ℝ) (he : ∀ i ∈ s.ORD.BPM, AlwaysSeen B s i (e i)) : ReadingInOrder B s req := by
  refine ⟨hreq, hn, fun i hi => ⟨e i, (he i hi).errors, (he i hi).signal⟩, fun hm => ⟨h6, h6', fun h => ?_⟩, fun hm z w Z hZ i hi t ht => ?_⟩
  · rcases hst with h' | ⟨h', -⟩
    · exact (hm h').elim
    · exact (h h').elim
  · rcases hst with h' | ⟨h', h''⟩
    · exact (hm h').elim
    · have := ((he i hi).arrives t ht).1
      unfold steadySeen seenAt at this
      rw [if_neg hm] at this
      rwa [bunchFrom_steady h' h'' h6' hZ]

/-- **C100**: the readings of a beam which is the same in every shot are unbiased.  The measurement almost surely succeeds; every reading is
the reading without noise plus a random variable of mean zero; those of different BPMs, planes and turns are uncorrelated; the mean square
is at most the square of the noise of the BPM divided by the number of shots, up to a factor for the error of the sum signal.  (That it is
equal to this is not true, see `C100_violated_noise_level`.) -/
theorem C100_unbiased_partial (E : Env ℝ) (B : BeamEnv ℝ) {X : ℕ → Ω → ℝ} (hX : StandardNormal P X) (req : Option (List Nat)) (s : SC ℝ)
    (hreq : ∀ l, req = some l → ∃ i ∈ s.ORD.BPM, i ∈ l) (h6 : s.INJ.randomInjectionZ.length = 6) (h6' : s.INJ.Z0.length = 6)
    (hmode : s.INJ.trackMode ≠ "PORB") (hloss : ∀ Z i t, WholeLoss (seenAt B s Z i t)) (hst : SameEveryShot s) (hn : s.INJ.nShots ≠ 0)
    (e : Nat → BpmErr ℝ) (he : ∀ i ∈ s.ORD.BPM, AlwaysSeen B s i (e i)) :
    ∃ ords, Requested s.ORD.BPM req ords ∧ ∃ N : Fin 2 → ℕ → ℕ → Ω → ℝ,
      (∀ᵐ ω ∂P, ∀ ce, ∃ passes out pos,
        (∀ f, passes ≤ f → bpmReading { E with randn := fun k => X k ω, fuel := f } B req ce s = .ok out { s with rng := pos }) ∧
        ∀ b i t, ords[b]? = some i → t < s.INJ.nTurns →
          out.x[t * ords.length + b]? = some (some ((quietReading B.cosSin (e i) (steadySeen B s i t)).1 + N 0 b (turnIx s t) ω)) ∧
          out.y[t * ords.length + b]? = some (some ((quietReading B.cosSin (e i) (steadySeen B s i t)).2 + N 1 b (turnIx s t) ω))) ∧
      (∀ p b i τ, ords[b]? = some i → τ < turns s → Integrable (N p b τ) P ∧ ∫ ω, N p b τ ω ∂P = 0 ∧
        Integrable (fun ω => N p b τ ω ^ 2) P ∧
        ∫ ω, N p b τ ω ^ 2 ∂P ≤ ofPlane p (e i).noise ^ 2 / s.INJ.nShots / (1 - 2 * |(e i).sum|) ^ 2) ∧
      (∀ p b i τ p' b' i' τ', ords[b]? = some i → τ < turns s → ords[b']? = some i' → τ' < turns s → (p, b, τ) ≠ (p', b', τ') →
        ∫ ω, N p b τ ω * N p' b' τ' ω ∂P = 0) := by
  obtain ⟨ords, ho⟩ := registeredBpms_total hreq
  obtain ⟨N, h1, h2, h3⟩ := reading_noise E B hX req s ho h6 h6' hmode hloss hst hn e he
  refine ⟨ords, registeredBpms_ok ho, N, ?_, fun p b i τ hb hτ => ?_, h3⟩
  · filter_upwards [h1, C99_almost_surely_partial E hX B s req (inOrder_of_alwaysSeen hreq h6 h6' hst hn e he) (fun h => (hmode h).elim)]
      with ω hω hω' ce
    obtain ⟨passes, out, pos, hp⟩ := hω' ce
    exact ⟨passes, out, pos, hp, hω passes ce out _ (hp passes (le_refl _))⟩
  · obtain ⟨g1, g2, g3, -⟩ := h2 p b i τ hb hτ
    have gsq := (g1.mul g1).integrable
    refine ⟨g1.integrable, g2, by simpa only [sq] using gsq, g3.trans ?_⟩
    have hq := (truncated_sq (cut := 2) (by norm_num)).le
    have hq0 := mul_le_mul_of_nonneg_left hq (sq_nonneg (ofPlane p (e i).noise))
    rw [mul_one] at hq0
    gcongr

/-- **C100** is violated in this respect: at a BPM with noise whose sum signal is exact, the rms noise of the mean of `nShots` readings is
smaller than the noise level divided by the root of `nShots`; with a single shot it is smaller than the noise level itself. -/
theorem C100_violated_noise_level (E : Env ℝ) (B : BeamEnv ℝ) {X : ℕ → Ω → ℝ} (hX : StandardNormal P X) (req : Option (List Nat)) (s : SC ℝ)
    (hreq : ∀ l, req = some l → ∃ i ∈ s.ORD.BPM, i ∈ l) (h6 : s.INJ.randomInjectionZ.length = 6) (h6' : s.INJ.Z0.length = 6)
    (hmode : s.INJ.trackMode ≠ "PORB") (hloss : ∀ Z i t, WholeLoss (seenAt B s Z i t)) (hst : SameEveryShot s) (hn : s.INJ.nShots ≠ 0)
    (e : Nat → BpmErr ℝ) (he : ∀ i ∈ s.ORD.BPM, AlwaysSeen B s i (e i)) :
    ∃ ords, Requested s.ORD.BPM req ords ∧ ∃ N : Fin 2 → ℕ → ℕ → Ω → ℝ,
      (∀ᵐ ω ∂P, ∀ ce, ∃ passes out pos,
        (∀ f, passes ≤ f → bpmReading { E with randn := fun k => X k ω, fuel := f } B req ce s = .ok out { s with rng := pos }) ∧
        ∀ b i t, ords[b]? = some i → t < s.INJ.nTurns →
          out.x[t * ords.length + b]? = some (some ((quietReading B.cosSin (e i) (steadySeen B s i t)).1 + N 0 b (turnIx s t) ω)) ∧
          out.y[t * ords.length + b]? = some (some ((quietReading B.cosSin (e i) (steadySeen B s i t)).2 + N 1 b (turnIx s t) ω))) ∧
      ∀ p b i τ, ords[b]? = some i → τ < turns s → (e i).sum = 0 → ofPlane p (e i).noise ≠ 0 →
        ∫ ω, N p b τ ω ^ 2 ∂P < ofPlane p (e i).noise ^ 2 / s.INJ.nShots := by
  obtain ⟨ords, ho⟩ := registeredBpms_total hreq
  obtain ⟨N, h1, h2, h3⟩ := reading_noise E B hX req s ho h6 h6' hmode hloss hst hn e he
  refine ⟨ords, registeredBpms_ok ho, N, ?_, fun p b i τ hb hτ h0 hv => ?_⟩
  · filter_upwards [h1, C99_almost_surely_partial E hX B s req (inOrder_of_alwaysSeen hreq h6 h6' hst hn e he) (fun h => (hmode h).elim)]
      with ω hω hω' ce
    obtain ⟨passes, out, pos, hp⟩ := hω' ce
    exact ⟨passes, out, pos, hp, hω passes ce out _ (hp passes (le_refl _))⟩
  · obtain ⟨-, -, -, g4⟩ := h2 p b i τ hb hτ
    rw [g4 h0]
    have hq := truncated_sq (cut := 2) (by norm_num)
    have hv2 : 0 < ofPlane p (e i).noise ^ 2 := by positivity
    have hpos : (0 : ℝ) < s.INJ.nShots := by exact_mod_cast Nat.pos_of_ne_zero hn
    have := mul_lt_mul_of_pos_left hq hv2
    rw [mul_one] at this
    gcongr

/-! ### machines -/

section
variable (K : Type) [Field K] [LinearOrder K]

/-- a BPM with all kinds of errors -/
def Example.monitor (sum : K) : Elem K := Elem.ofList [("Noise", .vec [1 / 10, 1 / 5]), ("NoiseCO", .vec [1 / 100, 1 / 50]),
  ("Offset", .vec [1, 0]), ("SupportOffset", .vec [0, 1 / 2]), ("CalError", .vec [1 / 20, 0]), ("Roll", .num 1), ("SupportRoll", .num 1),
  ("SumError", .num sum)]

/-- two BPMs and something else between them; bunches of `n` particles are injected with the given jitter, three times for two turns -/
def Example.monitors (mode : String) (n : Nat) (jitter : List K) : SC K where
  RING := [Example.monitor K (1 / 10), Elem.empty, Example.monitor K 0]
  IDEALRING := []
  INJ := ⟨1 / 2, [0, 0, 0, 0, 0, 0], [1, 0, 2, 0, 0, 0], [], jitter, [], n, 2, 3, mode⟩
  SIG := ⟨[], [], [], [], [], [], 0⟩
  ORD := ⟨[0, 2], [], [], [], [], [], [], [], []⟩
  rng := 0

/-- particles which move on from turn to turn; BPMs rolled by a right angle -/
def Example.plainBeam : BeamEnv K where
  track := fun _ Z i t => Z.map (fun v => (some (v.getD 0 0 + i), some (v.getD 2 0 + t)))
  orbit := fun _ i => (some i, some 3)
  eig := fun _ => ([1, 1, 1, 4, 4, 4], [[1, 0, 0, 0, 0, 0], [0, 1, 0, 0, 0, 0], [0, 0, 1, 0, 0, 0], [0, 0, 0, 1, 0, 0], [0, 0, 0, 0, 1, 0],
    [0, 0, 0, 0, 0, 1]])
  cosSin := fun _ => (0, 1)
  sqrt := some
  postFun := id

/-- the errors of these BPMs -/
def Example.monitorErr (noise : K × K) (sum : K) : BpmErr K := ⟨noise, (1 + 0, 0 + 1 / 2), (1 / 20, 0), 1 + 1, sum⟩

theorem Example.monitors_bpm (mode : String) (n : Nat) (jitter : List K) :
    BpmAt (Example.monitors K mode n jitter).RING "Noise" 0 (Example.monitorErr K (1 / 10, 1 / 5) (1 / 10)) ∧
    BpmAt (Example.monitors K mode n jitter).RING "Noise" 2 (Example.monitorErr K (1 / 10, 1 / 5) 0) ∧
    BpmAt (Example.monitors K mode n jitter).RING "NoiseCO" 0 (Example.monitorErr K (1 / 100, 1 / 50) (1 / 10)) ∧
    BpmAt (Example.monitors K mode n jitter).RING "NoiseCO" 2 (Example.monitorErr K (1 / 100, 1 / 50) 0) := by
  refine ⟨⟨?_, ⟨1, 0, 0, 1 / 2, ?_, ?_, rfl⟩, ⟨1, 1, ?_, ?_, rfl⟩, ?_, ?_⟩, ⟨?_, ⟨1, 0, 0, 1 / 2, ?_, ?_, rfl⟩, ⟨1, 1, ?_, ?_, rfl⟩, ?_, ?_⟩,
    ⟨?_, ⟨1, 0, 0, 1 / 2, ?_, ?_, rfl⟩, ⟨1, 1, ?_, ?_, rfl⟩, ?_, ?_⟩, ⟨?_, ⟨1, 0, 0, 1 / 2, ?_, ?_, rfl⟩, ⟨1, 1, ?_, ?_, rfl⟩, ?_, ?_⟩⟩ <;>
  simp [Example.monitors, Example.monitor, Example.monitorErr, Ring.attr, Elem.ofList, Elem.set]

variable [IsStrictOrderedRing K]

/-- bunches of two particles injected with jitter -/
theorem Example.monitors_inOrder (mode : String) (hm : mode ≠ "ORB") :
    ReadingInOrder (Example.plainBeam K) (Example.monitors K mode 2 [1, 0, 1, 0, 0, 1]) (some [2, 1]) := by
  have hb := Example.monitors_bpm K mode 2 [1, 0, 1, 0, 0, 1]
  refine ⟨fun l hl => ?_, by simp [Example.monitors], fun i hi => ?_, fun _ => ⟨rfl, rfl, fun _ => ⟨_, rfl, rfl⟩⟩, fun _ z w Z hZ i _ t _ => ?_⟩
  · cases hl; exact ⟨2, by simp [Example.monitors], by simp⟩
  · have hn : noiseName (Example.monitors K mode 2 [1, 0, 1, 0, 0, 1]) = "Noise" := if_neg hm
    rw [hn]
    simp only [Example.monitors, List.mem_cons, List.not_mem_nil, or_false] at hi
    rcases hi with rfl | rfl
    · refine ⟨_, hb.1, ?_⟩
      simp only [Example.monitorErr]
      rw [abs_of_pos (by norm_num)]; norm_num
    · refine ⟨_, hb.2.1, ?_⟩
      simp [Example.monitorErr]
  · obtain ⟨c, -, -, ⟨h, -⟩ | ⟨-, m, Zs, -, rfl, h, -⟩⟩ := hZ
    · cases h
    · simp only [Example.plainBeam, id, ne_eq, List.map_eq_nil_iff]
      intro h0
      rw [h0] at h
      cases h

/-- a beam which is lost before the second BPM -/
def Example.stoppedBeam : BeamEnv K :=
  { Example.plainBeam K with track := fun _ Z i t => Z.map (fun v => if i = 2 then (none, none) else (some (v.getD 0 0 + i), some (v.getD 2 0 + t))) }

theorem Example.monitors_seen : SeenInSomeTurn (Example.plainBeam K) (Example.monitors K "PORB" 2 [1, 0, 1, 0, 0, 1]) := by
  have hb := Example.monitors_bpm K "PORB" 2 [1, 0, 1, 0, 0, 1]
  intro i hi
  refine ⟨1, by simp [Example.monitors], fun z w Z hZ => ⟨⟨?_, ?_⟩, fun e he => ?_⟩⟩
  · exact (Example.monitors_inOrder K "PORB" (by decide)).particles (by simp [Example.monitors]) z w Z hZ i hi 1 (by simp [Example.monitors])
  · intro p hp
    obtain ⟨v, -, rfl⟩ := List.mem_map.1 hp
    exact ⟨rfl, rfl⟩
  · simp only [Example.monitors, List.mem_cons, List.not_mem_nil, or_false] at hi
    rcases hi with rfl | rfl
    · rw [BpmAt_unique he hb.1]; simp only [Example.monitorErr, Example.monitors]; rw [abs_of_pos (by norm_num)]; norm_num
    · rw [BpmAt_unique he hb.2.1]; simp [Example.monitorErr, Example.monitors]

end

-- C99: a measurement with jitter and noise in 'TBT' mode, and one in 'PORB' mode
example : KeepsDrawing (fun k : Nat => if k % 2 = 0 then (3 : ℚ) + k else 0) ∧
    ReadingInOrder (Example.plainBeam ℚ) (Example.monitors ℚ "TBT" 2 [1, 0, 1, 0, 0, 1]) (some [2, 1]) ∧
    ReadingInOrder (Example.plainBeam ℚ) (Example.monitors ℚ "PORB" 2 [1, 0, 1, 0, 0, 1]) (some [2, 1]) ∧
    SeenInSomeTurn (Example.plainBeam ℚ) (Example.monitors ℚ "PORB" 2 [1, 0, 1, 0, 0, 1]) := by
  refine ⟨fun c _ k => ⟨2 * k + 1, by omega, ?_⟩, Example.monitors_inOrder ℚ _ (by decide), Example.monitors_inOrder ℚ _ (by decide),
    Example.monitors_seen ℚ⟩
  beta_reduce; rw [if_neg (by omega)]; simp

-- such a measurement
example : ((bpmReading { Example.env with randn := fun k => if k % 2 = 0 then (3 : ℚ) + k else 1 / 2, fuel := 100 } (Example.plainBeam ℚ)
    (some [2, 1]) true (Example.monitors ℚ "TBT" 2 [1, 0, 1, 0, 0, 1])).value?.map (fun r => (r.x.length, r.x.map Option.isSome))) =
      some (2, [true, true]) := by decide +kernel

-- C99, C98: transmission of a bunch
example : BunchInOrder (Example.plainBeam ℚ) (Example.monitors ℚ "TBT" 2 [1, 0, 1, 0, 0, 1]).INJ 7 ∧
    ∀ Z : List (List ℚ), Z.length = 7 → (Example.plainBeam ℚ).postFun Z ≠ [] :=
  ⟨⟨rfl, rfl, fun _ => ⟨_, rfl, rfl⟩⟩, fun Z h h0 => by
    have : Z = [] := h0
    rw [this] at h
    cases h⟩

-- C99: the second BPM is out of reach
example : ReadingInOrder (Example.stoppedBeam ℚ) (Example.monitors ℚ "PORB" 2 [1, 0, 1, 0, 0, 1]) none ∧
    OutOfReach (Example.stoppedBeam ℚ) (Example.monitors ℚ "PORB" 2 [1, 0, 1, 0, 0, 1]) none := by
  have h := Example.monitors_inOrder ℚ "PORB" (by decide)
  refine ⟨⟨fun l hl => (by cases hl), h.shots, h.bpm, fun _ => ⟨rfl, rfl, fun _ => ⟨_, rfl, rfl⟩⟩, fun _ z w Z hZ i hi t ht => ?_⟩, 2, by simp [Example.monitors],
    fun l hl => (by cases hl), fun z w Z hZ t _ p hp => ?_⟩
  · have := h.particles (by decide) z w Z hZ i hi t ht
    simp only [Example.plainBeam, Example.stoppedBeam, ne_eq, List.map_eq_nil_iff] at this ⊢
    exact this
  · simp only [Example.stoppedBeam, List.mem_map] at hp
    obtain ⟨v, -, rfl⟩ := hp
    rfl

-- the first BPM alone can be read, both together cannot
example : (bpmReading { Example.env with randn := fun _ => (0 : ℚ), fuel := 1 } (Example.stoppedBeam ℚ) (some [0]) false
      (Example.monitors ℚ "PORB" 2 [1, 0, 1, 0, 0, 1])).isOk = true ∧
    (bpmReading { Example.env with randn := fun _ => (0 : ℚ), fuel := 1 } (Example.stoppedBeam ℚ) none false
      (Example.monitors ℚ "PORB" 2 [1, 0, 1, 0, 0, 1])).err? = some .zeroDivision := by decide +kernel

theorem Example.plainBeam_loss (mode : String) (n : Nat) (jitter : List ℝ) (Z : List (List ℝ)) (i t : Nat) :
    WholeLoss (seenAt (Example.plainBeam ℝ) (Example.monitors ℝ mode n jitter) Z i t) := by
  intro p hp _
  unfold seenAt at hp
  split at hp
  · simp only [Example.plainBeam, List.mem_singleton] at hp
    rw [hp]; rfl
  · simp only [Example.plainBeam, List.mem_map] at hp
    obtain ⟨v, -, rfl⟩ := hp
    rfl

-- C98: turn-by-turn readings of bunches injected with jitter
example : StandardNormal (streamLaw (gaussianReal 0 1)) (fun k (ω : ℕ → ℝ) => ω k) ∧
    ReadingInOrder (Example.plainBeam ℝ) (Example.monitors ℝ "TBT" 2 [1, 0, 1, 0, 0, 1]) (some [2, 1]) ∧
    (Example.monitors ℝ "TBT" 2 [1, 0, 1, 0, 0, 1]).INJ.randomInjectionZ.length = 6 ∧
    (∀ Z i t, WholeLoss (seenAt (Example.plainBeam ℝ) (Example.monitors ℝ "TBT" 2 [1, 0, 1, 0, 0, 1]) Z i t)) ∧
    Number.Used (Example.monitors ℝ "TBT" 2 [1, 0, 1, 0, 0, 1]) 1 (.particle 2 1 5) ∧
    Number.Used (Example.monitors ℝ "TBT" 2 [1, 0, 1, 0, 0, 1]) 1 (.bpm 2 (1, 0, 1)) :=
  ⟨Example.generator, Example.monitors_inOrder ℝ _ (by decide), rfl, Example.plainBeam_loss _ _ _,
    by simp [Number.Used, Example.monitors], by simp [Number.Used, Example.monitors, turns]⟩

-- C98: readings of the pseudo orbit
example : ReadingInOrder (Example.plainBeam ℝ) (Example.monitors ℝ "PORB" 2 [1, 0, 1, 0, 0, 1]) (some [2, 1]) ∧
    SeenInSomeTurn (Example.plainBeam ℝ) (Example.monitors ℝ "PORB" 2 [1, 0, 1, 0, 0, 1]) ∧
    (∀ Z i t, WholeLoss (seenAt (Example.plainBeam ℝ) (Example.monitors ℝ "PORB" 2 [1, 0, 1, 0, 0, 1]) Z i t)) :=
  ⟨Example.monitors_inOrder ℝ _ (by decide), Example.monitors_seen ℝ, Example.plainBeam_loss _ _ _⟩

-- C100: a single particle without jitter in 'TBT' mode, and the closed orbit; the second BPM has an exact sum signal
example : SameEveryShot (Example.monitors ℝ "TBT" 1 [0, 0, 0, 0, 0, 0]) ∧ SameEveryShot (Example.monitors ℝ "ORB" 2 [1, 0, 1, 0, 0, 1]) ∧
    (∀ i ∈ (Example.monitors ℝ "TBT" 1 [0, 0, 0, 0, 0, 0]).ORD.BPM, AlwaysSeen (Example.plainBeam ℝ) (Example.monitors ℝ "TBT" 1 [0, 0, 0, 0, 0, 0]) i
      (if i = 0 then Example.monitorErr ℝ (1 / 10, 1 / 5) (1 / 10) else Example.monitorErr ℝ (1 / 10, 1 / 5) 0)) ∧
    (∀ i ∈ (Example.monitors ℝ "ORB" 2 [1, 0, 1, 0, 0, 1]).ORD.BPM, AlwaysSeen (Example.plainBeam ℝ) (Example.monitors ℝ "ORB" 2 [1, 0, 1, 0, 0, 1]) i
      (if i = 0 then Example.monitorErr ℝ (1 / 100, 1 / 50) (1 / 10) else Example.monitorErr ℝ (1 / 100, 1 / 50) 0)) ∧
    (Example.monitorErr ℝ (1 / 10, 1 / 5) 0).sum = 0 ∧ ofPlane 1 (Example.monitorErr ℝ (1 / 10, 1 / 5) 0).noise ≠ 0 := by
  have hb := Example.monitors_bpm ℝ "TBT" 1 [0, 0, 0, 0, 0, 0]
  have hb' := Example.monitors_bpm ℝ "ORB" 2 [1, 0, 1, 0, 0, 1]
  have h5 : |(1 / 10 : ℝ)| = 1 / 10 := abs_of_pos (by norm_num)
  refine ⟨Or.inr ⟨rfl, fun k hk => ?_⟩, Or.inl rfl, fun i hi => ?_, fun i hi => ?_, rfl, by simp [ofPlane, Example.monitorErr]⟩
  · simp only [Example.monitors, coef]
    rcases k with _ | _ | _ | _ | _ | _ | k <;> first | rfl | omega
  · simp only [Example.monitors, List.mem_cons, List.not_mem_nil, or_false] at hi
    rcases hi with rfl | rfl
    · exact ⟨hb.1, by simp only [Example.monitorErr, if_true, h5]; norm_num, by simp only [Example.monitorErr, Example.monitors, if_true, h5]; norm_num,
        fun t _ => ⟨by simp [steadySeen, seenAt, Example.monitors, Example.plainBeam], by simp [steadySeen, seenAt, Example.monitors, Example.plainBeam]⟩⟩
    · exact ⟨hb.2.1, by simp [Example.monitorErr], by simp [Example.monitorErr, Example.monitors],
        fun t _ => ⟨by simp [steadySeen, seenAt, Example.monitors, Example.plainBeam], by simp [steadySeen, seenAt, Example.monitors, Example.plainBeam]⟩⟩
  · simp only [Example.monitors, List.mem_cons, List.not_mem_nil, or_false] at hi
    rcases hi with rfl | rfl
    · exact ⟨hb'.2.2.1, by simp only [Example.monitorErr, if_true, h5]; norm_num, by simp only [Example.monitorErr, Example.monitors, if_true, h5]; norm_num,
        fun t _ => ⟨by simp [steadySeen, seenAt, Example.monitors, Example.plainBeam], by simp [steadySeen, seenAt, Example.monitors, Example.plainBeam]⟩⟩
    · exact ⟨hb'.2.2.2, by simp [Example.monitorErr], by simp [Example.monitorErr, Example.monitors],
        fun t _ => ⟨by simp [steadySeen, seenAt, Example.monitors, Example.plainBeam], by simp [steadySeen, seenAt, Example.monitors, Example.plainBeam]⟩⟩

end PySC
