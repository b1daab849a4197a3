import Verif.Lemmas.Donut
import Verif.Props.Orbit
/-
C115: in the search for transmission the correctors are tried with kicks within the range of the pattern around their settings.
-/
namespace PySC
set_option linter.unusedSectionVars false
variable {K : Type} [Field K] [LinearOrder K] [FloorRing K] [IsStrictOrderedRing K]
open Py Spec

/-- **C115**, the pattern: its `n` points lie between the two radii, further out from point to point, the first on the inner circle and
the last on the outer one. -/
theorem C115_pattern {r0 r1 : ℝ} (h0 : 0 ≤ r0) (h1 : r0 ≤ r1) {n : ℕ} (hn : 2 ≤ n) :
    (goldenDonutDiffs r0 r1 n).length = n ∧
    (∀ k < n, let p := pointAfter (goldenDonutDiffs r0 r1 n) (k + 1)
      p.1 ^ 2 + p.2 ^ 2 = r0 ^ 2 + (r1 ^ 2 - r0 ^ 2) * (k / ((n : ℝ) - 1)) ∧ r0 ^ 2 ≤ p.1 ^ 2 + p.2 ^ 2 ∧ p.1 ^ 2 + p.2 ^ 2 ≤ r1 ^ 2) ∧
    (let p := pointAfter (goldenDonutDiffs r0 r1 n) 1; p.1 ^ 2 + p.2 ^ 2 = r0 ^ 2) ∧
    (let p := pointAfter (goldenDonutDiffs r0 r1 n) n; p.1 ^ 2 + p.2 ^ 2 = r1 ^ 2) := by
  have key : ∀ k < n, (pointAfter (goldenDonutDiffs r0 r1 n) (k + 1)).1 ^ 2 + (pointAfter (goldenDonutDiffs r0 r1 n) (k + 1)).2 ^ 2 =
      r0 ^ 2 + (r1 ^ 2 - r0 ^ 2) * (k / ((n : ℝ) - 1)) := by
    intro k hk
    rw [goldenDonutDiffs_point _ _ hk]
    exact donutPosition_norm h0 h1 hn hk
  have hq : 0 ≤ r1 ^ 2 - r0 ^ 2 := by nlinarith
  refine ⟨goldenDonutDiffs_length _ _ _, ?_, ?_, ?_⟩
  · intro k hk
    obtain ⟨a, b⟩ := donut_share hn hk
    refine ⟨key k hk, ?_, ?_⟩
    · rw [key k hk]; nlinarith [mul_nonneg hq a]
    · rw [key k hk]; nlinarith [mul_nonneg hq (sub_nonneg.2 b)]
  · have := key 0 (by omega)
    simpa using this
  · obtain ⟨m, rfl⟩ : ∃ m, n = m + 1 := ⟨n - 1, by omega⟩
    have := key m (by omega)
    have hm : (m : ℝ) ≠ 0 := by
      have : 1 ≤ m := by omega
      positivity
    simp only
    rw [this]
    push_cast
    rw [add_sub_cancel_right, div_self hm]
    ring

/-- the pattern in use: 32 points, none further than 1 mrad -/
theorem C115_pattern_in_use : wigglePattern.length = 32 ∧ StaysWithin (1 / 1000) wigglePattern := by
  obtain ⟨hl, hp, -, -⟩ := C115_pattern (r0 := 500 / 10 ^ 6) (r1 := 1000 / 10 ^ 6) (by norm_num) (by norm_num) (n := 32) (by norm_num)
  refine ⟨hl, ?_⟩
  intro k hk
  have hk' : k ≤ 32 := by have := hk; unfold wigglePattern at this; rwa [hl] at this
  cases k with
  | zero => rw [pointAfter_zero]; norm_num
  | succ k =>
    have := (hp k (by omega)).2.2
    unfold wigglePattern
    refine this.trans ?_
    norm_num

theorem abs_plane_le {r : K} (hr : 0 ≤ r) {p : K × K} (h : p.1 ^ 2 + p.2 ^ 2 ≤ r ^ 2) (vert : Bool) : |inPlane vert p| ≤ r := by
  refine abs_le_of_sq_le_sq ?_ hr
  cases vert
  · simp only [inPlane, Bool.false_eq_true, if_false]; nlinarith [sq_nonneg p.2]
  · simp only [inPlane, if_true]; nlinarith [sq_nonneg p.1]

theorem abs_rounds_le {r : K} (hr : 0 ≤ r) {steps : List (K × K)} (h : StaysWithin r steps) {m k : Nat} (hm : m ≤ 7) (hk : k ≤ steps.length)
    (vert : Bool) : |rounds steps m k vert| ≤ 8 * r := by
  have a := abs_plane_le hr (h _ (le_refl _)) vert
  have b := abs_plane_le hr (h k hk) vert
  unfold rounds
  refine (abs_add_le _ _).trans ?_
  rw [abs_mul, Nat.abs_cast]
  have hm' : (m : K) ≤ 7 := by exact_mod_cast hm
  have : (m : K) * |inPlane vert (pointAfter steps steps.length)| ≤ 7 * r := by
    refine mul_le_mul hm' a (abs_nonneg _) (by norm_num)
  linarith

theorem roomFor_of_slack {r : K} (hr : 0 ≤ r) {steps : List (K × K)} (h : StaysWithin r steps) {s : SC K} {cms : CMs}
    (hs : ∀ vert, ∀ i ∈ inPlane vert cms, Slack (kickLimit s.RING i vert) (kick s.RING i vert) (8 * r)) : RoomFor s cms steps := by
  intro vert i hi
  have := hs vert i hi
  cases hl : kickLimit s.RING i vert with
  | inf => exact ⟨trivial, fun _ _ _ _ => trivial⟩
  | fin l =>
    rw [hl] at this
    simp only [Slack] at this
    have h0 : 0 ≤ l := by
      have := abs_nonneg (kick s.RING i vert)
      linarith
    refine ⟨h0, fun m hm k hk => ?_⟩
    simp only [Within]
    rw [abs_of_nonneg h0]
    refine (abs_add_le _ _).trans ?_
    have := abs_rounds_le hr h hm hk vert
    linarith

/-- **C115** holds up to a factor: however a search ends, with success, failure or another exception, the kick of each corrector in each
plane is its kick at the start, up to seven times the last point of the pattern and one of its points, together at most eight times the
reach of the pattern.  (Missing: a factor of one, see `C115_violated`.  Correctors are supposed to have limits that leave this room;
nothing is supposed about the readings.) -/
theorem C115_kicks_partial (E : Env K) (B : BeamEnv K) (O : OrbitEnv K) (bpms : List Nat) (cms : CMs) (limit : Nat) (s : SC K) {r : K}
    (hr : 0 ≤ r) (hp : StaysWithin r O.donut) (hH : cms.1.Nodup) (hV : cms.2.Nodup)
    (hs : ∀ vert, ∀ i ∈ inPlane vert cms, Slack (kickLimit s.RING i vert) (kick s.RING i vert) (8 * r)) (i : Nat) (vert : Bool) :
    let s' := (wiggling E B O bpms cms limit s).state
    (∃ m : Nat, m ≤ 7 ∧ ∃ k ≤ O.donut.length, moved s s' i vert = m * inPlane vert (pointAfter O.donut O.donut.length) + inPlane vert (pointAfter O.donut k)) ∧
    |moved s s' i vert| ≤ 8 * r := by
  obtain ⟨m, hm, k, hk, e⟩ := wiggling_kicks E B O bpms cms limit hH hV (roomFor_of_slack hr hp hs) i vert
  have e' : moved s (wiggling E B O bpms cms limit s).state i vert = rounds O.donut m k vert := by
    unfold moved; rw [e]; ring
  refine ⟨⟨m, hm, k, hk, e'⟩, ?_⟩
  rw [e']
  exact abs_rounds_le hr hp hm hk vert

/-- **C115** holds for a search that succeeds in its first round (so that no more readings were taken than the pattern has points, and
one): each corrector ends within the reach of the pattern, and all correctors that moved have been moved alike. -/
theorem C115_first_round_partial (E : Env K) (B : BeamEnv K) (O : OrbitEnv K) (bpms : List Nat) (cms : CMs) (limit : Nat) {s s' : SC K} {r : K}
    (hr : 0 ≤ r) (hp : StaysWithin r O.donut) (hd : O.donut ≠ []) (hH : cms.1.Nodup) (hV : cms.2.Nodup)
    (hs : ∀ vert, ∀ i ∈ inPlane vert cms, Slack (kickLimit s.RING i vert) (kick s.RING i vert) (8 * r)) {logs : List (Log K)}
    (h : wiggling E B O bpms cms limit s = .ok logs s') (hl : logs.length ≤ O.donut.length + 1) :
    ∃ k ≤ O.donut.length, ∀ i,
      (∀ vert, moved s s' i vert = 0 ∨ moved s s' i vert = inPlane vert (pointAfter O.donut k)) ∧
      moved s s' i false ^ 2 + moved s s' i true ^ 2 ≤ r ^ 2 := by
  obtain ⟨k, hk, e⟩ := wiggling_first E B O bpms cms limit hH hV (roomFor_of_slack hr hp hs) h hl hd
  refine ⟨k, hk, fun i => ?_⟩
  have e' : ∀ vert, moved s s' i vert = 0 ∨ moved s s' i vert = inPlane vert (pointAfter O.donut k) := by
    intro vert
    unfold moved
    rcases e i vert with e | e
    · left; rw [e]; ring
    · right; rw [e]; ring
  refine ⟨e', ?_⟩
  have b := hp k hk
  have sq : ∀ vert, moved s s' i vert ^ 2 ≤ inPlane vert (pointAfter O.donut k) ^ 2 := by
    intro vert
    rcases e' vert with e | e <;> rw [e]
    rw [zero_pow two_ne_zero]; exact sq_nonneg _
  have h1 := sq false
  have h2 := sq true
  simp only [inPlane, Bool.false_eq_true, if_false, if_true] at h1 h2
  linarith

/-- eight points at 1 mrad, not in order -/
def Example.circle : OrbitEnv ℚ where
  pinv := fun _ => .ok [[1, 0, 0, 0], [0, 0, 0, 0]]
  donut := [(3/5000, 4/5000), (1/5000, -1/5000), (-1/5000, -7/5000), (-7/5000, 1/5000), (-1/5000, 3/5000), (2/5000, 4/5000),
    (7/5000, -7/5000), (1/5000, 3/5000)]

theorem Example.circle_reaches : StaysWithin (1/1000) Example.circle.donut := by
  have : ∀ k ∈ List.range 9, (pointAfter Example.circle.donut k).1 ^ 2 + (pointAfter Example.circle.donut k).2 ^ 2 ≤ (1/1000 : ℚ) ^ 2 := by decide +kernel
  intro k hk
  exact this k (List.mem_range.2 (by have : Example.circle.donut.length = 8 := rfl; omega))

/-- nothing comes back in the second turn -/
def Example.oneTurnBeam : BeamEnv ℚ :=
  { Example.lineBeam with track := fun _ Z _ t => Z.map (fun _ => if t = 0 then (some (1/1000), some 0) else (none, none)) }

/-- correctors that can be kicked by 20 mrad -/
def Example.roomy (k0 : ℚ) : SC ℚ :=
  { Example.straight k0 2 with RING := (Example.straight k0 2).RING.setAttr 0 "CMlimit" (.lims [.fin (1/50), .fin (1/50)]) }

theorem Example.roomy_slack : ∀ vert, ∀ i ∈ inPlane vert (([0], [0]) : CMs),
    Slack (kickLimit (Example.roomy (-1/1000)).RING i vert) (kick (Example.roomy (-1/1000)).RING i vert) (8 * (1/1000)) := by
  decide +kernel

/-- a search that succeeds at the first two points, and one that fails and leaves 8 mrad -/
example : StaysWithin (1/1000) Example.circle.donut ∧ Example.circle.donut ≠ [] ∧
    (∀ vert, ∀ i ∈ inPlane vert (([0], [0]) : CMs),
      Slack (kickLimit (Example.roomy (-1/1000)).RING i vert) (kick (Example.roomy (-1/1000)).RING i vert) (8 * (1/1000))) ∧
    (let run := wiggling Example.rand Example.gapBeam Example.circle [1] ([0], [0]) 2 (Example.roomy (-1/1000))
     run.value?.map (fun logs => logs.length) = some 7 ∧
     moved (Example.roomy (-1/1000)) run.state 0 false = 4/5000 ∧ moved (Example.roomy (-1/1000)) run.state 0 true = 3/5000) ∧
    (let run := wiggling Example.rand Example.oneTurnBeam Example.circle [1] ([0], [0]) 2 (Example.roomy (-1/1000))
     run.err? = some .runtimeError ∧ moved (Example.roomy (-1/1000)) run.state 0 false = 8 * (1/1000)) :=
  ⟨Example.circle_reaches, by decide +kernel, Example.roomy_slack, by decide +kernel, by decide +kernel⟩

/-- **C115** is violated: in a search that fails, the kicks of one round remain when the next begins, and nothing is taken back: the
corrector ends with eight times the last point of the pattern, 8 mrad from its setting at the start. -/
theorem C115_violated :
    let run := stitch Example.rand Example.oneTurnBeam Example.circle Example.rm4 none (some ([0], [0])) (some [1]) 1 20 (Example.roomy 0)
    StaysWithin (1/1000) Example.circle.donut ∧ run.err? = some .runtimeError ∧
    moved (Example.roomy 0) run.state 0 false = 8 * (1/1000) ∧ moved (Example.roomy 0) run.state 0 true = 0 := by
  refine ⟨Example.circle_reaches, by decide +kernel, by decide +kernel, by decide +kernel⟩

end PySC
