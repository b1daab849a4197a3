import Verif.Lemmas.Feedback
import Verif.Props.SupportLaw
import Verif.Props.ReadingLaw
/-
C114: the noise of measurements is independent of the errors of the machine and of earlier measurements, also if the machine is adjusted in between.
-/
namespace PySC
open Py Spec MeasureTheory ProbabilityTheory
set_option linter.unusedSectionVars false
variable {Ω : Type} [MeasurableSpace Ω] {P : Measure Ω} [IsProbabilityMeasure P]

/-- the BPMs of each of `n` requests -/
theorem requests_total {bpms : List Nat} {req : ℕ → Option (List Nat)} {n : ℕ} (hreq : ∀ j < n, ∀ l, req j = some l → ∃ i ∈ bpms, i ∈ l) :
    ∃ ords : ℕ → List Nat, ∀ j < n, registeredBpms bpms (req j) = .ok (ords j) := by
  have : ∀ j, ∃ o, j < n → registeredBpms bpms (req j) = .ok o := by
    intro j
    by_cases hj : j < n
    · obtain ⟨o, h⟩ := registeredBpms_total (hreq j hj)
      exact ⟨o, fun _ => h⟩
    · exact ⟨[], fun h => absurd h hj⟩
  exact ⟨fun j => (this j).choose, fun j => (this j).choose_spec⟩

/-- **C114**: with a generator of independent standard normal numbers, `n` measurements in turn with adjustments of the machine, which may depend on
all positions measured before, are made from independent random numbers: each measurement has its own, and all of them, also those of different
measurements, are independent of each other.  Each number has the standard normal law given that its magnitude is at most 2 (3 for the particles). -/
theorem C114_measurements (E : Env ℝ) (B : BeamEnv ℝ) {X : ℕ → Ω → ℝ} (hX : StandardNormal P X) (req : ℕ → Option (List Nat)) (adjust : Adjustment)
    (n : ℕ) (s : SC ℝ) (hreq : ∀ j < n, ∀ l, req j = some l → ∃ i ∈ s.ORD.BPM, i ∈ l) (h6 : s.INJ.randomInjectionZ.length = 6)
    (hloss : ∀ t Z i k, WholeLoss (seenAt B t Z i k)) (ha : KeepsSettings adjust) :
    ∃ ords : ℕ → List Nat, (∀ j < n, Requested s.ORD.BPM (req j) (ords j)) ∧ ∃ z : ℕ → Number → Ω → ℝ,
      IndependentWithLaws P (fun x : MeasuredNumber s ords n => z x.1.1 x.1.2) (fun x => truncatedNormal x.1.2.cutoff) ∧
      ∀ ω fuel ce outs s', feedback { E with randn := fun k => X k ω, fuel := fuel } B req ce adjust n [] s = .ok outs s' →
        MeasuredFrom B adjust s ords n (fun j x => z j x ω) outs := by
  obtain ⟨ords, ho⟩ := requests_total hreq
  exact ⟨ords, fun j hj => registeredBpms_ok (ho j hj), feedback_law E B hX req adjust n s ho h6 hloss ha⟩

/-- **C114**: the random numbers behind the errors which `apply_errors` gives to the machine (C96, C107) and those of the measurements made afterwards
with adjustments in between are all independent of each other. -/
theorem C114_errors (E : Env ℝ) (B : BeamEnv ℝ) {X : ℕ → Ω → ℝ} (hX : StandardNormal P X) (nsigmas : ℝ) (req : ℕ → Option (List Nat))
    (adjust : Adjustment) (n : ℕ) (s : SC ℝ) (ht : Tidy s.ORD) (hw : WellRegistered s.SIG)
    (hA : ∀ t ∈ ["Section", "Plinth", "Girder"], (s.ORD.pairs t).Pairwise EndsApart) (h6 : s.SIG.staticInjectionZ.length = 6) (hn : nsigmas ≠ 0)
    (hc : ∀ x sig, uncertaintyBehind s x = some sig → cutoffFor nsigmas sig ≠ 0)
    (hreq : ∀ j < n, ∀ l, req j = some l → ∃ i ∈ s.ORD.BPM, i ∈ l)
    (hj : s.SIG.randomInjectionZ.length = 6) (hloss : ∀ t Z i k, WholeLoss (seenAt B t Z i k))
    (ha : KeepsSettings adjust) :
    ∃ ords : ℕ → List Nat, (∀ j < n, Requested s.ORD.BPM (req j) (ords j)) ∧ ∃ (Z : Origin → ℕ → Ω → ℝ) (z : ℕ → Number → Ω → ℝ),
      IndependentWithLaws P (Sum.elim (fun c : OriginComponent s => Z c.1.1 c.1.2) (fun x : MeasuredNumber s ords n => z x.1.1 x.1.2))
        (Sum.elim (fun c => truncatedNormal (cutoffBehind nsigmas s c.1.1)) (fun x => truncatedNormal x.1.2.cutoff)) ∧
      ∀ ω fuel s1 ce outs s2, applyErrors { E with randn := fun k => X k ω, fuel := fuel } nsigmas s = .ok () s1 →
        feedback { E with randn := fun k => X k ω, fuel := fuel } B req ce adjust n [] s1 = .ok outs s2 →
        ErrorsMadeFrom s s1 (fun x k => Z (.inl x) k ω) ∧ SupportsMadeFrom s s1 (fun x k => Z (.inr x) k ω) ∧
          MeasuredFrom B adjust s1 ords n (fun j x => z j x ω) outs := by
  obtain ⟨ords, ho⟩ := requests_total hreq
  exact ⟨ords, fun j hj => registeredBpms_ok (ho j hj),
    applyErrors_feedback_law E B hX nsigmas req adjust n s ht hw hA h6 hn hc ho hj hloss ha⟩

/-- **C114**: the machine in measurement `j` and the positions shown before depend on the random numbers of the measurements before `j` only: if those
are the same, so are machine and positions, whatever the numbers of measurement `j` and of later ones. -/
theorem C114_causal (B : BeamEnv ℝ) (adjust : Adjustment) (ha : KeepsSettings adjust) (s : SC ℝ) (ords : ℕ → List Nat) (n : ℕ) (z w : ℕ → Number → ℝ)
    (outs outs' : List (SC ℝ × Reading ℝ)) (h : MeasuredFrom B adjust s ords n z outs) (h' : MeasuredFrom B adjust s ords n w outs') (j : ℕ) (hj : j < n)
    (hzw : ∀ i < j, ∀ x : Number, x.Used s (ords i).length → z i x = w i x) :
    (∀ i < j, ∀ m out m' out', outs[i]? = some (m, out) → outs'[i]? = some (m', out') → out.x = out'.x ∧ out.y = out'.y) ∧
    ∀ m out m' out', outs[j]? = some (m, out) → outs'[j]? = some (m', out') → withoutRng m = withoutRng m' := by
  have alike : ∀ (shown : List Positions) (i : ℕ), MeasuredAlike s (machineAt adjust s shown i) := by
    intro shown i
    induction i with
    | zero => exact ((MeasuredAlike.rng s 0).trans (ha _ _)).trans (MeasuredAlike.rng _ 0)
    | succ i ih => exact (ih.trans (ha _ _)).trans (MeasuredAlike.rng _ 0)
  have hw : MeasuredFrom B adjust s ords n (fun i x => if i < j then z i x else w i x) outs' := by
    refine ⟨h'.number, h'.machine, fun i m out hm => ?_⟩
    by_cases hi : i < j
    · simp only [if_pos hi]
      have hml : MeasuredAlike s m := by
        have := alike (shownIn outs') i
        rw [← h'.machine i m out hm] at this
        exact this.trans (MeasuredAlike.rng _ m.rng)
      exact readFrom_congr hml (h'.reading i m out hm) (fun x hx => (hzw i hi x hx).symm)
    · simp only [if_neg hi]
      exact h'.reading i m out hm
  have e := shown_congr rfl h hw (j := j) hj.le (fun i hi => by funext x; simp only [if_pos hi])
  refine ⟨fun i hi m out m' out' hm hm' => ?_, fun m out m' out' hm hm' => ?_⟩
  · have := congrArg (fun l : List Positions => l[i]?) e
    simp only [List.getElem?_take, hi, if_true, List.getElem?_map, hm, hm', Option.map_some, Option.some.injEq, Prod.mk.injEq] at this
    exact this
  · rw [h.machine j m out hm, h'.machine j m' out' hm']
    exact machineAt_congr rfl e

/-- **C114**: if the machine remains in order whatever has been measured (in 'PORB' mode with BPMs which see the beam in some turn), all measurements almost surely come to an end, and their numbers have
this law. -/
theorem C114_machines_in_order (E : Env ℝ) (B : BeamEnv ℝ) {X : ℕ → Ω → ℝ} (hX : StandardNormal P X) (req : ℕ → Option (List Nat))
    (adjust : Adjustment) (n : ℕ) (s : SC ℝ) (hs : ∀ j < n, ∀ shown, ReadingInOrder B (machineAt adjust s shown j) (req j))
    (hp : s.INJ.trackMode = "PORB" → ∀ j < n, ∀ shown, SeenInSomeTurn B (machineAt adjust s shown j))
    (h6 : s.INJ.randomInjectionZ.length = 6) (hloss : ∀ t Z i k, WholeLoss (seenAt B t Z i k)) (ha : KeepsSettings adjust) :
    ∃ ords : ℕ → List Nat, (∀ j < n, Requested s.ORD.BPM (req j) (ords j)) ∧ ∃ z : ℕ → Number → Ω → ℝ,
      IndependentWithLaws P (fun x : MeasuredNumber s ords n => z x.1.1 x.1.2) (fun x => truncatedNormal x.1.2.cutoff) ∧
      ∀ᵐ ω ∂P, ∀ ce, ∃ passes outs s', (∀ f, passes ≤ f →
          feedback { E with randn := fun k => X k ω, fuel := f } B req ce adjust n [] s = .ok outs s') ∧
        MeasuredFrom B adjust s ords n (fun j x => z j x ω) outs := by
  have alike : ∀ (i : ℕ), MeasuredAlike s (machineAt adjust s [] i) := by
    intro i
    induction i with
    | zero => exact ((MeasuredAlike.rng s 0).trans (ha _ _)).trans (MeasuredAlike.rng _ 0)
    | succ i ih => exact (ih.trans (ha _ _)).trans (MeasuredAlike.rng _ 0)
  have hreq : ∀ j < n, ∀ l, req j = some l → ∃ i ∈ s.ORD.BPM, i ∈ l := by
    intro j hj l hl
    have := (hs j hj []).asked l hl
    rwa [(alike j).bpms] at this
  obtain ⟨ords, ho, z, h1, h2⟩ := C114_measurements E B hX req adjust n s hreq h6 hloss ha
  refine ⟨ords, ho, z, h1, ?_⟩
  filter_upwards [standardNormal_keepsDrawing E hX] with ω hω ce
  obtain ⟨f0, res, e, ⟨outs, t, rfl, -⟩ | ⟨_, _, -, h⟩⟩ := feedback_settles (E := { E with randn := fun k => X k ω }) hω ha hs hp n [] s
    (MeasuredAlike.refl s) (by simp) rfl (ce := ce)
  · exact ⟨f0, outs, t, e, h2 ω f0 ce outs t (e f0 (le_refl _))⟩
  · exact h.elim

/-! ### a machine -/

/-- the injected beam is moved by half of what the first BPM showed in the last measurement -/
noncomputable def Example.recentre : Adjustment := fun past s =>
  { s with INJ := { s.INJ with Z0 := [coef s.INJ.Z0 0 - (((past.getLast?.getD ([], [])).1.getD 0 none).getD 0) / 2, 0, 2, 0, 0, 0] } }

theorem Example.recentre_settings : KeepsSettings Example.recentre := fun _ _ => ⟨rfl, rfl, rfl, rfl, rfl, rfl⟩

theorem Example.plainBeam_loss_always (t : SC ℝ) (Z : List (List ℝ)) (i k : Nat) : WholeLoss (seenAt (Example.plainBeam ℝ) t Z i k) := by
  intro p hp _
  unfold seenAt at hp
  split at hp
  · simp only [Example.plainBeam, List.mem_singleton] at hp
    rw [hp]; rfl
  · simp only [Example.plainBeam, List.mem_map] at hp
    obtain ⟨v, -, rfl⟩ := hp
    rfl

/-- the machine of the measurements is the given one but for the centre of the bunches -/
theorem Example.recentre_machine (shown : List Positions) : ∀ j, ∃ c : List ℝ, c.length = 6 ∧
    machineAt Example.recentre (Example.monitors ℝ "TBT" 2 [1, 0, 1, 0, 0, 1]) shown j =
      { Example.monitors ℝ "TBT" 2 [1, 0, 1, 0, 0, 1] with INJ := { (Example.monitors ℝ "TBT" 2 [1, 0, 1, 0, 0, 1]).INJ with Z0 := c } }
  | 0 => ⟨_, rfl, rfl⟩
  | j + 1 => by
    obtain ⟨c, -, h⟩ := Example.recentre_machine shown j
    unfold machineAt
    rw [h]
    exact ⟨_, rfl, rfl⟩

theorem Example.recentre_inOrder (req : ℕ → Option (List Nat)) (hreq : ∀ j l, req j = some l → 0 ∈ l ∨ 2 ∈ l) (j : ℕ) (shown : List Positions) :
    ReadingInOrder (Example.plainBeam ℝ) (machineAt Example.recentre (Example.monitors ℝ "TBT" 2 [1, 0, 1, 0, 0, 1]) shown j) (req j) := by
  obtain ⟨c, hc, h⟩ := Example.recentre_machine shown j
  have o := Example.monitors_inOrder ℝ "TBT" (by decide)
  rw [h]
  refine ⟨fun l hl => ?_, o.shots, o.bpm, fun _ => ⟨rfl, hc, fun _ => ⟨_, rfl, rfl⟩⟩, fun _ z w Z hZ i _ t _ => ?_⟩
  · rcases hreq j l hl with h0 | h0
    · exact ⟨0, by simp [Example.monitors], h0⟩
    · exact ⟨2, by simp [Example.monitors], h0⟩
  · obtain ⟨c, -, -, ⟨h, -⟩ | ⟨-, m, Zs, -, rfl, h, -⟩⟩ := hZ
    · cases h
    · simp only [Example.plainBeam, id, ne_eq, List.map_eq_nil_iff]
      intro h0
      rw [h0] at h
      cases h

-- the hypotheses are met: five measurements, of one BPM or both, with bunches which are recentred after each of them
example (E : Env ℝ) : ∃ ords : ℕ → List Nat, (∀ j < 5, Requested [0, 2] (if j = 3 then some [2] else none) (ords j)) ∧
    ∃ z : ℕ → Number → (ℕ → ℝ) → ℝ,
      IndependentWithLaws (streamLaw (gaussianReal 0 1))
        (fun x : MeasuredNumber (Example.monitors ℝ "TBT" 2 [1, 0, 1, 0, 0, 1]) ords 5 => z x.1.1 x.1.2) (fun x => truncatedNormal x.1.2.cutoff) ∧
      ∀ᵐ ω ∂(streamLaw (gaussianReal 0 1)), ∀ ce, ∃ passes outs s', (∀ f, passes ≤ f →
          feedback { E with randn := fun k => ω k, fuel := f } (Example.plainBeam ℝ) (fun j => if j = 3 then some [2] else none) ce Example.recentre 5 []
            (Example.monitors ℝ "TBT" 2 [1, 0, 1, 0, 0, 1]) = .ok outs s') ∧
        MeasuredFrom (Example.plainBeam ℝ) Example.recentre (Example.monitors ℝ "TBT" 2 [1, 0, 1, 0, 0, 1]) ords 5 (fun j x => z j x ω) outs :=
  C114_machines_in_order E _ Example.generator _ _ 5 _
    (fun j _ shown => Example.recentre_inOrder (fun j => if j = 3 then some [2] else none) (fun j l h => by
      split at h
      · cases h; simp
      · cases h) j shown)
    (fun h => absurd h (by decide)) rfl Example.plainBeam_loss_always Example.recentre_settings

-- the adjustment depends on what was measured
example : (Example.recentre [([some 1], [])] (Example.monitors ℝ "TBT" 2 [])).INJ.Z0 ≠ (Example.recentre [] (Example.monitors ℝ "TBT" 2 [])).INJ.Z0 := by
  simp [Example.recentre, Example.monitors, coef]

/-- the two BPMs with a drift between them and uncertainties of their errors, of the injection and of the circumference -/
def Example.surveyed (K : Type) [Field K] [LinearOrder K] : SC K where
  RING := [Example.monitor K (1 / 10), Elem.ofList [("PassMethod", .str "DriftPass"), ("Length", .num 3)], Example.monitor K 0]
  IDEALRING := []
  INJ := (Example.monitors K "TBT" 2 []).INJ
  SIG := ⟨[(0, [("Noise", .vec [1, 1]), ("Offset", .pair (.vec [3, 4]) 1)]), (2, [("Roll", .num 1)])], [], [], [], [1, 0, 1, 0, 0, 1], [1, 1, 2, 2, 0, 5], 1 / 10⟩
  ORD := ⟨[0, 2], [], [], [], [], [], [], [], []⟩
  rng := 0

theorem Example.surveyed_sigma : ∀ i name sig, Spec.sigma (Example.surveyed ℝ).SIG.BPM i name = some sig →
    (i, name, sig) ∈ [(0, "Noise", Attr.vec [1, 1]), (0, "Offset", .pair (.vec [3, 4]) 1), (2, "Roll", Attr.num (1 : ℝ))] :=
  sigma_forall (d := (Example.surveyed ℝ).SIG.BPM) (P := fun i name sig => (i, name, sig) ∈
    [(0, "Noise", Attr.vec [1, 1]), (0, "Offset", .pair (.vec [3, 4]) 1), (2, "Roll", Attr.num (1 : ℝ))]) (by simp [Example.surveyed])

-- the hypotheses are met: errors of BPMs, injection and circumference, then three measurements with recentred bunches; there are numbers of all kinds
example : Tidy (Example.surveyed ℝ).ORD ∧ WellRegistered (Example.surveyed ℝ).SIG ∧
    (∀ t ∈ ["Section", "Plinth", "Girder"], ((Example.surveyed ℝ).ORD.pairs t).Pairwise EndsApart) ∧
    (Example.surveyed ℝ).SIG.staticInjectionZ.length = 6 ∧
    (∀ x sig, uncertaintyBehind (Example.surveyed ℝ) x = some sig → cutoffFor 2 sig ≠ 0) ∧
    (∀ j < 3, ∀ l, (fun _ => none : ℕ → Option (List Nat)) j = some l → ∃ i ∈ (Example.surveyed ℝ).ORD.BPM, i ∈ l) ∧
    (Example.surveyed ℝ).SIG.randomInjectionZ.length = 6 ∧
    (∀ t Z i k, WholeLoss (seenAt (Example.plainBeam ℝ) t Z i k)) ∧ KeepsSettings Example.recentre ∧
    uncertaintyBehind (Example.surveyed ℝ) (.inl (.bpm 0 "Offset")) = some (.pair (.vec [3, 4]) 1) ∧
    cutoffBehind 2 (Example.surveyed ℝ) (.inl (.bpm 0 "Offset")) = 1 ∧
    Number.Used (Example.surveyed ℝ) 2 (.bpm 2 (1, 1, 1)) := by
  have none : ∀ i name (sig : Attr ℝ), Spec.sigma ([] : Dict Nat (Dict String (Attr ℝ))) i name = some sig → False := by
    intro i name sig h; simp [Spec.sigma, Dict.get?] at h
  have single : SingleEntries ([] : Dict Nat (Dict String (Attr ℝ))) := ⟨List.nodup_nil, fun i e h => by simp [Dict.get?] at h⟩
  refine ⟨?_, ⟨fun i name sig h => ?_, fun i name sig h => (none _ _ _ h).elim, fun i name sig h => (none _ _ _ h).elim,
    fun i name sig h => (none _ _ _ h).elim, ⟨?_, fun i e h => ?_⟩, single, single, single⟩, ?_, rfl, fun x sig h => ?_, fun j _ l h => ?_, rfl,
    Example.plainBeam_loss_always, Example.recentre_settings, ?_, ?_, ?_⟩
  · refine ⟨?_, ?_, ?_, ?_, ?_, ?_⟩ <;> simp [Example.surveyed, Increasing]
  · have := Example.surveyed_sigma i name sig h
    simp only [List.mem_cons, Prod.mk.injEq, List.not_mem_nil, or_false] at this
    rcases this with ⟨-, rfl, -⟩ | ⟨-, rfl, -⟩ | ⟨-, rfl, -⟩ <;> simp
  · simp [Example.surveyed, Dict.keys]
  · simp only [Example.surveyed, Dict.get?] at h
    split at h
    · cases h; simp [Dict.keys]
    · split at h
      · cases h; simp [Dict.keys]
      · cases h
  · intro t ht
    simp only [List.mem_cons, List.not_mem_nil, or_false] at ht
    rcases ht with rfl | rfl | rfl <;> simp [Example.surveyed, Ords.pairs]
  · match x with
    | .inl (.bpm i name) =>
      simp only [uncertaintyBehind, uncertaintyOf] at h
      split at h
      · have := Example.surveyed_sigma i name sig h
        simp only [List.mem_cons, Prod.mk.injEq, List.not_mem_nil, or_false] at this
        rcases this with ⟨-, -, rfl⟩ | ⟨-, -, rfl⟩ | ⟨-, -, rfl⟩ <;> simp [cutoffFor]
      · cases h
    | .inl .injection => cases h; simp [cutoffFor]
    | .inl .circumference => cases h; simp [cutoffFor]
    | .inl (.cavity i name) => simp [uncertaintyBehind, uncertaintyOf, Example.surveyed] at h
    | .inl (.magnet i name) => simp [uncertaintyBehind, uncertaintyOf, Example.surveyed] at h
    | .inr x => 
      simp only [uncertaintyBehind, supportUncertainty] at h
      split at h
      · exact (none _ _ _ h).elim
      · cases h
  · cases h
  · simp [uncertaintyBehind, uncertaintyOf, Example.surveyed, Spec.sigma, Dict.get?]
  · simp [cutoffBehind, uncertaintyBehind, uncertaintyOf, cutoffFor, Example.surveyed, Spec.sigma, Dict.get?]
  · simp [Number.Used, Example.surveyed, Example.monitors, turns]

-- errors can be applied to this machine, and it can be measured with them
example : ((do
    applyErrors { Example.env with randn := fun k => if k % 2 = 0 then (3 : ℚ) + k else 1 / 2, fuel := 100 } 2
    bpmReading { Example.env with randn := fun k => if k % 2 = 0 then (3 : ℚ) + k else 1 / 2, fuel := 100 } (Example.plainBeam ℚ) none true :
      Py (SC ℚ) (Reading ℚ)) (Example.surveyed ℚ)).isOk = true := by decide +kernel

end PySC
