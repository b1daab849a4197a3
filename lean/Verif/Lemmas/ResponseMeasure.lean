import Verif.Lemmas.ResponseModel
import Verif.Lemmas.BbaRestore
/-
Measured dispersion and response matrices.
-/
set_option linter.unusedSectionVars false
namespace PySC
open Py Spec
variable {K : Type} [Field K] [LinearOrder K] [FloorRing K]

theorem ravelReading_eq_ok {E : Env K} {B : BeamEnv K} {bpms : List Nat} {s s' : SC K} {v : List (Option K)}
    (h : ravelReading E B bpms s = .ok v s') : ∃ r, bpmReading E B (some bpms) false s = .ok r s' ∧ v = r.x ++ r.y ∧ OnlyRng s s' := by
  unfold ravelReading at h
  rw [bind_eq_ok] at h
  obtain ⟨r, s1, h1, h⟩ := h
  cases h
  exact ⟨r, h1, rfl, (bpmReading_onlyRng E B _ _).ok h1⟩

variable [IsStrictOrderedRing K]

theorem zipWith_quotient (d : K) (b a : List (Option K)) : List.zipWith (diffQuot d) b a = List.zipWith (quotient d) b a := by
  congr 1; funext y x; exact diffQuot_eq d y x

/-- a shift by nothing of cavities in order is no change -/
theorem Spec.Shifted.ring_eq {cavs : List Nat} {field : String} (hf : field ∈ ["Voltage", "Frequency", "TimeLag"]) {s s' : SC K}
    (h : Shifted cavs field 0 s s') (hr : ∀ i ∈ cavs, CavityReady s.RING i) (hr' : ∀ i ∈ cavs, CavityReady s'.RING i)
    (hreal : ∀ i ∈ cavs, Realised s.RING i) : s'.RING = s.RING := by
  have part : ∀ i ∈ cavs, ∀ g ∈ ["Voltage", "Frequency", "TimeLag"], ∀ p ∈ ["SetPoint", "CalError", "Offset"],
      s'.RING.attr i (g ++ p) = s.RING.attr i (g ++ p) := by
    intro i hi g hg p hp
    by_cases hg' : g ++ p = field ++ "SetPoint"
    · rw [hg', (hr i hi).numAt hf (by simp), (hr' i hi).numAt hf (by simp), h.setpoint i hi, add_zero]
    · refine h.rest.attr i _ (fun hW => ?_)
      rcases hW.2 with h1 | h1
      · exact hg' h1
      · exact field_part_not_mem hg hp h1
  refine Ring.ext_attr h.rest.len (fun i a => ?_)
  by_cases hi : i ∈ cavs
  · by_cases h1 : a = field ++ "SetPoint"
    · rw [h1]; exact part i hi field hf _ (by simp)
    · by_cases h2 : a ∈ ["Voltage", "Frequency", "TimeLag"]
      · rw [hreal i hi a h2, h.realised i hi (hreal i hi) a h2, numAt_congr (part i hi a h2 "SetPoint" (by simp)),
          numAt_congr (part i hi a h2 "CalError" (by simp)), numAt_congr (part i hi a h2 "Offset" (by simp))]
      · exact h.rest.attr i a (fun hW => hW.2.elim h1 h2)
  · exact h.rest.attr i a (fun hW => hi hW.1)

/-- everything but the lattice and the random numbers is the same -/
structure SameRest (s s' : SC K) : Prop where
  ideal : s'.IDEALRING = s.IDEALRING
  inj : s'.INJ = s.INJ
  sig : s'.SIG = s.SIG
  ord : s'.ORD = s.ORD

theorem SameRest.refl (s : SC K) : SameRest s s := ⟨rfl, rfl, rfl, rfl⟩
theorem SameRest.trans {a b c : SC K} (h1 : SameRest a b) (h2 : SameRest b c) : SameRest a c :=
  ⟨h2.ideal.trans h1.ideal, h2.inj.trans h1.inj, h2.sig.trans h1.sig, h2.ord.trans h1.ord⟩
theorem Frame.sameRest {W : Nat → String → Prop} {s s' : SC K} (h : Frame W s s') : SameRest s s' := ⟨h.ideal, h.inj, h.sig, h.ord⟩
theorem DrawFrame.sameRest {W : Nat → String → Prop} {s s' : SC K} (h : DrawFrame W s s') : SameRest s s' := ⟨h.ideal, h.inj, h.sig, h.ord⟩
theorem OnlyRng.sameRest {s s' : SC K} (h : OnlyRng s s') : SameRest s s' := by
  obtain ⟨h, -⟩ := h
  exact ⟨by rw [h], by rw [h], by rw [h], by rw [h]⟩
theorem OnlyRng.ring {s s' : SC K} (h : OnlyRng s s') : s'.RING = s.RING := by
  obtain ⟨h, -⟩ := h
  rw [h]
theorem SameRest.eq {s s' : SC K} (h : SameRest s s') (hr : s'.RING = s.RING) : s' = { s with rng := s'.rng } := by
  have e1 := h.ideal
  have e2 := h.inj
  have e3 := h.sig
  have e4 := h.ord
  cases s'; cases s
  simp only [SC.mk.injEq]
  exact ⟨hr, e1, e2, e3, e4, trivial⟩

theorem Spec.Settled.of_ring {s s' : SC K} {o : Nat} (h : Settled s [o]) (hr : s'.RING = s.RING) : Settled s' [o] :=
  h.keep (by rw [hr]) (fun t _ a => by rw [hr])

/-! ### measured orbit response -/

theorem setCM_kick_single {o : Nat} {x : K} {isInt skew : Bool} {m : String} {s s' : SC K} {u : Unit}
    (h : setCMSetpoints [o] ⟨isInt, [x]⟩ skew m s = .ok u s') :
    kick s'.RING o skew = nextKick isInt m (kickLimit s.RING o skew) x (kick s.RING o skew) := by
  have := setCMSetpoints_kick_distinct h (by simp) (k := 0) (o := o) rfl
  rw [this]
  rfl

theorem setCM_kickLimit {o : Nat} {sp : NpArr K} {skew sk : Bool} {m : String} {s s' : SC K} {u : Unit} {ords : List Nat}
    (h : setCMSetpoints ords sp skew m s = .ok u s') : kickLimit s'.RING o sk = kickLimit s.RING o sk :=
  kickLimit_congr (((setCMSetpoints_modifies _ _ _ _).ok h).attr _ _ (by
    rintro (⟨-, h⟩ | h)
    · exact ne_setPoint (by simp [spNames]) _ h
    · simp [magnetWrites] at h))

theorem clip_within {l : Lim K} (hn : Lim.Nonneg l) {x : K} (h : Within l x) : clip l x = x := by
  cases l with
  | inf => rfl
  | fin l =>
    have hn : 0 ≤ l := hn
    have h : |x| ≤ |l| := h
    rw [abs_of_nonneg hn, abs_le] at h
    simp only [clip]
    rw [min_eq_left h.2, max_eq_right h.1]

theorem orbitColumn_ok {E : Env K} {B : BeamEnv K} {bpms : List Nat} {dkick : K} {orbit0 : List (Option K)} {c : Bool × Nat} {s s' : SC K}
    {col : List (Option K)} (hs : Settled s [c.2]) (hn : Lim.Nonneg (kickLimit s.RING c.2 c.1))
    (h0 : Within (kickLimit s.RING c.2 c.1) (kick s.RING c.2 c.1)) (h1 : Within (kickLimit s.RING c.2 c.1) (kick s.RING c.2 c.1 + dkick))
    (h : orbitColumn E B bpms false dkick orbit0 c s = .ok col s') :
    s' = { s with rng := s'.rng } ∧ ∃ s1 r1 s2, setCMSetpoints [c.2] ⟨false, [dkick]⟩ c.1 "add" s = .ok () s1 ∧
      bpmReading E B (some bpms) false s1 = .ok r1 s2 ∧ dkick ≠ 0 ∧ orbit0.length = 2 * bpms.length ∧
      col = List.zipWith (quotient dkick) (r1.x ++ r1.y) orbit0 := by
  unfold orbitColumn at h
  rw [bind_eq_ok] at h; obtain ⟨_, s1, e1, h⟩ := h
  rw [bind_eq_ok] at h; obtain ⟨v, s2, e2, h⟩ := h
  rw [bind_eq_ok] at h; obtain ⟨_, s3, e3, h⟩ := h
  by_cases hd : dkick = 0
  · rw [if_pos hd] at h; cases h
  rw [if_neg hd] at h
  by_cases hl : orbit0.length ≠ 2 * bpms.length
  · rw [if_pos hl] at h; cases h
  rw [if_neg hl] at h
  cases h
  obtain ⟨r1, f1, rfl, f2⟩ := ravelReading_eq_ok e2
  have f1' := (setCMSetpoints_modifies _ _ _ _).ok e1
  have f3' := (setCMSetpoints_modifies _ _ _ _).ok e3
  have hring : s'.RING = s.RING := by
    refine setCM_restores hs e1 f2.ring e3 (fun o ho => ?_)
    simp only [List.mem_singleton] at ho
    subst ho
    rw [setCM_kick_single e3, f2.ring, setCM_kick_single e1, setCM_kickLimit e1, nextKick_float hn, nextKick_float hn]
    have a1 : asked "add" dkick (kick s.RING c.2 c.1) = kick s.RING c.2 c.1 + dkick := by simp [asked, add_comm]
    have a2 : asked "add" (-dkick) (kick s.RING c.2 c.1 + dkick) = kick s.RING c.2 c.1 := by simp [asked]
    rw [a1, clip_within hn h1, a2, clip_within hn h0]
  refine ⟨((f1'.sameRest.trans f2.sameRest).trans f3'.sameRest).eq hring, s1, r1, s2, e1, f1, hd, not_not.1 hl, zipWith_quotient _ _ _⟩

/-! ### response matrix -/

/-- in between, only the first entry of the set-points of one component of one corrector is different -/
structure Probing (o : Nat) (skew : Bool) (s t : SC K) : Prop where
  rest : SameRest s t
  trim : Trimmed s t
  setpoints : ∀ i sk k, (i ≠ o ∨ sk ≠ skew ∨ k ≠ 0) → setpoint t.RING i sk k = setpoint s.RING i sk k

theorem Probing.refl (o : Nat) (skew : Bool) (s : SC K) : Probing o skew s s := ⟨SameRest.refl s, Trimmed.refl s, fun _ _ _ _ => rfl⟩

theorem Probing.draw {o : Nat} {skew : Bool} {s t t' : SC K} (h : Probing o skew s t) (h' : OnlyRng t t') : Probing o skew s t' :=
  ⟨h.rest.trans h'.sameRest, h.trim.trans h'.trimmed, fun i sk k hi => by rw [h'.ring, h.setpoints i sk k hi]⟩

theorem Probing.set {o : Nat} {skew : Bool} {s t t' : SC K} {sp : NpArr K} {m : String} {u : Unit} (h : Probing o skew s t)
    (hm : o ∈ s.ORD.Magnet) (h' : setCMSetpoints [o] sp skew m t = .ok u t') : Probing o skew s t' := by
  have f := (setCMSetpoints_modifies _ _ _ _).ok h'
  refine ⟨h.rest.trans f.sameRest, h.trim.trans (setCMSetpoints_trimmed (fun i hi => ?_) h'), fun i sk k hi => ?_⟩
  · simp only [List.mem_singleton] at hi; subst hi; rw [h.rest.ord]; exact hm
  · rw [← h.setpoints i sk k hi]
    by_cases hk : k = 0
    · subst hk
      refine setpoint_congr (f.attr _ _ ?_)
      rintro (⟨h1, h2⟩ | h1)
      · simp only [List.mem_singleton] at h1
        have : sk = skew := by cases sk <;> cases skew <;> simp_all [plane]
        tauto
      · revert h1; cases sk <;> simp [plane, magnetWrites]
    · have := setCMSetpoints_setpoint (ords := [o]) (sp := sp) (skew := skew) (method := m) t i sk k hk
      rw [h'] at this
      exact this

theorem trySetpoint_probing {E : Env K} {B : BeamEnv K} {bpms : List Nat} {cm : Nat} {start step : K} {skew : Bool} {s t t' : SC K}
    {out : K × List (Option K)} (h : Probing cm skew s t) (hm : cm ∈ s.ORD.Magnet)
    (h' : trySetpoint E B bpms cm start step skew t = .ok out t') : Probing cm skew s t' := by
  unfold trySetpoint at h'
  rw [bind_eq_ok] at h'; obtain ⟨_, t1, e1, h'⟩ := h'
  unfold getCMSetpoints at h'
  rw [bindRd_eq_ok] at h'; obtain ⟨v, -, h'⟩ := h'
  rw [bindLift_eq_ok] at h'; obtain ⟨real, -, h'⟩ := h'
  rw [bind_eq_ok] at h'; obtain ⟨_, t2, e2, h'⟩ := h'
  rw [bind_eq_ok] at h'; obtain ⟨r, t3, e3, h'⟩ := h'
  cases h'
  obtain ⟨-, -, -, f⟩ := ravelReading_eq_ok e3
  refine Probing.draw ?_ f
  unfold Py.when at e2
  split at e2
  · exact (h.set hm e1).set hm e2
  · cases e2
    exact h.set hm e1

theorem kickLoop_probing {E : Env K} {B : BeamEnv K} {bref : List (Option K)} {bpms : List Nat} {cm : Nat} {start amp : K} {skew : Bool}
    {mode : String} {n : Nat} {step : K} {s t t' : SC K} {out : K} (h : Probing cm skew s t) (hm : cm ∈ s.ORD.Magnet)
    (h' : kickLoop E B bref bpms cm start amp skew mode n step t = .ok out t') : Probing cm skew s t' := by
  induction n generalizing step t with
  | zero => cases h'; exact h
  | succ n ih =>
    unfold kickLoop at h'
    rw [bind_eq_ok] at h'; obtain ⟨x, t1, e1, h'⟩ := h'
    have h1 := trySetpoint_probing h hm e1
    by_cases hc : numSeen bref ≤ numSeen x.2
    · rw [if_pos hc] at h'
      by_cases hmode : mode = "fixedOffset"
      · rw [if_pos hmode] at h'
        rw [bindLift_eq_ok] at h'; obtain ⟨_, _, h'⟩ := h'
        rw [bindLift_eq_ok] at h'; obtain ⟨_, _, h'⟩ := h'
        exact ih h1 h'
      · rw [if_neg hmode] at h'; cases h'; exact h1
    · rw [if_neg hc] at h'; cases h'

theorem kickAmplitude_probing {E : Env K} {B : BeamEnv K} {bref : List (Option K)} {bpms : List Nat} {cm : Nat} {amp : K} {skew : Bool}
    {mode : String} {s t t' : SC K} {out : K × List (Option K)} (h : Probing cm skew s t) (hm : cm ∈ s.ORD.Magnet)
    (h' : kickAmplitude E B bref bpms cm amp skew mode t = .ok out t') : Probing cm skew s t' := by
  unfold kickAmplitude getCMSetpoints at h'
  rw [bindRd_eq_ok] at h'; obtain ⟨v, -, h'⟩ := h'
  rw [bindLift_eq_ok] at h'; obtain ⟨start, -, h'⟩ := h'
  rw [bind_eq_ok] at h'; obtain ⟨n, t1, e1, h'⟩ := h'
  have e1' : t1 = t := by
    by_cases ha : mode = "fixedOffset"
    · rw [if_pos ha] at e1; cases e1; rfl
    · rw [if_neg ha] at e1
      by_cases hb : mode = "fixedKick"
      · rw [if_pos hb] at e1; cases e1; rfl
      · rw [if_neg hb] at e1; cases e1
  subst e1'
  rw [bind_eq_ok] at h'; obtain ⟨step, t2, e2, h'⟩ := h'
  rw [bind_eq_ok] at h'; obtain ⟨r, t3, e3, h'⟩ := h'
  cases h'
  obtain ⟨-, -, -, f⟩ := ravelReading_eq_ok e3
  exact (kickLoop_probing h hm e2).draw f

theorem kickStep_probing {E : Env K} {B : BeamEnv K} {bref : List (Option K)} {bpms : List Nat} {cm : Nat} {start step : K} {skew : Bool}
    {x : K} {s t t' : SC K} {out : K × Option (List (Option K))} (h : Probing cm skew s t) (hm : cm ∈ s.ORD.Magnet)
    (h' : kickStep E B bref bpms cm start step skew x t = .ok out t') : Probing cm skew s t' := by
  unfold kickStep at h'
  by_cases hc : x ≠ 0 ∧ x ≠ step
  · rw [if_pos hc] at h'
    rw [bind_eq_ok] at h'; obtain ⟨_, t1, e1, h'⟩ := h'
    unfold getCMSetpoints at h'
    rw [bindRd_eq_ok] at h'; obtain ⟨v, -, h'⟩ := h'
    rw [bindLift_eq_ok] at h'; obtain ⟨real, -, h'⟩ := h'
    rw [bind_eq_ok] at h'; obtain ⟨r, t3, e3, h'⟩ := h'
    cases h'
    obtain ⟨-, -, -, f⟩ := ravelReading_eq_ok e3
    exact (h.set hm e1).draw f
  · rw [if_neg hc] at h'; cases h'; exact h

theorem responseColumn_ok {E : Env K} {B : BeamEnv K} {bref : List (Option K)} {bpms : List Nat} {rows : Nat} {mode : String} {nSteps : Nat}
    {skew : Bool} {cm : Nat} {amp : K} {s s' : SC K} {out : List K} (hsep : Separate s) (hup : UpToDate s) (hm : cm ∈ s.ORD.Magnet)
    (hn : Lim.Nonneg (kickLimit s.RING cm skew)) (hin : Within (kickLimit s.RING cm skew) (kick s.RING cm skew))
    (h : responseColumn E B bref bpms rows mode nSteps skew cm (kick s.RING cm skew) amp s = .ok out s') :
    nSteps = 1 ∧ s' = { s with rng := s'.rng } := by
  unfold responseColumn at h
  rw [bind_eq_ok] at h; obtain ⟨x, s1, e1, h⟩ := h
  by_cases h2 : nSteps = 2
  · rw [if_pos h2] at h; cases h
  rw [if_neg h2] at h
  by_cases h3 : nSteps = 0
  · rw [if_pos h3] at h; cases h
  rw [if_neg h3] at h
  rw [bind_eq_ok] at h; obtain ⟨steps, s2, e2, h⟩ := h
  have p1 := kickAmplitude_probing (Probing.refl cm skew s) hm e1
  have p2 : Probing cm skew s s2 := mapEach_inv (I := Probing cm skew s) (fun y _ t t' z ht hh => kickStep_probing ht hm hh) e2 p1
  have hlen : steps.length = nSteps := by rw [(mapEach_chain e2).1]; simp [linspace]
  match steps, h with
  | [(d, g)], h =>
    simp only at h
    by_cases hd : d = 0
    · rw [if_pos hd] at h; cases h
    rw [if_neg hd] at h
    by_cases hr : bref.length ≠ rows
    · rw [if_pos hr] at h; cases h
    rw [if_neg hr] at h
    rw [bind_eq_ok] at h; obtain ⟨_, s3, e3, h⟩ := h
    cases h
    refine ⟨hlen.symm, ?_⟩
    have p3 := p2.set hm e3
    have hlim : kickLimit s2.RING cm skew = kickLimit s.RING cm skew :=
      kickLimit_congr (p2.trim.rest _ _ (by simp [spNames]) (fun hf => by simpa [magnetWrites] using hf.mem))
    have hk : kick s'.RING cm skew = kick s.RING cm skew := by
      rw [setCM_kick_single e3, hlim, nextKick_float hn]
      have : asked "abs" (kick s.RING cm skew) (kick s2.RING cm skew) = kick s.RING cm skew := by simp [asked]
      rw [this, clip_within hn hin]
    have hfac : kickFactor s'.RING cm skew = kickFactor s.RING cm skew :=
      kickFactor_congr (p3.trim.rest _ _ (by simp [spNames]) (fun hf => by simpa [magnetWrites] using hf.mem))
        (p3.trim.rest _ _ (by simp [spNames]) (fun hf => by simpa [magnetWrites] using hf.mem))
    have hfac2 : kickFactor s2.RING cm skew = kickFactor s.RING cm skew :=
      kickFactor_congr (p2.trim.rest _ _ (by simp [spNames]) (fun hf => by simpa [magnetWrites] using hf.mem))
        (p2.trim.rest _ _ (by simp [spNames]) (fun hf => by simpa [magnetWrites] using hf.mem))
    have hne : kickFactor s.RING cm skew ≠ 0 := by
      rw [← hfac2]; exact (setCMSetpoints_factor e3 (by simp)).1
    have hsp : setpoint s'.RING cm skew 0 = setpoint s.RING cm skew 0 := by
      unfold kick at hk
      rw [hfac] at hk
      exact mul_right_cancel₀ hne hk
    have hring := p3.trim.similar.same hup (p3.trim.up hsep hup) (fun i sk k => by
      by_cases hi : i ≠ cm ∨ sk ≠ skew ∨ k ≠ 0
      · exact p3.setpoints i sk k hi
      · simp only [not_or, not_not] at hi
        obtain ⟨rfl, rfl, rfl⟩ := hi
        exact hsp)
    exact p3.rest.eq hring
  | [], h => cases h
  | _ :: _ :: _, h => cases h

theorem responseColumn_steps {E : Env K} {B : BeamEnv K} {bref : List (Option K)} {bpms : List Nat} {rows : Nat} {mode : String} {nSteps : Nat}
    {skew : Bool} {cm : Nat} {start amp : K} {s s' : SC K} {out : List K}
    (h : responseColumn E B bref bpms rows mode nSteps skew cm start amp s = .ok out s') : nSteps = 1 := by
  unfold responseColumn at h
  rw [bind_eq_ok] at h; obtain ⟨x, s1, e1, h⟩ := h
  by_cases h2 : nSteps = 2
  · rw [if_pos h2] at h; cases h
  rw [if_neg h2] at h
  by_cases h3 : nSteps = 0
  · rw [if_pos h3] at h; cases h
  rw [if_neg h3] at h
  rw [bind_eq_ok] at h; obtain ⟨steps, s2, e2, h⟩ := h
  have hlen : steps.length = nSteps := by rw [(mapEach_chain e2).1]; simp [linspace]
  match steps, h with
  | [(d, g)], h => exact hlen.symm
  | [], h => cases h
  | _ :: _ :: _, h => cases h

theorem getCM1_eq_ok {r : Ring K} {o : Nat} {skew : Bool} {x : K} (h : getCM1 r skew o = .ok x) : x = kick r o skew := by
  simp only [getCM1, Except.bind_eq_ok', Ring.getVecAt_eq_ok] at h
  obtain ⟨x0, ⟨v, hv, h0⟩, n, hn, h⟩ := h
  cases h
  rw [kick, setpoint, ← normBy_eq_ok hn, plane_eq_letter, vecAt_of_attr hv, coef_of_getElem? h0]

theorem responsePlane_ok {E : Env K} {B : BeamEnv K} {bref : List (Option K)} {bpms : List Nat} {rows : Nat} {mode : String} {nSteps : Nat}
    {skew : Bool} {cms : List Nat} {amp : List K} {s s' : SC K} {out : List (List K)} (hsep : Separate s) (hup : UpToDate s)
    (hm : ∀ o ∈ cms, o ∈ s.ORD.Magnet)
    (hin : ∀ o ∈ cms, Lim.Nonneg (kickLimit s.RING o skew) ∧ Within (kickLimit s.RING o skew) (kick s.RING o skew))
    (h : responsePlane E B bref bpms rows mode nSteps skew cms amp s = .ok out s') :
    s' = { s with rng := s'.rng } := by
  unfold responsePlane getCMSetpoints at h
  rw [bindRd_eq_ok] at h; obtain ⟨starts, hst, h⟩ := h
  refine mapEach_inv (I := fun t => t = { s with rng := t.rng }) ?_ h rfl
  rintro ⟨o, st, a⟩ hc t t' y ht hh
  obtain ⟨k, hk⟩ := List.mem_iff_getElem?.1 hc
  rw [List.getElem?_zip_eq_some, List.getElem?_zip_eq_some] at hk
  obtain ⟨h1, h2, h3⟩ := hk
  obtain ⟨y', h4, h5⟩ := (mapM_except_eq_ok hst).2 k o h1
  rw [h2] at h5
  cases h5
  have hmem := List.mem_of_getElem? h1
  have hr : t.RING = s.RING := by rw [ht]
  have ho : t.ORD = s.ORD := by rw [ht]
  have T : Trimmed s t := Trimmed.of_ring hr ho
  have hst : st = kick t.RING o skew := by rw [hr]; exact getCM1_eq_ok h4
  subst hst
  have := (responseColumn_ok (T.separate hsep) (T.up hsep hup) (by rw [ho]; exact hm o hmem) (by rw [hr]; exact (hin o hmem).1)
    (by rw [hr]; exact (hin o hmem).2) hh).2
  rw [this, ht]

end PySC
