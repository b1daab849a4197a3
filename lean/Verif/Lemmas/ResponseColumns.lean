import Verif.Spec.ResponseColumns
import Verif.Lemmas.ResponseMeasure
/-
What the columns of a measured response matrix contain.
-/
set_option linter.unusedSectionVars false
namespace PySC
open Py Spec
variable {K : Type} [Field K] [LinearOrder K] [FloorRing K] [IsStrictOrderedRing K]

theorem within_of_clip {l : Lim K} (hn : Lim.Nonneg l) {x : K} (h : clip l x = x) : Within l x := by
  cases l with
  | inf => trivial
  | fin l =>
    have hn : 0 ≤ l := hn
    show |x| ≤ |l|
    rw [abs_of_nonneg hn, abs_le]
    simp only [clip] at h
    constructor
    · rw [← h]; exact le_max_left _ _
    · rw [← h]; exact max_le (by linarith) (min_le_right _ _)

theorem Probing.kicked {o : Nat} {skew : Bool} {s t : SC K} (hsep : Separate s) (hup : UpToDate s) (h : Probing o skew s t) {x : K}
    (hx : kick t.RING o skew = x) : KickedTo o skew x s t := by
  refine ⟨hx, h.setpoints, fun i a ha hf => h.trim.rest i a (by simpa [spNames] using ha) hf, h.trim.up hsep hup, ?_⟩
  have e1 := h.rest.ideal
  have e2 := h.rest.inj
  have e3 := h.rest.sig
  have e4 := h.rest.ord
  cases t; cases s
  simp only [SC.mk.injEq]
  exact ⟨trivial, e1, e2, e3, e4, trivial⟩

theorem Probing.limit {o : Nat} {skew : Bool} {s t : SC K} (h : Probing o skew s t) : kickLimit t.RING o skew = kickLimit s.RING o skew :=
  kickLimit_congr (h.trim.rest _ _ (by simp [spNames]) (fun hf => by simpa [magnetWrites] using hf.mem))

theorem setCM_kick_abs {o : Nat} {x : K} {skew : Bool} {s s' : SC K} {u : Unit} (hn : Lim.Nonneg (kickLimit s.RING o skew))
    (h : setCMSetpoints [o] ⟨false, [x]⟩ skew "abs" s = .ok u s') : kick s'.RING o skew = clip (kickLimit s.RING o skew) x := by
  rw [setCM_kick_single h, nextKick_float hn]
  congr 1

theorem getCM_single {o : Nat} {skew : Bool} {s : SC K} {v : List K} {x : K}
    (h : [o].mapM (getCM1 s.RING skew) = .ok v) (hx : idx v 0 = .ok x) : x = kick s.RING o skew := by
  obtain ⟨y, h1, h2⟩ := (mapM_except_eq_ok h).2 0 o rfl
  rw [idx_eq_ok] at hx
  rw [h2] at hx
  cases hx
  exact getCM1_eq_ok h1

theorem trySetpoint_ok {E : Env K} {B : BeamEnv K} {bpms : List Nat} {cm : Nat} {step : K} {skew : Bool} {s t t' : SC K}
    {out : K × List (Option K)} (h : Probing cm skew s t) (hm : cm ∈ s.ORD.Magnet) (hn : Lim.Nonneg (kickLimit s.RING cm skew))
    (h' : trySetpoint E B bpms cm (kick s.RING cm skew) step skew t = .ok out t') :
    out.1 = inRange (kickLimit s.RING cm skew) (kick s.RING cm skew) step ∧ ∃ t1, Probing cm skew s t1 ∧
      kick t1.RING cm skew = clip (kickLimit s.RING cm skew) (kick s.RING cm skew + out.1) ∧ ravelReading E B bpms t1 = .ok out.2 t' := by
  unfold trySetpoint at h'
  rw [bind_eq_ok] at h'; obtain ⟨_, t1, e1, h'⟩ := h'
  unfold getCMSetpoints at h'
  rw [bindRd_eq_ok] at h'; obtain ⟨v, hv, h'⟩ := h'
  rw [bindLift_eq_ok] at h'; obtain ⟨real, hreal, h'⟩ := h'
  rw [bind_eq_ok] at h'; obtain ⟨_, t2, e2, h'⟩ := h'
  rw [bind_eq_ok] at h'; obtain ⟨r, t3, e3, h'⟩ := h'
  cases h'
  have p1 := h.set hm e1
  have k1 := setCM_kick_abs (by rw [h.limit]; exact hn) e1
  rw [h.limit] at k1
  have hr := getCM_single hv hreal
  subst hr
  unfold Py.when at e2
  by_cases hc : kick t1.RING cm skew ≠ kick s.RING cm skew + step
  · rw [if_pos (by simpa using hc)] at e2
    have hw : ¬ Within (kickLimit s.RING cm skew) (kick s.RING cm skew + step) := fun hw => hc (by rw [k1, clip_within hn hw])
    have k2 := setCM_kick_abs (by rw [p1.limit]; exact hn) e2
    rw [p1.limit] at k2
    rw [if_pos hc]
    refine ⟨by unfold inRange; rw [if_neg hw], t2, p1.set hm e2, by rw [k2, sub_eq_add_neg], e3⟩
  · rw [if_neg (by simpa using hc)] at e2
    cases e2
    have hc' := not_not.1 hc
    have hw : Within (kickLimit s.RING cm skew) (kick s.RING cm skew + step) := within_of_clip hn (by rw [← k1, hc'])
    rw [if_neg hc]
    exact ⟨by unfold inRange; rw [if_pos hw], t1, p1, k1, e3⟩

theorem foldl_max_abs (l : List K) (x : K) : (∀ y ∈ x :: l, |y| ≤ l.foldl (fun m y => max m |y|) |x|) ∧
    ∃ y ∈ x :: l, |y| = l.foldl (fun m y => max m |y|) |x| := by
  have key : ∀ (l : List K) (m : K), (m ≤ l.foldl (fun m y => max m |y|) m ∧ ∀ y ∈ l, |y| ≤ l.foldl (fun m y => max m |y|) m) ∧
      (l.foldl (fun m y => max m |y|) m = m ∨ ∃ y ∈ l, |y| = l.foldl (fun m y => max m |y|) m) := by
    intro l
    induction l with
    | nil => intro m; simp
    | cons a l ih =>
      intro m
      obtain ⟨⟨h1, h2⟩, h3⟩ := ih (max m |a|)
      rw [List.foldl_cons]
      refine ⟨⟨le_trans (le_max_left _ _) h1, fun y hy => ?_⟩, ?_⟩
      · rcases List.mem_cons.1 hy with rfl | hy
        · exact le_trans (le_max_right _ _) h1
        · exact h2 y hy
      · rcases h3 with h3 | ⟨y, hy, h3⟩
        · rcases max_choice m |a| with h4 | h4
          · left; rw [h3, h4]
          · right; exact ⟨a, by simp, by rw [h3, h4]⟩
        · right; exact ⟨y, by simp [hy], h3⟩
  obtain ⟨⟨h1, h2⟩, h3⟩ := key l |x|
  refine ⟨fun y hy => ?_, ?_⟩
  · rcases List.mem_cons.1 hy with rfl | hy
    · exact h1
    · exact h2 y hy
  · rcases h3 with h3 | ⟨y, hy, h3⟩
    · exact ⟨x, by simp, h3.symm⟩
    · exact ⟨y, by simp [hy], h3⟩

theorem mapM_id_some {α : Type} {l : List (Option α)} {v : List α} (h : l.mapM id = some v) : l = v.map some := by
  induction l generalizing v with
  | nil => simp at h; subst h; rfl
  | cons a l ih =>
    rw [List.mapM_cons] at h
    cases a with
    | none => cases h
    | some a =>
      cases hl : l.mapM id with
      | none => rw [hl] at h; cases h
      | some w =>
        rw [hl] at h
        cases h
        rw [ih hl]; rfl

theorem largestDiff_ok {r bref : List (Option K)} {d : K} (h : largestDiff r bref = .ok d) : LargestChange r bref d := by
  unfold largestDiff at h
  cases hl : (List.zipWith nanSub r bref).mapM id with
  | none => rw [hl] at h; cases h
  | some v =>
    rw [hl] at h
    have hz := mapM_id_some hl
    rw [← List.map_uncurry_zip_eq_zipWith] at hz
    cases v with
    | nil => cases h
    | cons x l =>
      cases h
      obtain ⟨h1, y, hy, h2⟩ := foldl_max_abs l x
      have sub : ∀ p : Option K × Option K, ∀ z, nanSub p.1 p.2 = some z → ∃ y y0, p = (some y, some y0) ∧ z = y - y0 := by
        rintro ⟨a, b⟩ z hz
        cases a <;> cases b <;> simp [nanSub] at hz
        exact ⟨_, _, rfl, hz.symm⟩
      refine ⟨fun p hp => ?_, ?_⟩
      · have : nanSub p.1 p.2 ∈ (x :: l).map some := by rw [← hz]; exact List.mem_map.2 ⟨p, hp, rfl⟩
        obtain ⟨z, hz1, hz2⟩ := List.mem_map.1 this
        obtain ⟨a, b, rfl, rfl⟩ := sub p z hz2.symm
        exact ⟨a, b, rfl, h1 _ hz1⟩
      · have : some y ∈ (r.zip bref).map (fun p => nanSub p.1 p.2) := by
          rw [show (r.zip bref).map (fun p => nanSub p.1 p.2) = (x :: l).map some from hz]; exact List.mem_map.2 ⟨y, hy, rfl⟩
        obtain ⟨p, hp, hpy⟩ := List.mem_map.1 this
        obtain ⟨a, b, rfl, rfl⟩ := sub p y hpy
        exact ⟨a, b, hp, h2⟩

theorem kickLoop_scaled {E : Env K} {B : BeamEnv K} {bref : List (Option K)} {bpms : List Nat} {cm : Nat} {amp : K} {skew : Bool}
    {n : Nat} {step : K} {s t t' : SC K} {out : K} (hsep : Separate s) (hup : UpToDate s) (h : Probing cm skew s t) (hm : cm ∈ s.ORD.Magnet)
    (hn : Lim.Nonneg (kickLimit s.RING cm skew))
    (h' : kickLoop E B bref bpms cm (kick s.RING cm skew) amp skew "fixedOffset" n step t = .ok out t')
    (h0 : n = 0 → Scaled E B bpms bref amp cm skew s step) : Scaled E B bpms bref amp cm skew s out := by
  induction n generalizing step t with
  | zero => cases h'; exact h0 rfl
  | succ n ih =>
    unfold kickLoop at h'
    rw [bind_eq_ok] at h'; obtain ⟨x, t1, e1, h'⟩ := h'
    have h1 := trySetpoint_probing h hm e1
    obtain ⟨a1, u, a2, a3, a4⟩ := trySetpoint_ok h hm hn e1
    by_cases hc : numSeen bref ≤ numSeen x.2
    · rw [if_pos hc, if_pos rfl] at h'
      rw [bindLift_eq_ok] at h'; obtain ⟨d, hd, h'⟩ := h'
      rw [bindLift_eq_ok] at h'; obtain ⟨q, hq, h'⟩ := h'
      refine ih h1 h' (fun _ => ?_)
      rw [divE_eq_ok] at hq
      obtain ⟨r, b1, b2, -⟩ := ravelReading_eq_ok a4
      refine ⟨step, u, r, t1, d, a2.kicked hsep hup (by rw [a3, a1]), b1, by rw [← b2]; exact largestDiff_ok hd, hq.1, ?_⟩
      rw [hq.2, a1, div_mul_cancel₀ _ hq.1]
    · rw [if_neg hc] at h'; cases h'

/-- the step found in the end -/
theorem kickAmplitude_step {E : Env K} {B : BeamEnv K} {bref : List (Option K)} {bpms : List Nat} {cm : Nat} {amp : K} {skew : Bool}
    {mode : String} {s t' : SC K} {out : K × List (Option K)} (hsep : Separate s) (hup : UpToDate s) (hm : cm ∈ s.ORD.Magnet)
    (hn : Lim.Nonneg (kickLimit s.RING cm skew))
    (h' : kickAmplitude E B bref bpms cm amp skew mode s = .ok out t') :
    (mode = "fixedKick" ∧ out.1 = inRange (kickLimit s.RING cm skew) (kick s.RING cm skew) amp) ∨
    (mode = "fixedOffset" ∧ Scaled E B bpms bref amp cm skew s out.1) := by
  unfold kickAmplitude getCMSetpoints at h'
  rw [bindRd_eq_ok] at h'; obtain ⟨v, hv, h'⟩ := h'
  rw [bindLift_eq_ok] at h'; obtain ⟨start, hst, h'⟩ := h'
  have hst := getCM_single hv hst
  subst hst
  rw [bind_eq_ok] at h'; obtain ⟨n, t1, e1, h'⟩ := h'
  rw [bind_eq_ok] at h'; obtain ⟨step, t2, e2, h'⟩ := h'
  rw [bind_eq_ok] at h'; obtain ⟨r, t3, e3, h'⟩ := h'
  cases h'
  by_cases ha : mode = "fixedOffset"
  · rw [if_pos ha] at e1; cases e1
    subst ha
    exact Or.inr ⟨rfl, kickLoop_scaled hsep hup (Probing.refl _ _ _) hm hn e2 (by simp)⟩
  · rw [if_neg ha] at e1
    by_cases hb : mode = "fixedKick"
    · rw [if_pos hb] at e1; cases e1
      refine Or.inl ⟨hb, ?_⟩
      unfold kickLoop at e2
      rw [bind_eq_ok] at e2; obtain ⟨x, t1, e1, e2⟩ := e2
      by_cases hc : numSeen bref ≤ numSeen x.2
      · rw [if_pos hc, if_neg ha] at e2
        cases e2
        exact (trySetpoint_ok (Probing.refl _ _ _) hm hn e1).1
      · rw [if_neg hc] at e2; cases e2
    · rw [if_neg hb] at e1; cases e1

theorem nanSub_quotient (d : K) (y y0 : Option K) : ((nanSub y y0).getD 0) / d = (quotient d y y0).getD 0 := by
  cases y <;> cases y0 <;> simp [nanSub, quotient]

theorem responseColumn_column {E : Env K} {B : BeamEnv K} {bref : List (Option K)} {bpms : List Nat} {rows : Nat} {mode : String} {nSteps : Nat}
    {skew : Bool} {cm : Nat} {amp : K} {s s' : SC K} {out : List K} (hsep : Separate s) (hup : UpToDate s) (hm : cm ∈ s.ORD.Magnet)
    (hn : Lim.Nonneg (kickLimit s.RING cm skew))
    (h : responseColumn E B bref bpms rows mode nSteps skew cm (kick s.RING cm skew) amp s = .ok out s') :
    ∃ m t r t', KickedTo cm skew (clip (kickLimit s.RING cm skew) (kick s.RING cm skew - m)) s t ∧
      bpmReading E B (some bpms) false t = .ok r t' ∧ kick t.RING cm skew - kick s.RING cm skew ≠ 0 ∧
      out = List.zipWith (fun y y0 => (quotient (kick t.RING cm skew - kick s.RING cm skew) y y0).getD 0) (r.x ++ r.y) bref ∧
      ((mode = "fixedKick" ∧ m = inRange (kickLimit s.RING cm skew) (kick s.RING cm skew) amp) ∨
        (mode = "fixedOffset" ∧ Scaled E B bpms bref amp cm skew s m)) := by
  have hsteps := responseColumn_steps h
  subst hsteps
  unfold responseColumn at h
  rw [bind_eq_ok] at h; obtain ⟨x, s1, e1, h⟩ := h
  rw [if_neg (by decide), if_neg (by decide)] at h
  rw [bind_eq_ok] at h; obtain ⟨steps, s2, e2, h⟩ := h
  have p1 := kickAmplitude_probing (Probing.refl cm skew s) hm e1
  have hstep := kickAmplitude_step hsep hup hm hn e1
  obtain ⟨hlen, st, hst0, hst1, hch⟩ := mapEach_chain e2
  have hlin : (linspace (-x.1) x.1 1)[0]? = some (-x.1) := by simp [linspace]
  obtain ⟨y, hy, hy'⟩ := hch 0 _ hlin
  rw [hst0] at hy'
  match steps, h, hy with
  | [(d, g)], h, hy =>
    simp only [List.getElem?_cons_zero, Option.some.injEq] at hy
    subst hy
    simp only at h
    by_cases hd : d = 0
    · rw [if_pos hd] at h; cases h
    rw [if_neg hd] at h
    by_cases hr : bref.length ≠ rows
    · rw [if_pos hr] at h; cases h
    rw [if_neg hr] at h
    rw [bind_eq_ok] at h; obtain ⟨_, s3, e3, h⟩ := h
    cases h
    unfold kickStep at hy'
    by_cases hc : -x.1 ≠ 0 ∧ -x.1 ≠ x.1
    · rw [if_pos hc] at hy'
      rw [bind_eq_ok] at hy'; obtain ⟨_, u, f1, hy'⟩ := hy'
      unfold getCMSetpoints at hy'
      rw [bindRd_eq_ok] at hy'; obtain ⟨v, hv, hy'⟩ := hy'
      rw [bindLift_eq_ok] at hy'; obtain ⟨real, hreal, hy'⟩ := hy'
      have hreal := getCM_single hv hreal
      subst hreal
      rw [bind_eq_ok] at hy'; obtain ⟨r, t3, f3, hy'⟩ := hy'
      cases hy'
      obtain ⟨r', b1, b2, -⟩ := ravelReading_eq_ok f3
      have k1 := setCM_kick_abs (by rw [p1.limit]; exact hn) f1
      rw [p1.limit, ← sub_eq_add_neg] at k1
      refine ⟨x.1, u, r', _, (p1.set hm f1).kicked hsep hup k1, b1, hd, ?_, hstep⟩
      rw [Option.getD_some, b2, List.map_zipWith]
      congr 1
      funext y y0
      exact nanSub_quotient _ _ _
    · rw [if_neg hc] at hy'
      cases hy'
      exfalso
      apply hc
      refine ⟨hd, fun he => hd ?_⟩
      linarith

theorem responsePlane_columns {E : Env K} {B : BeamEnv K} {bref : List (Option K)} {bpms : List Nat} {rows : Nat} {mode : String} {nSteps : Nat}
    {skew : Bool} {cms : List Nat} {amp : List K} {s s' : SC K} {out : List (List K)} (hsep : Separate s) (hup : UpToDate s)
    (hm : ∀ o ∈ cms, o ∈ s.ORD.Magnet) (hl : amp.length = cms.length)
    (hin : ∀ o ∈ cms, Lim.Nonneg (kickLimit s.RING o skew) ∧ Within (kickLimit s.RING o skew) (kick s.RING o skew))
    (h : responsePlane E B bref bpms rows mode nSteps skew cms amp s = .ok out s') :
    out.length = cms.length ∧ ∀ (j : Nat) (cm : Nat) (a : K), cms[j]? = some cm → amp[j]? = some a → ∃ n col, out[j]? = some col ∧
    ∃ m t r t', KickedTo cm skew (clip (kickLimit s.RING cm skew) (kick s.RING cm skew - m)) { s with rng := n } t ∧
      bpmReading E B (some bpms) false t = .ok r t' ∧ kick t.RING cm skew - kick s.RING cm skew ≠ 0 ∧
      col = List.zipWith (fun y y0 => (quotient (kick t.RING cm skew - kick s.RING cm skew) y y0).getD 0) (r.x ++ r.y) bref ∧
      ((mode = "fixedKick" ∧ m = inRange (kickLimit s.RING cm skew) (kick s.RING cm skew) a) ∨
        (mode = "fixedOffset" ∧ Scaled E B bpms bref a cm skew { s with rng := n } m)) := by
  unfold responsePlane getCMSetpoints at h
  rw [bindRd_eq_ok] at h; obtain ⟨starts, hst, h⟩ := h
  have hls := (mapM_except_eq_ok hst).1
  obtain ⟨hlen, st, hst0, hst1, hch⟩ := mapEach_chain h
  have entry : ∀ (j : Nat) (cm : Nat) (a : K), cms[j]? = some cm → amp[j]? = some a →
      (cms.zip (starts.zip amp))[j]? = some (cm, kick s.RING cm skew, a) := by
    intro j cm a hj ha
    obtain ⟨y, h4, h5⟩ := (mapM_except_eq_ok hst).2 j cm hj
    rw [List.getElem?_zip_eq_some, List.getElem?_zip_eq_some]
    exact ⟨hj, by rw [h5, getCM1_eq_ok h4], ha⟩
  have hlz : (cms.zip (starts.zip amp)).length = cms.length := by simp [hls, hl]
  have inv : ∀ k, k ≤ cms.length → st k = { s with rng := (st k).rng } := by
    intro k
    induction k with
    | zero => intro _; rw [hst0]
    | succ k ih =>
      intro hk
      have hprev := ih (by omega)
      have hr : (st k).RING = s.RING := by rw [hprev]
      have ho : (st k).ORD = s.ORD := by rw [hprev]
      have T : Trimmed s (st k) := Trimmed.of_ring hr ho
      obtain ⟨y, -, hy⟩ := hch k _ (entry k cms[k] amp[k] (List.getElem?_eq_getElem _) (List.getElem?_eq_getElem _))
      have hmem : cms[k] ∈ cms := List.getElem_mem _
      rw [← hr] at hy
      have := (responseColumn_ok (T.separate hsep) (T.up hsep hup) (by rw [ho]; exact hm _ hmem) (by rw [hr]; exact (hin _ hmem).1)
        (by rw [hr]; exact (hin _ hmem).2) hy).2
      conv_lhs => rw [this, hprev]
  refine ⟨by rw [hlen, hlz], fun j cm a hj ha => ?_⟩
  obtain ⟨col, hcol, hy⟩ := hch j _ (entry j cm a hj ha)
  have hprev := inv j (by have := (List.getElem?_eq_some_iff.1 hj).1; omega)
  have hr : (st j).RING = s.RING := by rw [hprev]
  have ho : (st j).ORD = s.ORD := by rw [hprev]
  have T : Trimmed s (st j) := Trimmed.of_ring hr ho
  have hmem := List.mem_of_getElem? hj
  rw [← hr] at hy
  have key := responseColumn_column (T.separate hsep) (T.up hsep hup) (by rw [ho]; exact hm _ hmem) (by rw [hr]; exact (hin _ hmem).1) hy
  rw [hr] at key
  refine ⟨(st j).rng, col, hcol, ?_⟩
  rw [← hprev]
  exact key

end PySC
