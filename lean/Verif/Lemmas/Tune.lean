import Verif.Spec.Tune
import Verif.Lemmas.MagnetSetpoints
import Verif.Lemmas.ApplyErrors
import Verif.Lemmas.Orbit
set_option linter.unusedSectionVars false
namespace PySC
open Py Spec
variable {K : Type} [Field K] [LinearOrder K] [FloorRing K]

theorem Spec.OnlyQuads.refl (q : List Nat × List Nat) (s : SC K) : OnlyQuads q s s := ⟨DrawFrame.refl s, fun _ _ _ _ => rfl⟩
theorem Spec.OnlyQuads.trans {q : List Nat × List Nat} {a b c : SC K} (h1 : OnlyQuads q a b) (h2 : OnlyQuads q b c) : OnlyQuads q a c :=
  ⟨DrawFrame.trans _ _ _ h1.frame h2.frame, fun i sk k h => (h2.other i sk k h).trans (h1.other i sk k h)⟩

theorem Spec.OnlyQuads.nominal {q : List Nat × List Nat} {s s' : SC K} (h : OnlyQuads q s s') (i : Nat) :
    nominalQuad s'.RING i = nominalQuad s.RING i := by
  have : s'.RING.attr i "NomPolynomB" = s.RING.attr i "NomPolynomB" := by
    refine h.frame.attr _ _ ?_
    rintro (⟨-, h⟩ | h)
    · exact absurd h (by decide)
    · exact absurd h (by decide)
  simp only [nominalQuad, vecAt, this]

theorem OnlyRng.onlyQuads {q : List Nat × List Nat} {s s' : SC K} (h : OnlyRng s s') : OnlyQuads q s s' := by
  obtain ⟨h, -⟩ := h
  rw [h]
  exact ⟨⟨rfl, rfl, rfl, rfl, rfl, fun _ _ _ => rfl⟩, fun _ _ _ _ => rfl⟩

theorem OnlyRng.drawFrame {W : Nat → String → Prop} {s s' : SC K} (h : OnlyRng s s') : DrawFrame W s s' := by
  obtain ⟨h, -⟩ := h
  rw [h]
  exact ⟨rfl, rfl, rfl, rfl, rfl, fun _ _ _ => rfl⟩

theorem beamTransmission_onlyRng (E : Env K) (B : BeamEnv K) (n t : Option Nat) : Rel OnlyRng (beamTransmission E B n t) := by
  unfold beamTransmission
  refine Rels.bind Rels.get (fun s => Rels.bind (generateBunches_onlyRng E B _) (fun Z => ?_))
  split
  · exact Rels.throw _
  · simp only
    split
    · exact Rels.throw _
    · exact Rels.pure _

theorem scanSet_writes {q : List Nat × List Nat} {sp : NpArr K} :
    Rel (DrawFrame (scanWrites q)) (setMagnetSetpoints (K := K) (q.1 ++ q.2) sp false 1 "rel" false) := by
  refine Rel.mono ?_ (setMagnetSetpoints_modifies (q.1 ++ q.2) sp false 1 "rel" false)
  intro s s' h
  refine DrawFrame.mono ?_ (DrawFrame.of_frame h)
  rintro i a (⟨h1, h2 | ⟨h2, -⟩⟩ | h)
  · exact Or.inl ⟨List.mem_append.1 h1, h2⟩
  · simp at h2
  · exact Or.inr h

theorem scanSet_ok {q : List Nat × List Nat} {sp : NpArr K} {s s' : SC K}
    (h : setMagnetSetpoints (q.1 ++ q.2) sp false 1 "rel" false s = .ok () s') : OnlyQuads q s s' := by
  refine ⟨scanSet_writes.ok h, fun i sk k hne => setMagnetSetpoints_other h i sk k (Or.inr (Or.inl rfl)) ?_⟩
  rw [List.mem_append]
  tauto

theorem scanSet_families {q : List Nat × List Nat} {f : K × K} {s s' : SC K} (hnd : (q.1 ++ q.2).Nodup) (hne : (q.1 ++ q.2).length ≠ 1)
    (h : setMagnetSetpoints (q.1 ++ q.2) ⟨false, familySetpoints q f⟩ false 1 "rel" false s = .ok () s') : FamiliesAt s'.RING q f := by
  have key : ∀ k o, (q.1 ++ q.2)[k]? = some o → setpoint s'.RING o false 1 = coef (familySetpoints q f) k * nominalQuad s'.RING o := by
    intro k o hk
    have hl : LastAt (q.1 ++ q.2) k o := by
      refine ⟨hk, fun j hj hj2 => ?_⟩
      obtain ⟨hk1, hk2⟩ := List.getElem?_eq_some_iff.1 hk
      obtain ⟨hj1, hj3⟩ := List.getElem?_eq_some_iff.1 hj2
      have := (hnd.getElem_inj_iff (hi := hk1) (hj := hj1)).1 (hk2.trans hj3.symm)
      omega
    rw [setMagnetSetpoints_setpoint h hl, if_neg (by simp), (scanSet_ok h).nominal]
    have hlen : (familySetpoints q f).length ≠ 1 := by simpa [familySetpoints] using hne
    simp only [magnetAsked, asked, valueFor, if_neg hlen, if_true]
    rfl
  constructor
  · intro o ho
    obtain ⟨k, hk1, hk⟩ := List.mem_iff_getElem.1 ho
    rw [key k o (by rw [List.getElem?_append_left hk1, List.getElem?_eq_getElem hk1, hk])]
    congr 1
    simp [coef, familySetpoints, List.getD_eq_getElem?_getD, List.getElem?_append_left, hk1]
  · intro o ho
    obtain ⟨k, hk1, hk⟩ := List.mem_iff_getElem.1 ho
    rw [key (q.1.length + k) o (by rw [List.getElem?_append_right (by omega)]; simp [hk1, hk])]
    congr 1
    simp [coef, familySetpoints, List.getD_eq_getElem?_getD, List.getElem?_append_right, hk1]

theorem Spec.FamiliesAt.draw {q : List Nat × List Nat} {f : K × K} {s s' : SC K} (h : FamiliesAt s.RING q f) (hr : OnlyRng s s') :
    FamiliesAt s'.RING q f := by
  rw [hr.1]; exact h

theorem getLastD_eq_coef (l : List K) : l.getLastD 0 = coef l (l.length - 1) := by
  rw [coef, List.getD_eq_getElem?_getD, ← List.getLast?_eq_getElem?, List.getLastD_eq_getLast?]

/-- what the scan leaves behind -/
theorem scanLoop_ok {E : Env K} {B : BeamEnv K} {q : List Nat × List Nat} {rel : List K × List K} {target : K} {np nt : Nat}
    {fullScan : Bool} {s0 : SC K} (hnd : (q.1 ++ q.2).Nodup) (hne : (q.1 ++ q.2).length ≠ 1) :
    ∀ {inds : List (Nat × Nat)} {results : List (ScanPoint K)} {s s' : SC K} {out : Option (K × K) × List (ScanPoint K)},
      OnlyQuads q s0 s → scanLoop E B q rel target np nt fullScan inds results s = .ok out s' →
      OnlyQuads q s0 s' ∧ ∃ new, out.2 = results ++ new ∧ (∀ p ∈ new, Measured E B q rel np nt s0 p) ∧
        match out.1 with
        | none => new.map ScanPoint.ind = inds ∧ (fullScan = true ∨ ∀ p ∈ new, transmitted p < target)
        | some f => FamiliesAt s'.RING q f ∧ fullScan = false ∧ new.map ScanPoint.ind <+: inds ∧
            ∃ pre p, new = pre ++ [p] ∧ factorsAt rel p.ind f ∧ target ≤ transmitted p ∧ ∀ x ∈ pre, transmitted x < target := by
  intro inds
  induction inds with
  | nil =>
    intro results s s' out hs h
    cases h
    exact ⟨hs, [], by simp, by simp, by simp⟩
  | cons i l ih =>
    intro results s s' out hs h
    unfold scanLoop at h
    rw [bindLift_eq_ok] at h; obtain ⟨f1, hf1, h⟩ := h
    rw [bindLift_eq_ok] at h; obtain ⟨f2, hf2, h⟩ := h
    rw [idx_eq_ok] at hf1 hf2
    rw [bind_eq_ok] at h; obtain ⟨_, s1, h1, h⟩ := h
    rw [bind_eq_ok] at h; obtain ⟨t, s2, h2, h⟩ := h
    rw [bindLift_eq_ok] at h; obtain ⟨g1, hg1, h⟩ := h
    rw [bindLift_eq_ok] at h; obtain ⟨g2, hg2, h⟩ := h
    rw [bind_eq_ok] at h; obtain ⟨_, s3, h3, h⟩ := h
    have o1 := hs.trans (scanSet_ok h1)
    have o2 := o1.trans ((beamTransmission_onlyRng E B _ _).ok h2).onlyQuads
    have o3 := o2.trans (scanSet_ok h3)
    have hm : Measured E B q rel np nt s0 ⟨i, t.1, t.2⟩ :=
      ⟨(f1, f2), s1, s2, ⟨hf1, hf2⟩, o1, scanSet_families hnd hne h1, h2⟩
    by_cases hc : (!fullScan && decide (target ≤ t.2.getLastD 0)) = true
    · rw [if_pos hc] at h
      rw [bind_eq_ok] at h; obtain ⟨_, s4, h4, h⟩ := h
      cases h
      simp only [Bool.and_eq_true, Bool.not_eq_true', decide_eq_true_eq, getLastD_eq_coef] at hc
      refine ⟨o3.trans (scanSet_ok h4), [⟨i, t.1, t.2⟩], rfl, by simpa using hm, scanSet_families hnd hne h4, hc.1, ?_, [], _, rfl,
        ⟨hf1, hf2⟩, hc.2, by simp⟩
      simp
    · rw [if_neg hc] at h
      obtain ⟨o4, new, e, hall, hmatch⟩ := ih o3 h
      simp only [Bool.and_eq_true, Bool.not_eq_true', decide_eq_true_eq, getLastD_eq_coef] at hc
      refine ⟨o4, ⟨i, t.1, t.2⟩ :: new, by rw [e]; simp, ?_, ?_⟩
      · intro p hp
        rcases List.mem_cons.1 hp with rfl | hp
        · exact hm
        · exact hall p hp
      · cases hout : out.1 with
        | none =>
          simp only [hout] at hmatch
          refine ⟨by simp [hmatch.1], ?_⟩
          cases fullScan with
          | true => exact Or.inl rfl
          | false =>
            refine Or.inr (fun p hp => ?_)
            rcases List.mem_cons.1 hp with rfl | hp
            · exact not_le.1 (fun h => hc ⟨rfl, h⟩)
            · rcases hmatch.2 with h | h
              · cases h
              · exact h p hp
        | some f =>
          simp only [hout] at hmatch
          obtain ⟨hfam, hfull, hpre, pre, p, rfl, hfa, ht, hx⟩ := hmatch
          refine ⟨hfam, hfull, ?_, ⟨i, t.1, t.2⟩ :: pre, p, rfl, hfa, ht, ?_⟩
          · simpa using hpre
          · intro x hxm
            rcases List.mem_cons.1 hxm with rfl | hxm
            · exact not_le.1 (fun h => hc ⟨hfull, h⟩)
            · exact hx x hxm

theorem scanLoop_writes {E : Env K} {B : BeamEnv K} {q : List Nat × List Nat} {rel : List K × List K} {target : K} {np nt : Nat}
    {fullScan : Bool} (inds : List (Nat × Nat)) (results : List (ScanPoint K)) :
    Rel (DrawFrame (scanWrites q)) (scanLoop E B q rel target np nt fullScan inds results) := by
  induction inds generalizing results with
  | nil => exact Rels.pure _
  | cons i l ih =>
    unfold scanLoop
    refine Rels.bind (Rels.lift _) (fun f1 => Rels.bind (Rels.lift _) (fun f2 => Rels.bind scanSet_writes (fun _ =>
      Rels.bind (Rel.mono (fun _ _ h => OnlyRng.drawFrame h) (beamTransmission_onlyRng E B _ _)) (fun t => ?_))))
    refine Rels.bind (Rels.lift _) (fun g1 => Rels.bind (Rels.lift _) (fun g2 => Rels.bind scanSet_writes (fun _ => ?_)))
    split
    · exact Rels.bind scanSet_writes (fun _ => Rels.pure _)
    · exact ih _

theorem lastAt_eq_some {results : List (ScanPoint K)} {ind : Nat × Nat} {p : ScanPoint K} (h : lastAt results ind = some p) :
    p.ind = ind ∧ Latest results p := by
  unfold lastAt at h
  rw [List.find?_eq_some_iff_append] at h
  obtain ⟨h1, as, bs, h2, h3⟩ := h
  simp only [decide_eq_true_eq] at h1
  refine ⟨h1, bs.reverse, as.reverse, ?_, ?_⟩
  · have := congrArg List.reverse h2
    simpa using this
  · intro x hx hxi
    have := h3 x (List.mem_reverse.1 hx)
    simp [hxi, h1] at this

theorem lastAt_of_latest {results : List (ScanPoint K)} {p : ScanPoint K} (h : Latest results p) : lastAt results p.ind = some p := by
  obtain ⟨a, b, rfl, hb⟩ := h
  unfold lastAt
  rw [List.find?_eq_some_iff_append]
  refine ⟨by simp, b.reverse, a.reverse, by simp, ?_⟩
  intro x hx
  simpa using hb x (List.mem_reverse.1 hx)

theorem argmaxFirst_spec (l : List K) (hne : l ≠ []) : ∃ x, l[argmaxFirst l]? = some x ∧ ∀ y ∈ l, y ≤ x := by
  induction l with
  | nil => exact absurd rfl hne
  | cons a l ih =>
    unfold argmaxFirst
    split
    · rename_i h
      refine ⟨a, rfl, fun y hy => ?_⟩
      rcases List.mem_cons.1 hy with rfl | hy
      · exact le_rfl
      · simpa using List.all_eq_true.1 h y hy
    · rename_i h
      have hne' : l ≠ [] := by rintro rfl; simp at h
      obtain ⟨x, hx, hm⟩ := ih hne'
      refine ⟨x, by simpa using hx, fun y hy => ?_⟩
      rcases List.mem_cons.1 hy with rfl | hy
      · simp only [List.all_eq_true, decide_eq_true_eq, not_forall] at h
        obtain ⟨z, hz, hlt⟩ := h
        exact (not_le.1 hlt).le.trans (hm z hz)
      · exact hm y hy

end PySC
