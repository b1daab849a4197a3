import Verif.Spec.Search
import Verif.Lemmas.Orbit
import Verif.Lemmas.RequestsSet
/-
The kicks of correctors during a search for transmission.
-/
namespace PySC
set_option linter.unusedSectionVars false
variable {K : Type} [Field K] [LinearOrder K] [FloorRing K] [IsStrictOrderedRing K]
open Py Spec

theorem pointAfter_zero (ds : List (K × K)) : pointAfter ds 0 = (0, 0) := by simp [pointAfter]

theorem pointAfter_cons (d : K × K) (ds : List (K × K)) (k : Nat) (v : Bool) :
    inPlane v (pointAfter (d :: ds) (k + 1)) = inPlane v d + inPlane v (pointAfter ds k) := by
  cases v <;> simp [pointAfter, inPlane]

theorem clip_of_within {l : Lim K} {x : K} (hl : Lim.Nonneg l) (h : Within l x) : clip l x = x := by
  cases l with
  | inf => rfl
  | fin l =>
    simp only [Lim.Nonneg] at hl
    simp only [Within, abs_of_nonneg hl] at h
    obtain ⟨h1, h2⟩ := abs_le.1 h
    simp [clip, min_eq_left h2, max_eq_right h1]

section add
variable (sk : Bool) (d : K)

theorem setCM1_error {m : String} {b : Bool} {o : Nat} {x : K} {s s' : SC K} {e : Err} (h : setCM1 sk m b o x s = .error e s') : s' = s := by
  unfold setCM1 at h
  rw [bind_apply] at h
  cases hn : newCM s.RING sk m b o x with
  | error e =>
    have : rd (fun r => newCM r sk m b o x) s = .error e s := by unfold PySC.rd; simp only [hn]
    rw [this] at h
    simp only [Res.error.injEq] at h
    exact h.2.symm
  | ok w =>
    rw [rd_apply_ok hn] at h
    obtain ⟨v, hv, -⟩ := newCM_spec hn
    have : setAttr o ("SetPoint" ++ letter sk) (.vec w) s = .ok () _ := setAttr_eq_ok.2 ⟨Ring.attr_some_lt hv, rfl⟩
    simp only [this] at h
    cases h

/-- limits and the other plane during the loop -/
theorem addLoop (l : List (Nat × K)) (hd : ∀ p ∈ l, p.2 = d) (hn : (l.map Prod.fst).Nodup) (s : SC K) (i : Nat)
    (hl : i ∈ l.map Prod.fst → Lim.Nonneg (kickLimit s.RING i sk)) :
    kick (forEach l (fun p => setCM1 sk "add" false p.1 p.2) s).state.RING i sk = kick s.RING i sk ∨
    i ∈ l.map Prod.fst ∧ kick (forEach l (fun p => setCM1 sk "add" false p.1 p.2) s).state.RING i sk =
      clip (kickLimit s.RING i sk) (kick s.RING i sk + d) := by
  induction l generalizing s with
  | nil => exact Or.inl rfl
  | cons p l ih =>
    rw [List.map_cons, List.nodup_cons] at hn
    rw [forEach_cons, bind_apply]
    cases h : setCM1 sk "add" false p.1 p.2 s with
    | error e s' => rw [setCM1_error sk h]; exact Or.inl rfl
    | ok u s' =>
      have hk := setCM1_kick h i sk
      have hlim : kickLimit s'.RING i sk = kickLimit s.RING i sk := kickLimit_congr ((setCM1_modifies.ok h).attr _ _ (by
        rintro ⟨-, h⟩; exact ne_setPoint (by simp [spNames]) _ h))
      have := ih (fun q hq => hd q (List.mem_cons_of_mem _ hq)) hn.2 s' (fun hi => by
        rw [hlim]; exact hl (by simp only [List.map_cons, List.mem_cons]; exact Or.inr hi))
      simp only
      by_cases hi : i = p.1
      · subst hi
        rw [if_pos ⟨rfl, rfl⟩, nextKick_float (hl (by simp)), hd p (by simp)] at hk
        rcases this with h1 | ⟨h1, -⟩
        · right
          refine ⟨by simp, ?_⟩
          rw [h1, hk]
          simp [asked, add_comm]
        · exact (hn.1 h1).elim
      · rw [if_neg (fun h => hi h.1)] at hk
        rw [hk, hlim] at this
        exact this.imp id (fun h => ⟨by simp only [List.map_cons, List.mem_cons]; exact Or.inr h.1, h.2⟩)

variable {L : List Nat} (hn : L.Nodup) (s : SC K)
include hn

theorem zip_spread_mem {p : Nat × K} (hp : p ∈ L.zip (spread L.length [d])) : p.2 = d := by
  have := (List.of_mem_zip (a := p.1) (b := p.2) hp).2
  unfold spread at this
  simp only [List.length_singleton, if_true, List.mem_replicate] at this
  exact this.2

/-- whatever becomes of it, an added step changes a kick by this step or not at all -/
theorem addKick_any (hl : ∀ i ∈ L, Lim.Nonneg (kickLimit s.RING i sk)) (i : Nat) :
    kick (setCMSetpoints L ⟨false, [d]⟩ sk "add" s).state.RING i sk = kick s.RING i sk ∨
    i ∈ L ∧ kick (setCMSetpoints L ⟨false, [d]⟩ sk "add" s).state.RING i sk = clip (kickLimit s.RING i sk) (kick s.RING i sk + d) := by
  unfold setCMSetpoints
  rw [bind_apply]
  have hc : checkInput "add" L (⟨false, [d]⟩ : NpArr K) = .ok ⟨false, spread L.length [d]⟩ :=
    checkInput_ok ⟨by simp, Or.inl rfl⟩
  rw [hc]
  simp only [lift_ok_apply]
  have hfst : (L.zip (spread L.length [d])).map Prod.fst = L := map_fst_zip_spread (Or.inl rfl)
  have := addLoop sk d (L.zip (spread L.length [d])) (fun p hp => zip_spread_mem d hn hp) (by rw [hfst]; exact hn) s i (by rw [hfst]; exact hl i)
  rw [hfst] at this
  rw [bind_apply]
  cases h : forEach (L.zip (spread L.length [d])) (fun p => setCM1 sk "add" false p.1 p.2) s with
  | error e s' => rw [h] at this; exact this
  | ok u s' =>
    rw [h] at this
    simp only
    rw [updateMagnets_kick]
    exact this

theorem addKick_ok {s' : SC K} (h : setCMSetpoints L ⟨false, [d]⟩ sk "add" s = .ok () s') (hl : ∀ i ∈ L, Lim.Nonneg (kickLimit s.RING i sk))
    {i : Nat} (hi : i ∈ L) : kick s'.RING i sk = clip (kickLimit s.RING i sk) (kick s.RING i sk + d) := by
  obtain ⟨k, hk⟩ := List.mem_iff_getElem?.1 hi
  rw [setCMSetpoints_kick_distinct h hn hk, nextKick_float (hl i hi)]
  simp [asked, valueFor, coef, add_comm]

end add

theorem addKick_frame (L : List Nat) (sp : NpArr K) (sk : Bool) (m : String) (s : SC K) (i : Nat) :
    (∀ v, kickLimit (setCMSetpoints L sp sk m s).state.RING i v = kickLimit s.RING i v) ∧
    (∀ v, v ≠ sk ∨ i ∉ L → kick (setCMSetpoints L sp sk m s).state.RING i v = kick s.RING i v) := by
  have hf := setCMSetpoints_modifies L sp sk m s
  refine ⟨fun v => kickLimit_congr (hf.attr _ _ ?_), fun v hv => kick_congr (hf.attr _ _ ?_) (hf.attr _ _ ?_) (hf.attr _ _ ?_)⟩
  · rintro (⟨-, h⟩ | h)
    · exact ne_setPoint (by simp [spNames]) _ h
    · simp [magnetWrites] at h
  · rintro (⟨h1, h⟩ | h)
    · rcases hv with hv | hv
      · exact hv (plane_inj.1 h)
      · exact hv h1
    · revert h; cases v <;> simp [plane, magnetWrites]
  · rintro (⟨-, h⟩ | h)
    · exact ne_setPoint (by simp [spNames]) _ h
    · simp [magnetWrites] at h
  · rintro (⟨-, h⟩ | h)
    · exact ne_setPoint (by simp [spNames]) _ h
    · simp [magnetWrites] at h

theorem inject_ring (E : Env K) (B : BeamEnv K) (bpms : List Nat) (s : SC K) : (inject E B bpms s).state.RING = s.RING := by
  have := inject_onlyRng E B bpms s
  rw [this.1]

section loops
variable (E : Env K) (B : BeamEnv K) (bpms : List Nat) (limit : Nat) (h v : List Nat) (a : Nat → Bool → K)

/-- the kick of a corrector in a round, after the first `k` steps of `ds` and the way `c` before -/
def valueIn (c : K × K) (ds : List (K × K)) (k i : Nat) (vert : Bool) : K :=
  a i vert + if i ∈ inPlane vert (h, v) then inPlane vert c + inPlane vert (pointAfter ds k) else 0

theorem valueIn_cons (c d : K × K) (ds : List (K × K)) (k i : Nat) (vert : Bool) :
    valueIn h v a (c.1 + d.1, c.2 + d.2) ds k i vert = valueIn h v a c (d :: ds) (k + 1) i vert := by
  unfold valueIn
  rw [pointAfter_cons]
  congr 1
  cases vert <;> simp [inPlane, add_assoc]

theorem wiggleInner_kicks (hh : h.Nodup) (hv : v.Nodup) (ds : List (K × K)) (c : K × K) (hist : List (Log K)) (t : SC K)
    (ha : ∀ i vert, kick t.RING i vert = valueIn h v a c ds 0 i vert)
    (hroom : ∀ vert, ∀ i ∈ inPlane vert (h, v), Lim.Nonneg (kickLimit t.RING i vert) ∧
      ∀ k ≤ ds.length, Within (kickLimit t.RING i vert) (valueIn h v a c ds k i vert)) :
    (∀ i vert, ∃ k ≤ ds.length, kick (wiggleInner E B bpms limit h v ds hist t).state.RING i vert = valueIn h v a c ds k i vert) ∧
    ∀ b hist' t', wiggleInner E B bpms limit h v ds hist t = .ok (b, hist') t' → ∃ k ≤ ds.length, (b = false → k = ds.length) ∧
      (b = true → 0 < k) ∧ hist.length + k ≤ hist'.length ∧ ∀ i vert, kick t'.RING i vert = valueIn h v a c ds k i vert := by
  induction ds generalizing c hist t with
  | nil =>
    refine ⟨fun i vert => ⟨0, le_refl _, ha i vert⟩, fun b hist' t' hr => ?_⟩
    cases hr
    exact ⟨0, le_refl _, fun _ => rfl, fun hb => (by cases hb), le_refl _, ha⟩
  | cons d ds ih =>
    have one : ∀ i ∈ h, valueIn h v a c (d :: ds) 1 i false = kick t.RING i false + d.1 := by
      intro i hi
      rw [ha]
      unfold valueIn
      rw [if_pos (by exact hi), if_pos (by exact hi), pointAfter_cons, pointAfter_zero, pointAfter_zero]
      simp [inPlane, add_assoc]
    have one' : ∀ i ∈ v, valueIn h v a c (d :: ds) 1 i true = kick t.RING i true + d.2 := by
      intro i hi
      rw [ha]
      unfold valueIn
      rw [if_pos (by exact hi), if_pos (by exact hi), pointAfter_cons, pointAfter_zero, pointAfter_zero]
      simp [inPlane, add_assoc]
    have out : ∀ i vert, i ∉ inPlane vert (h, v) → ∀ k, valueIn h v a c (d :: ds) k i vert = kick t.RING i vert := by
      intro i vert hi k
      rw [ha]
      unfold valueIn
      rw [if_neg hi, if_neg hi]
    have n1 : ∀ i ∈ h, Lim.Nonneg (kickLimit t.RING i false) := fun i hi => (hroom false i hi).1
    have n2 : ∀ i ∈ v, Lim.Nonneg (kickLimit t.RING i true) := fun i hi => (hroom true i hi).1
    have c1 : ∀ i ∈ h, clip (kickLimit t.RING i false) (kick t.RING i false + d.1) = valueIn h v a c (d :: ds) 1 i false := by
      intro i hi
      rw [← one i hi, clip_of_within (n1 i hi) ((hroom false i hi).2 1 (by simp))]
    have c2 : ∀ i ∈ v, clip (kickLimit t.RING i true) (kick t.RING i true + d.2) = valueIn h v a c (d :: ds) 1 i true := by
      intro i hi
      rw [← one' i hi, clip_of_within (n2 i hi) ((hroom true i hi).2 1 (by simp))]
    unfold wiggleInner
    rw [bind_apply]
    have f1 := addKick_frame h ⟨false, [d.1]⟩ false "add" t
    have g1 := addKick_any false d.1 hh t n1
    cases h1 : setCMSetpoints h ⟨false, [d.1]⟩ false "add" t with
    | error e t1 =>
      rw [h1] at g1 f1
      simp only [Res.state] at g1 f1
      refine ⟨fun i vert => ?_, fun b hist' t' hr => by cases hr⟩
      cases vert with
      | true => exact ⟨0, by simp, by show kick t1.RING i true = _; rw [(f1 i).2 true (Or.inl (by simp)), ha]⟩
      | false =>
        rcases g1 i with g | ⟨g, g'⟩
        · exact ⟨0, by simp, by show kick t1.RING i false = _; rw [g, ha]⟩
        · exact ⟨1, by simp, by show kick t1.RING i false = _; rw [g', c1 i g]⟩
    | ok u t1 =>
      have k1 := fun i => addKick_ok (i := i) false d.1 hh t h1 n1
      rw [h1] at f1
      simp only [Res.state] at f1
      have e1 : ∀ i, kick t1.RING i false = valueIn h v a c (d :: ds) 1 i false := by
        intro i
        by_cases hi : i ∈ h
        · rw [k1 i hi, c1 i hi]
        · rw [(f1 i).2 false (Or.inr hi), out i false hi]
      simp only
      rw [bind_apply]
      have f2 := addKick_frame v ⟨false, [d.2]⟩ true "add" t1
      have n2' : ∀ i ∈ v, Lim.Nonneg (kickLimit t1.RING i true) := fun i hi => by rw [(f1 i).1]; exact n2 i hi
      have g2 := addKick_any true d.2 hv t1 n2'
      have same : ∀ i, kick t1.RING i true = kick t.RING i true := fun i => (f1 i).2 true (Or.inl (by simp))
      cases h2 : setCMSetpoints v ⟨false, [d.2]⟩ true "add" t1 with
      | error e t2 =>
        rw [h2] at g2 f2
        simp only [Res.state] at g2 f2
        refine ⟨fun i vert => ?_, fun b hist' t' hr => by cases hr⟩
        cases vert with
        | false => exact ⟨1, by simp, by show kick t2.RING i false = _; rw [(f2 i).2 false (Or.inl (by simp)), e1]⟩
        | true =>
          rcases g2 i with g | ⟨g, g'⟩
          · exact ⟨0, by simp, by show kick t2.RING i true = _; rw [g, same, ha]⟩
          · exact ⟨1, by simp, by show kick t2.RING i true = _; rw [g', same, (f1 i).1, c2 i g]⟩
      | ok u' t2 =>
        have k2 := fun i => addKick_ok (i := i) true d.2 hv t1 h2 n2'
        rw [h2] at f2
        simp only [Res.state] at f2
        have e2 : ∀ i vert, kick t2.RING i vert = valueIn h v a c (d :: ds) 1 i vert := by
          intro i vert
          cases vert with
          | false => rw [(f2 i).2 false (Or.inl (by simp)), e1]
          | true =>
            by_cases hi : i ∈ v
            · rw [k2 i hi, same, (f1 i).1, c2 i hi]
            · rw [(f2 i).2 true (Or.inr hi), same, out i true hi]
        have lim2 : ∀ i vert, kickLimit t2.RING i vert = kickLimit t.RING i vert := fun i vert => by rw [(f2 i).1, (f1 i).1]
        have again : ∀ (hist1 : List (Log K)) (t3 : SC K), t3.RING = t2.RING → hist.length + 1 ≤ hist1.length →
            (∀ i vert, ∃ k ≤ (d :: ds).length, kick (wiggleInner E B bpms limit h v ds hist1 t3).state.RING i vert =
              valueIn h v a c (d :: ds) k i vert) ∧
            ∀ b hist' t', wiggleInner E B bpms limit h v ds hist1 t3 = .ok (b, hist') t' → ∃ k ≤ (d :: ds).length,
              (b = false → k = (d :: ds).length) ∧ (b = true → 0 < k) ∧ hist.length + k ≤ hist'.length ∧
              ∀ i vert, kick t'.RING i vert = valueIn h v a c (d :: ds) k i vert := by
          intro hist1 t3 hr hl
          obtain ⟨i1, i2⟩ := ih (c.1 + d.1, c.2 + d.2) hist1 t3 (fun i vert => by rw [hr, e2, valueIn_cons]) (fun vert i hi => by
            rw [hr, lim2]
            refine ⟨(hroom vert i hi).1, fun k hk => ?_⟩
            rw [valueIn_cons]
            exact (hroom vert i hi).2 (k + 1) (by simp only [List.length_cons]; omega))
          refine ⟨fun i vert => ?_, fun b hist' t' hr' => ?_⟩
          · obtain ⟨k, hk, e⟩ := i1 i vert
            exact ⟨k + 1, by simp only [List.length_cons]; omega, by rw [e, valueIn_cons]⟩
          · obtain ⟨k, hk, q1, -, q3, q4⟩ := i2 b hist' t' hr'
            exact ⟨k + 1, by simp only [List.length_cons]; omega, fun hb => by rw [q1 hb]; rfl, fun _ => by omega, by omega,
              fun i vert => by rw [q4, valueIn_cons]⟩
        simp only
        rw [bind_apply]
        have j3 := inject_ring E B bpms t2
        cases h3 : inject E B bpms t2 with
        | error e t3 =>
          rw [h3] at j3
          simp only [Res.state] at j3
          exact ⟨fun i vert => ⟨1, by simp, by show kick t3.RING i vert = _; rw [j3, e2]⟩, fun b hist' t' hr => by cases hr⟩
        | ok l t3 =>
          rw [h3] at j3
          simp only [Res.state] at j3
          simp only
          by_cases hlim : limit ≤ l.reached
          swap
          · rw [if_neg hlim]
            exact again _ _ j3 (by simp)
          · rw [if_pos hlim, bind_apply]
            have j4 := inject_ring E B bpms t3
            cases h4 : inject E B bpms t3 with
            | error e t4 =>
              rw [h4] at j4
              simp only [Res.state] at j4
              exact ⟨fun i vert => ⟨1, by simp, by show kick t4.RING i vert = _; rw [j4, j3, e2]⟩, fun b hist' t' hr => by cases hr⟩
            | ok l1 t4 =>
              rw [h4] at j4
              simp only [Res.state] at j4
              simp only
              rw [bind_apply]
              have j5 := inject_ring E B bpms t4
              cases h5 : inject E B bpms t4 with
              | error e t5 =>
                rw [h5] at j5
                simp only [Res.state] at j5
                exact ⟨fun i vert => ⟨1, by simp, by show kick t5.RING i vert = _; rw [j5, j4, j3, e2]⟩, fun b hist' t' hr => by cases hr⟩
              | ok l2 t5 =>
                rw [h5] at j5
                simp only [Res.state] at j5
                simp only
                split
                · refine ⟨fun i vert => ⟨1, by simp, by show kick t5.RING i vert = _; rw [j5, j4, j3, e2]⟩, fun b hist' t' hr => ?_⟩
                  cases hr
                  exact ⟨1, by simp, fun hb => (by cases hb), fun _ => (by omega), (by simp), fun i vert => by rw [j5, j4, j3, e2]⟩
                · exact again _ _ (by rw [j5, j4, j3]) (by simp)

end loops

section outer
variable (E : Env K) (B : BeamEnv K) (O : OrbitEnv K) (bpms : List Nat) (cms : CMs) (limit : Nat)

theorem lastN_sublist {α : Type} (n : Nat) (l : List α) : (lastN n l).Sublist l := by
  unfold lastN
  split
  · exact List.Sublist.refl _
  · exact List.drop_sublist _ _

theorem getLastCM_nodup {b : Int} {n : Nat} {l : List Nat} {r : List Nat × List Int} (h : getLastCM b n bpms l = .ok r) (hl : l.Nodup) :
    r.1.Nodup := by
  unfold getLastCM at h
  split at h
  · cases h; exact hl.sublist (lastN_sublist _ _)
  · obtain ⟨bo, -, h⟩ := Except.bind_eq_ok'.1 h
    simp only at h
    split at h
    · cases h
    · cases h
      have h1 : ((lastN n (l.zipIdx.filter (fun p => decide (p.1 ≤ bo)))).map Prod.fst).Sublist (l.zipIdx.map Prod.fst) :=
        ((lastN_sublist _ _).trans List.filter_sublist).map _
      rw [List.zipIdx_map_fst] at h1
      exact hl.sublist h1

theorem kickLimit_wiggleInner (h v : List Nat) (ds : List (K × K)) (hist : List (Log K)) (t : SC K) (i : Nat) (vert : Bool) :
    kickLimit (wiggleInner E B bpms limit h v ds hist t).state.RING i vert = kickLimit t.RING i vert := by
  have hf := wiggleInner_only (H := h) (V := v) (F := []) E B bpms limit h v (fun _ h => h) (fun _ h => h) ds hist t
  refine kickLimit_congr (hf.frame.attr _ _ ?_)
  simp [correctorWrites]

/-- what a finished number of rounds left -/
def AfterRounds (s : SC K) (ds : List (K × K)) (q : Nat) (t : SC K) : Prop :=
  (∀ i vert, kickLimit t.RING i vert = kickLimit s.RING i vert) ∧
  ∀ i vert, ∃ m ≤ q, kick t.RING i vert = kick s.RING i vert + m * inPlane vert (pointAfter ds ds.length)

theorem inPlane_zero (vert : Bool) : inPlane vert ((0 : K), (0 : K)) = 0 := by cases vert <;> rfl

theorem rounds_zero (ds : List (K × K)) (m : Nat) (vert : Bool) : rounds ds m 0 vert = m * inPlane vert (pointAfter ds ds.length) := by
  unfold rounds
  rw [pointAfter_zero, inPlane_zero, add_zero]

theorem rounds_full (ds : List (K × K)) (m : Nat) (vert : Bool) :
    rounds ds m ds.length vert = (m + 1 : Nat) * inPlane vert (pointAfter ds ds.length) := by
  unfold rounds
  push_cast
  ring

/-- a round started after `q` others -/
theorem round_kicks {s t : SC K} {q : Nat} (hq : q ≤ 7) (hroom : RoomFor s cms O.donut) (ht : AfterRounds s O.donut q t) {h v : List Nat}
    (hh : h.Nodup) (hv : v.Nodup) (sh : ∀ i ∈ h, i ∈ cms.1) (sv : ∀ i ∈ v, i ∈ cms.2) (hist : List (Log K)) :
    (∀ i vert, ∃ m ≤ q, ∃ k ≤ O.donut.length, kick (wiggleInner E B bpms limit h v O.donut hist t).state.RING i vert =
      kick s.RING i vert + rounds O.donut m k vert) ∧
    ∀ b hist' t', wiggleInner E B bpms limit h v O.donut hist t = .ok (b, hist') t' →
      (∃ k ≤ O.donut.length, hist.length + k ≤ hist'.length ∧ (b = true → 0 < k) ∧ (b = false → k = O.donut.length) ∧
        ∀ i vert, kick t'.RING i vert = kick t.RING i vert +
          if i ∈ inPlane vert (h, v) then inPlane vert (pointAfter O.donut k) else 0) ∧
      (b = false → AfterRounds s O.donut (q + 1) t') := by
  obtain ⟨hlim, hkick⟩ := ht
  have val : ∀ k i vert, valueIn h v (fun i vert => kick t.RING i vert) (0, 0) O.donut k i vert = kick t.RING i vert +
      if i ∈ inPlane vert (h, v) then inPlane vert (pointAfter O.donut k) else 0 := by
    intro k i vert
    unfold valueIn
    rw [inPlane_zero, zero_add]
  have hvk : ∀ k i vert, k ≤ O.donut.length → ∃ m ≤ q, ∃ k' ≤ O.donut.length, valueIn h v (fun i vert => kick t.RING i vert) (0, 0) O.donut k i vert =
      kick s.RING i vert + rounds O.donut m k' vert ∧ (k = O.donut.length → i ∈ inPlane vert (h, v) → k' = O.donut.length) ∧
      (i ∉ inPlane vert (h, v) → k' = 0) := by
    intro k i vert hk
    obtain ⟨m, hm, e⟩ := hkick i vert
    by_cases hi : i ∈ inPlane vert (h, v)
    · refine ⟨m, hm, k, hk, ?_, fun h _ => h, fun h => absurd hi h⟩
      rw [val, if_pos hi, e, rounds, add_assoc]
    · refine ⟨m, hm, 0, by omega, ?_, fun _ h => absurd h hi, fun _ => rfl⟩
      rw [val, if_neg hi, e, rounds_zero, add_zero]
  have main := wiggleInner_kicks E B bpms limit h v (fun i vert => kick t.RING i vert) hh hv O.donut (0, 0) hist t
    (fun i vert => by rw [val, pointAfter_zero, inPlane_zero]; simp) (fun vert i hi => by
      have hc : i ∈ inPlane vert cms := by
        cases vert with
        | false => exact sh i hi
        | true => exact sv i hi
      obtain ⟨r1, r2⟩ := hroom vert i hc
      rw [hlim]
      refine ⟨r1, fun k hk => ?_⟩
      obtain ⟨m, hm, k', hk', e, -⟩ := hvk k i vert hk
      rw [e]
      exact r2 m (by omega) k' hk')
  refine ⟨fun i vert => ?_, fun b hist' t' hr => ?_⟩
  · obtain ⟨k, hk, e⟩ := main.1 i vert
    obtain ⟨m, hm, k', hk', e', -⟩ := hvk k i vert hk
    exact ⟨m, hm, k', hk', by rw [e, e']⟩
  · obtain ⟨k, hk, q1, q2, q3, q4⟩ := main.2 b hist' t' hr
    refine ⟨⟨k, hk, q3, q2, q1, fun i vert => by rw [q4, val]⟩, fun hb => ⟨fun i vert => ?_, fun i vert => ?_⟩⟩
    · have := kickLimit_wiggleInner E B bpms limit h v O.donut hist t i vert
      rw [hr] at this
      rw [← hlim]
      exact this
    · obtain ⟨m, hm, k', hk', e', e1, e2⟩ := hvk k i vert hk
      by_cases hi : i ∈ inPlane vert (h, v)
      · refine ⟨m + 1, by omega, ?_⟩
        rw [q4, e', e1 (q1 hb) hi, rounds_full]
      · refine ⟨m, by omega, ?_⟩
        rw [q4, e', e2 hi, rounds_zero]

theorem wiggleOuter_kicks {s : SC K} (hH : cms.1.Nodup) (hV : cms.2.Nodup) (hroom : RoomFor s cms O.donut) (ns : List Nat) (q : Nat)
    (hq : q + ns.length ≤ 8) (hist : List (Log K)) (t : SC K) (ht : AfterRounds s O.donut q t) (i : Nat) (vert : Bool) :
    ∃ m ≤ 7, ∃ k ≤ O.donut.length, kick (wiggleOuter E B O bpms cms limit ns hist t).state.RING i vert =
      kick s.RING i vert + rounds O.donut m k vert := by
  have here : ∀ q t, q ≤ 8 → AfterRounds s O.donut q t → ∃ m ≤ 7, ∃ k ≤ O.donut.length, kick t.RING i vert =
      kick s.RING i vert + rounds O.donut m k vert := by
    intro q t hq ht
    obtain ⟨m, hm, e⟩ := ht.2 i vert
    rcases Nat.eq_zero_or_pos m with rfl | hp
    · exact ⟨0, by omega, 0, by omega, by rw [e, rounds_zero]⟩
    · refine ⟨m - 1, by omega, O.donut.length, le_refl _, ?_⟩
      rw [e, rounds_full, Nat.sub_add_cancel hp]
  induction ns generalizing q hist t with
  | nil =>
    have : (wiggleOuter E B O bpms cms limit [] hist t).state = t := by
      unfold wiggleOuter
      split <;> rfl
    rw [this]
    exact here q t (by simpa using hq) ht
  | cons n ns ih =>
    simp only [List.length_cons] at hq
    unfold wiggleOuter
    rw [bind_apply]
    cases h1 : getLastCM ((lastReached hist : Int) - 1) n bpms cms.1 with
    | error e => exact here q t (by omega) ht
    | ok h =>
      simp only [lift_ok_apply]
      rw [bind_apply]
      cases h2 : getLastCM ((lastReached hist : Int) - 1) n bpms cms.2 with
      | error e => exact here q t (by omega) ht
      | ok v =>
        simp only [lift_ok_apply]
        rw [bind_apply]
        obtain ⟨r1, r2⟩ := round_kicks E B O bpms cms limit (by omega : q ≤ 7) hroom ht (getLastCM_nodup bpms h1 hH) (getLastCM_nodup bpms h2 hV)
          (getLastCM_subset h1) (getLastCM_subset h2) hist
        cases h3 : wiggleInner E B bpms limit h.1 v.1 O.donut hist t with
        | error e t' =>
          rw [h3] at r1
          obtain ⟨m, hm, k, hk, e⟩ := r1 i vert
          exact ⟨m, by omega, k, hk, e⟩
        | ok r t' =>
          rw [h3] at r1
          obtain ⟨b, hist'⟩ := r
          cases b with
          | true =>
            obtain ⟨m, hm, k, hk, e⟩ := r1 i vert
            exact ⟨m, by omega, k, hk, e⟩
          | false => exact ih (q + 1) (by omega) hist' t' ((r2 _ _ _ h3).2 rfl)

theorem afterRounds_start (s : SC K) (ds : List (K × K)) {t : SC K} (h : t.RING = s.RING) : AfterRounds s ds 0 t :=
  ⟨fun _ _ => by rw [h], fun _ _ => ⟨0, le_refl _, by rw [h]; simp⟩⟩

theorem wiggling_kicks {s : SC K} (hH : cms.1.Nodup) (hV : cms.2.Nodup) (hroom : RoomFor s cms O.donut) (i : Nat) (vert : Bool) :
    ∃ m ≤ 7, ∃ k ≤ O.donut.length, kick (wiggling E B O bpms cms limit s).state.RING i vert =
      kick s.RING i vert + rounds O.donut m k vert := by
  unfold wiggling
  rw [bind_apply]
  have j := inject_ring E B bpms s
  cases h : inject E B bpms s with
  | error e t =>
    rw [h] at j
    refine ⟨0, by omega, 0, by omega, ?_⟩
    rw [rounds_zero]
    show kick t.RING i vert = _
    rw [show t.RING = s.RING from j]
    simp
  | ok l t =>
    rw [h] at j
    exact wiggleOuter_kicks E B O bpms cms limit hH hV hroom _ 0 (by simp) _ _ (afterRounds_start s _ j) i vert

/-- a search which ends early did not get beyond the first round -/
theorem wiggling_first {s s' : SC K} {r : List (Log K)} (hH : cms.1.Nodup) (hV : cms.2.Nodup) (hroom : RoomFor s cms O.donut)
    (h : wiggling E B O bpms cms limit s = .ok r s') (hr : r.length ≤ O.donut.length + 1) (hd : O.donut ≠ []) :
    ∃ k ≤ O.donut.length, ∀ i vert, kick s'.RING i vert = kick s.RING i vert ∨
      kick s'.RING i vert = kick s.RING i vert + inPlane vert (pointAfter O.donut k) := by
  have hpos : 0 < O.donut.length := List.length_pos_of_ne_nil hd
  -- later rounds need more readings
  have long : ∀ (ns : List Nat) (q : Nat), q + ns.length ≤ 8 → ∀ (hist : List (Log K)) (t : SC K), AfterRounds s O.donut q t →
      O.donut.length + 1 ≤ hist.length → ns ≠ [] → ∀ r s', wiggleOuter E B O bpms cms limit ns hist t = .ok r s' → O.donut.length + 1 < r.length := by
    intro ns
    induction ns with
    | nil => intro _ _ _ _ _ _ h; exact absurd rfl h
    | cons n ns ih =>
      intro q hq hist t ht hlen _ r s' h
      simp only [List.length_cons] at hq
      unfold wiggleOuter at h
      obtain ⟨x, h1, h⟩ := bindLift_eq_ok.1 h
      obtain ⟨y, h2, h⟩ := bindLift_eq_ok.1 h
      obtain ⟨⟨b, hist'⟩, t', h3, h⟩ := bind_eq_ok.1 h
      obtain ⟨-, r2⟩ := round_kicks E B O bpms cms limit (by omega : q ≤ 7) hroom ht (getLastCM_nodup bpms h1 hH) (getLastCM_nodup bpms h2 hV)
        (getLastCM_subset h1) (getLastCM_subset h2) hist
      obtain ⟨⟨k, hk, l1, l2, l3, -⟩, l4⟩ := r2 b hist' t' h3
      cases b with
      | true =>
        have := l2 rfl
        have e : hist' = r := by
          simp only [if_true] at h
          cases h; rfl
        rw [← e]
        omega
      | false =>
        have := l3 rfl
        simp only [Bool.false_eq_true, if_false] at h
        cases ns with
        | nil =>
          unfold wiggleOuter at h
          split at h
          · cases h; omega
          · cases h
        | cons n' ns' => exact ih (q + 1) (by simp only [List.length_cons] at hq ⊢; omega) hist' t' (l4 rfl) (by omega) (by simp) r s' h
  unfold wiggling at h
  obtain ⟨l, t, h0, h⟩ := bind_eq_ok.1 h
  have j := inject_ring E B bpms s
  rw [h0] at j
  have ht := afterRounds_start s O.donut (t := t) j
  unfold wiggleOuter at h
  obtain ⟨x, h1, h⟩ := bindLift_eq_ok.1 h
  obtain ⟨y, h2, h⟩ := bindLift_eq_ok.1 h
  obtain ⟨⟨b, hist'⟩, t', h3, h⟩ := bind_eq_ok.1 h
  obtain ⟨-, r2⟩ := round_kicks E B O bpms cms limit (by omega : 0 ≤ 7) hroom ht (getLastCM_nodup bpms h1 hH) (getLastCM_nodup bpms h2 hV)
    (getLastCM_subset h1) (getLastCM_subset h2) [l]
  obtain ⟨⟨k, hk, l1, l2, l3, l5⟩, l4⟩ := r2 b hist' t' h3
  cases b with
  | false =>
    have := l3 rfl
    simp only [Bool.false_eq_true, if_false] at h
    have := long _ 1 (by simp) hist' t' (l4 rfl) (by simp only [List.length_singleton] at l1; omega) (by simp) r s' h
    omega
  | true =>
    cases h
    refine ⟨k, hk, fun i vert => ?_⟩
    rw [l5, show t.RING = s.RING from j]
    split
    · exact Or.inr rfl
    · exact Or.inl (add_zero _)

end outer

end PySC
