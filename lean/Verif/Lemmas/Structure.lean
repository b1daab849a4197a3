import Verif.Spec.History
import Verif.Lemmas.Magnets
import Verif.Lemmas.History
/-
Lemmas for `verify_structure`.
-/
namespace PySC
set_option linter.unusedSectionVars false
variable {K : Type} [Field K] [LinearOrder K] [FloorRing K]
open Py Spec

/-- a check which raises ValueError exactly if `bad` -/
def Verdict (bad : Prop) (e : Except Err Unit) : Prop := (e = .ok () ∧ ¬ bad) ∨ (e = .error .valueError ∧ bad)

/-- a check whose success excludes `bad` -/
def Excludes (bad : Prop) (e : Except Err Unit) : Prop := e = .ok () → ¬ bad

theorem Verdict.bind {p q : Prop} {a b : Except Err Unit} (h1 : Verdict p a) (h2 : Verdict q b) :
    Verdict (p ∨ q) (a >>= fun _ => b) := by
  rcases h1 with ⟨rfl, h1⟩ | ⟨rfl, h1⟩
  · rcases h2 with ⟨rfl, h2⟩ | ⟨rfl, h2⟩
    · exact Or.inl ⟨rfl, fun h => h.elim h1 h2⟩
    · exact Or.inr ⟨rfl, Or.inr h2⟩
  · exact Or.inr ⟨rfl, Or.inl h1⟩

theorem Excludes.bind {p q : Prop} {a b : Except Err Unit} (h1 : Excludes p a) (h2 : Excludes q b) :
    Excludes (p ∨ q) (a >>= fun _ => b) := by
  intro h
  rw [Except.bind_eq_ok'] at h
  obtain ⟨⟨⟩, ha, hb⟩ := h
  exact fun h => h.elim (h1 ha) (h2 hb)

theorem Verdict.forM {α : Type} {l : List α} {p : α → Prop} {f : α → Except Err Unit} (h : ∀ x ∈ l, Verdict (p x) (f x)) :
    Verdict (∃ x ∈ l, p x) (l.forM f) := by
  induction l with
  | nil => exact Or.inl ⟨rfl, by simp⟩
  | cons x xs ih =>
    have := (h x (by simp)).bind (ih (fun y hy => h y (by simp [hy])))
    simpa [List.forM_cons] using this

theorem Excludes.forM {α : Type} {l : List α} {p : α → Prop} {f : α → Except Err Unit} (h : ∀ x ∈ l, Excludes (p x) (f x)) :
    Excludes (∃ x ∈ l, p x) (l.forM f) := by
  induction l with
  | nil => intro _; simp
  | cons x xs ih =>
    have := (h x (by simp)).bind (ih (fun y hy => h y (by simp [hy])))
    simpa [List.forM_cons] using this

theorem Verdict.iff {p q : Prop} {e : Except Err Unit} (h : Verdict p e) (hpq : p ↔ q) : Verdict q e := by rwa [← hpq]
theorem Excludes.iff {p q : Prop} {e : Except Err Unit} (h : Excludes p e) (hpq : p ↔ q) : Excludes q e := by rwa [← hpq]
theorem Excludes.none {e : Except Err Unit} : Excludes False e := fun _ h => h

theorem verdict_require {c : Bool} : Verdict (c = false) (require c) := by
  cases c
  · exact Or.inr ⟨rfl, rfl⟩
  · exact Or.inl ⟨rfl, by simp⟩

theorem excludes_require {c : Bool} : Excludes (c = false) (require c) := by
  cases c
  · intro h; cases h
  · intro _; simp

theorem excludes_length {r : Ring K} {i : Nat} {a b : String} : Excludes (LengthsDiffer r i a b) (requireSameLength r i a b) := by
  intro h
  unfold requireSameLength require at h
  simp only [Except.bind_eq_ok', Ring.getVec_eq_ok] at h
  obtain ⟨v, hv, w, hw, h⟩ := h
  rintro ⟨v', w', hv', hw', hn⟩
  rw [hv] at hv'; rw [hw] at hw'
  cases hv'; cases hw'
  simp [hn] at h

theorem verdict_length {r : Ring K} {i : Nat} {a b : String} (ha : HasVec r i a) (hb : HasVec r i b) :
    Verdict (LengthsDiffer r i a b) (requireSameLength r i a b) := by
  obtain ⟨v, hv⟩ := ha
  obtain ⟨w, hw⟩ := hb
  have h : requireSameLength r i a b = require (decide (v.length = w.length)) := by
    unfold requireSameLength
    rw [Ring.getVec_eq_ok.2 hv, Ring.getVec_eq_ok.2 hw]; rfl
  rw [h]
  refine verdict_require.iff ?_
  rw [decide_eq_false_iff_not]
  refine ⟨fun h => ⟨v, w, hv, hw, h⟩, ?_⟩
  rintro ⟨v', w', hv', hw', hn⟩
  rw [hv] at hv'; rw [hw] at hw'
  cases hv'; cases hw'
  exact hn

theorem fine_limit {r : Ring K} {i k : Nat} (h : ∃ l, r.attr i "CMlimit" = some (.lims l) ∧ k < l.length) :
    Verdict False (verifyLimit r k i) := by
  obtain ⟨l, hl, hk⟩ := h
  left
  refine ⟨?_, id⟩
  unfold verifyLimit
  rw [Ring.getA_eq_ok.2 hl]
  show (Attr.toLims (.lims l) >>= fun ls => idx ls k >>= fun _ => Except.ok ()) = _
  simp only [Attr.toLims]
  show (idx l k >>= fun _ => Except.ok ()) = _
  rw [show idx l k = .ok l[k] from by unfold idx; rw [List.getElem?_eq_getElem hk]]
  rfl

theorem excludes_offsets {r : Ring K} {i : Nat} :
    Excludes (LengthsDiffer r i "PolynomBOffset" "PolynomAOffset") (verifyOffsets r i) := by
  intro h
  unfold verifyOffsets at h
  rw [Except.bind_eq_ok'] at h
  obtain ⟨b, hb, h⟩ := h
  rw [Ring.hasA_eq_ok] at hb
  cases b with
  | true => exact excludes_length h
  | false =>
    rintro ⟨v, w, hv, -⟩
    rw [hv] at hb
    exact absurd hb.2 (by simp)

theorem verdict_offsets {r : Ring K} {i : Nat} (hi : i < r.length) (h : r.attr i "PolynomBOffset" = none ∨
    (HasVec r i "PolynomBOffset" ∧ HasVec r i "PolynomAOffset")) :
    Verdict (LengthsDiffer r i "PolynomBOffset" "PolynomAOffset") (verifyOffsets r i) := by
  unfold verifyOffsets
  rcases h with h | ⟨h1, h2⟩
  · rw [(Ring.hasA_eq_ok (c := false)).2 ⟨hi, by rw [h]; rfl⟩]
    left
    refine ⟨rfl, ?_⟩
    rintro ⟨v, w, hv, -⟩
    rw [h] at hv; cases hv
  · have hh := h1
    obtain ⟨v, hv⟩ := hh
    rw [(Ring.hasA_eq_ok (c := true)).2 ⟨hi, by rw [hv]; rfl⟩]
    exact verdict_length h1 h2

/-- a combined function magnet without bending angle -/
def CombinedWithoutAngle (r : Ring K) (i : Nat) : Prop :=
  r.attr i "CombinedFunction" = some (.flag true) ∧ r.attr i "BendingAngle" = none

theorem isCombinedFunction_of {r : Ring K} {i : Nat} (hi : i < r.length) :
    (r.attr i "CombinedFunction" = none → isCombinedFunction r i = .ok false) ∧
    ∀ b, r.attr i "CombinedFunction" = some (.flag b) → isCombinedFunction r i = .ok b := by
  unfold isCombinedFunction
  constructor
  · intro h
    rw [(Ring.hasA_eq_ok (c := false)).2 ⟨hi, by rw [h]; rfl⟩]; rfl
  · intro b h
    rw [(Ring.hasA_eq_ok (c := true)).2 ⟨hi, by rw [h]; rfl⟩]
    show (r.getA i "CombinedFunction" >>= fun v => v.toFlag) = _
    rw [Ring.getA_eq_ok.2 h]; rfl

theorem excludes_combined {r : Ring K} {i : Nat} : Excludes (CombinedWithoutAngle r i) (verifyCombined r i) := by
  intro h ⟨h1, h2⟩
  have hi : i < r.length := Ring.isSome_lt (by rw [h1]; rfl)
  unfold verifyCombined at h
  rw [(isCombinedFunction_of hi).2 true h1] at h
  simp only [Except.bind_eq_ok', if_true] at h
  obtain ⟨b, hb, h⟩ := h
  cases hb
  rw [if_pos rfl] at h
  rw [(Ring.hasA_eq_ok (c := false)).2 ⟨hi, by rw [h2]; rfl⟩] at h
  cases h

theorem verdict_combined {r : Ring K} {i : Nat} (hi : i < r.length) (h : r.attr i "CombinedFunction" = none ∨
    r.attr i "CombinedFunction" = some (.flag false) ∨
    (r.attr i "CombinedFunction" = some (.flag true) ∧ ∃ v, r.attr i "NomPolynomB" = some (.vec v) ∧ 1 < v.length)) :
    Verdict (CombinedWithoutAngle r i) (verifyCombined r i) := by
  unfold verifyCombined
  rcases h with h | h | ⟨h, v, hv, hl⟩
  · rw [(isCombinedFunction_of hi).1 h]
    exact Or.inl ⟨rfl, fun hh => by rw [hh.1] at h; cases h⟩
  · rw [(isCombinedFunction_of hi).2 _ h]
    exact Or.inl ⟨rfl, fun hh => by rw [hh.1] at h; cases h⟩
  · rw [(isCombinedFunction_of hi).2 _ h]
    cases hb : r.attr i "BendingAngle" with
    | none =>
      right
      refine ⟨?_, h, hb⟩
      show (r.hasA i "BendingAngle" >>= fun x => require x >>= fun _ => r.getVecAt i "NomPolynomB" 1 >>= fun _ => Except.ok ()) = _
      rw [(Ring.hasA_eq_ok (c := false)).2 ⟨hi, by rw [hb]; rfl⟩]; rfl
    | some w =>
      left
      refine ⟨?_, fun hh => by rw [hh.2] at hb; cases hb⟩
      show (r.hasA i "BendingAngle" >>= fun x => require x >>= fun _ => r.getVecAt i "NomPolynomB" 1 >>= fun _ => Except.ok ()) = _
      rw [(Ring.hasA_eq_ok (c := true)).2 ⟨hi, by rw [hb]; rfl⟩]
      show (r.getVecAt i "NomPolynomB" 1 >>= fun _ => Except.ok ()) = _
      unfold Ring.getVecAt
      rw [Ring.getVec_eq_ok.2 hv]
      show ((idx v 1) >>= fun _ => Except.ok ()) = _
      rw [show idx v 1 = .ok v[1] from by unfold idx; rw [List.getElem?_eq_getElem hl]]
      rfl

theorem fine_entry {d : Dict Nat (Dict String (Attr K))} {i : Nat} (h : i ∈ d.keys) : Verdict False (verifyEntry d i) := by
  unfold verifyEntry
  rw [if_pos (Dict.has_iff.2 h)]
  exact Or.inl ⟨rfl, id⟩

theorem fine_children {r : Ring K} {i : Nat} (hi : i < r.length) (h : r.attr i "MasterOf" = none ∨
    ∃ l, r.attr i "MasterOf" = some (.ords l) ∧ ∀ c ∈ l, c < r.length) : Verdict False (verifyChildren r i) := by
  unfold verifyChildren childrenOf
  rcases h with h | ⟨l, hl, hc⟩
  · rw [(Ring.hasA_eq_ok (c := false)).2 ⟨hi, by rw [h]; rfl⟩]
    exact Or.inl ⟨rfl, id⟩
  · rw [(Ring.hasA_eq_ok (c := true)).2 ⟨hi, by rw [hl]; rfl⟩]
    show Verdict False ((r.getA i "MasterOf" >>= fun m => m.toOrds) >>= fun ch => _)
    rw [Ring.getA_eq_ok.2 hl]
    refine (Verdict.forM (l := l) (p := fun _ => False) (fun c hcl => ?_)).iff (by simp)
    rw [if_pos (hc c hcl)]
    exact Or.inl ⟨rfl, id⟩

/-- what is wrong with one magnet -/
def MagnetWrong (s : SC K) (i : Nat) : Prop :=
  LengthsDiffer s.RING i "PolynomB" "PolynomA" ∨ LengthsDiffer s.RING i "SetPointB" "CalErrorB" ∨
  LengthsDiffer s.RING i "SetPointA" "CalErrorA" ∨ LengthsDiffer s.RING i "PolynomBOffset" "PolynomAOffset" ∨
  CombinedWithoutAngle s.RING i ∨ False ∨ False

theorem excludes_magnet {s : SC K} {i : Nat} : Excludes (MagnetWrong s i) (verifyMagnet s i) :=
  excludes_length.bind (excludes_length.bind (excludes_length.bind (excludes_offsets.bind (excludes_combined.bind
    (Excludes.none.bind Excludes.none)))))

theorem verdict_magnet {s : SC K} {i : Nat} (hw : WellFormed s) (hi : i ∈ s.ORD.Magnet) : Verdict (MagnetWrong s i) (verifyMagnet s i) := by
  have ha := hw.arrays i hi
  obtain ⟨v, hv⟩ := ha "PolynomA" (by simp)
  have hl : i < s.RING.length := Ring.isSome_lt (by rw [hv]; rfl)
  exact (verdict_length (ha _ (by simp)) (ha _ (by simp))).bind ((verdict_length (ha _ (by simp)) (ha _ (by simp))).bind
    ((verdict_length (ha _ (by simp)) (ha _ (by simp))).bind ((verdict_offsets hl (hw.offsets i hi)).bind
      ((verdict_combined hl (hw.combined i hi)).bind ((fine_entry (hw.magnetEntry i hi)).bind (fine_children hl (hw.children i hi)))))))

theorem fine_rf {s : SC K} {i : Nat} (hw : WellFormed s) (hi : i ∈ s.ORD.RF) : Verdict False (do
    verifyEntry s.SIG.RF i
    if i < s.RING.length then .ok () else
      if (((s.SIG.RF.get? i).getD []).isEmpty) then .ok () else .error .indexError) := by
  obtain ⟨h1, h2⟩ := hw.rfEntry i hi
  refine ((fine_entry h1).bind (q := False) ?_).iff (by simp)
  rw [if_pos h2]
  exact Or.inl ⟨rfl, id⟩

/-- the conditions in the order of the code -/
def AllWrong (s : SC K) : Prop :=
  ((!(s.ORD.Girder.isEmpty && !(s.ORD.Plinth.isEmpty && s.ORD.Section.isEmpty))) = false) ∨
  (∃ i ∈ s.ORD.HCM, False) ∨ (∃ i ∈ s.ORD.VCM, False) ∨ (∃ i ∈ s.ORD.Magnet, MagnetWrong s i) ∨ (∃ i ∈ s.ORD.RF, False) ∨
  ((decide (s.INJ.beamSize.length = 6) && s.INJ.beamSize.all (fun row => decide (row.length = 6))) = false) ∨
  (decide (s.SIG.randomInjectionZ.length = 6) = false) ∨ (decide (s.SIG.staticInjectionZ.length = 6) = false)

theorem allWrong_iff {s : SC K} : AllWrong s ↔ Inconsistent s := by
  unfold AllWrong MagnetWrong CombinedWithoutAngle
  constructor
  · rintro (h | ⟨_, _, h⟩ | ⟨_, _, h⟩ | ⟨i, hi, h | h | h | h | ⟨h, h'⟩ | h | h⟩ | ⟨_, _, h⟩ | h | h | h)
    · simp only [Bool.not_eq_false', Bool.and_eq_true, List.isEmpty_iff, Bool.not_eq_true', Bool.and_eq_false_iff,
        List.isEmpty_eq_false_iff] at h
      exact .noGirders h.1 h.2
    · exact h.elim
    · exact h.elim
    · exact .polynoms i hi h
    · exact .calErrorB i hi h
    · exact .calErrorA i hi h
    · exact .offsets i hi h
    · exact .combined i hi h h'
    · exact h.elim
    · exact h.elim
    · exact h.elim
    · refine .beamSize (fun hh => ?_)
      have : (decide (s.INJ.beamSize.length = 6) && s.INJ.beamSize.all (fun row => decide (row.length = 6))) = true := by
        simp only [Bool.and_eq_true, decide_eq_true_eq, List.all_eq_true]; exact hh
      rw [this] at h; cases h
    · exact .randomInjection (by simpa using h)
    · exact .staticInjection (by simpa using h)
  · intro h
    cases h with
    | noGirders h h' =>
      left
      simp only [Bool.not_eq_false', Bool.and_eq_true, List.isEmpty_iff, Bool.not_eq_true', Bool.and_eq_false_iff,
        List.isEmpty_eq_false_iff]
      exact ⟨h, h'⟩
    | polynoms i hi h => exact Or.inr (Or.inr (Or.inr (Or.inl ⟨i, hi, Or.inl h⟩)))
    | calErrorB i hi h => exact Or.inr (Or.inr (Or.inr (Or.inl ⟨i, hi, Or.inr (Or.inl h)⟩)))
    | calErrorA i hi h => exact Or.inr (Or.inr (Or.inr (Or.inl ⟨i, hi, Or.inr (Or.inr (Or.inl h))⟩)))
    | offsets i hi h => exact Or.inr (Or.inr (Or.inr (Or.inl ⟨i, hi, Or.inr (Or.inr (Or.inr (Or.inl h)))⟩)))
    | combined i hi h h' =>
      exact Or.inr (Or.inr (Or.inr (Or.inl ⟨i, hi, Or.inr (Or.inr (Or.inr (Or.inr (Or.inl ⟨h, h'⟩))))⟩)))
    | beamSize h =>
      refine Or.inr (Or.inr (Or.inr (Or.inr (Or.inr (Or.inl ?_)))))
      rw [← Bool.not_eq_true]
      simp only [Bool.and_eq_true, decide_eq_true_eq, List.all_eq_true]
      exact h
    | randomInjection h => exact Or.inr (Or.inr (Or.inr (Or.inr (Or.inr (Or.inr (Or.inl (by simpa using h)))))))
    | staticInjection h => exact Or.inr (Or.inr (Or.inr (Or.inr (Or.inr (Or.inr (Or.inr (by simpa using h)))))))

theorem excludes_structure (s : SC K) : Excludes (Inconsistent s) (verifyStructure s) := by
  refine Excludes.iff (p := AllWrong s) ?_ allWrong_iff
  exact excludes_require.bind ((Excludes.forM (fun _ _ => Excludes.none)).bind ((Excludes.forM (fun _ _ => Excludes.none)).bind
    ((Excludes.forM (fun _ _ => excludes_magnet)).bind ((Excludes.forM (fun _ _ => Excludes.none)).bind
      (excludes_require.bind (excludes_require.bind excludes_require))))))

theorem verdict_structure {s : SC K} (hw : WellFormed s) : Verdict (Inconsistent s) (verifyStructure s) := by
  refine Verdict.iff (p := AllWrong s) ?_ allWrong_iff
  exact verdict_require.bind ((Verdict.forM (fun i hi => fine_limit (hw.hcm i hi))).bind
    ((Verdict.forM (fun i hi => fine_limit (hw.vcm i hi))).bind ((Verdict.forM (fun i hi => verdict_magnet hw hi)).bind
      ((Verdict.forM (fun i hi => fine_rf hw hi)).bind (verdict_require.bind (verdict_require.bind verdict_require))))))

end PySC
