import Verif.Lemmas.Response
set_option linter.unusedSectionVars false
namespace PySC
open Py Spec
variable {K : Type} [Field K] [LinearOrder K]

theorem stepFrequencies_eq_ok {d : K} {l : List Nat} (hnd : l.Nodup) {r r' : Ring K} (h : stepFrequencies d l r = .ok r') :
    Detuned r r' l d := by
  induction l generalizing r with
  | nil => cases h; exact ⟨rfl, by simp, fun _ _ _ => rfl⟩
  | cons c l ih =>
    rw [List.nodup_cons] at hnd
    simp only [stepFrequencies, Except.bind_eq_ok', Ring.getNum_eq_ok] at h
    obtain ⟨f, hf, h⟩ := h
    have hd := ih hnd.2 h
    have hlt := Ring.attr_some_lt hf
    refine ⟨by rw [hd.len]; simp, fun i hi => ?_, fun j a hj => ?_⟩
    · rcases List.mem_cons.1 hi with rfl | hi'
      · exact ⟨f, hf, by rw [hd.other _ _ (Or.inl hnd.1), Ring.attr_setAttr_same hlt]⟩
      · obtain ⟨g, hg, hg'⟩ := hd.cav i hi'
        rw [Ring.attr_setAttr_ne' (by rintro rfl; exact hnd.1 hi')] at hg
        exact ⟨g, hg, hg'⟩
    · rw [hd.other j a (hj.imp (fun h hh => h (List.mem_cons_of_mem _ hh)) id)]
      rcases hj with hj | hj
      · exact Ring.attr_setAttr_ne' (fun he => hj (he ▸ List.mem_cons_self))
      · exact Ring.attr_setAttr_ne hj

theorem stepFrequencies_total {d : K} {l : List Nat} {r : Ring K} (h : ∀ c ∈ l, ∃ f, r.attr c "Frequency" = some (.num f)) :
    ∃ r', stepFrequencies d l r = .ok r' := by
  induction l generalizing r with
  | nil => exact ⟨r, rfl⟩
  | cons c l ih =>
    obtain ⟨f, hf⟩ := h c List.mem_cons_self
    have hlt := Ring.attr_some_lt hf
    obtain ⟨r', hr'⟩ := ih (r := r.setAttr c "Frequency" (.num (f + d))) (fun c' hc' => by
      by_cases hcc : c' = c
      · subst hcc; exact ⟨_, Ring.attr_setAttr_same hlt⟩
      · rw [Ring.attr_setAttr_ne' hcc]; exact h c' (List.mem_cons_of_mem _ hc'))
    refine ⟨r', ?_⟩
    simp only [stepFrequencies, Except.bind_eq_ok', Ring.getNum_eq_ok]
    exact ⟨f, hf, hr'⟩

theorem kickModel_total {d : K} {skew : Bool} {r : Ring K} {cm : Nat} (h : CanKick r cm skew) : ∃ rr, kickModel d skew r cm = .ok rr := by
  obtain ⟨⟨p, hp⟩, ⟨v, hv, hk⟩, hl⟩ := h
  have hps : r.getStr cm "PassMethod" = .ok p := by
    rw [Ring.getStr_eq_ok]; exact hp
  unfold kickModel
  by_cases hc : p = "CorrectorPass"
  · have ht : thin r cm := by rw [thin, hp, hc]
    have hki : kickIndex r cm skew = if skew then 1 else 0 := by cases skew <;> simp [kickIndex, ht]
    have hka : kickAttr r cm skew = "KickAngle" := by simp [kickAttr, ht]
    rw [hka] at hv
    rw [hki] at hk
    have e1 : r.getVec cm "KickAngle" = .ok v := Ring.getVec_eq_ok.2 hv
    have e2 : idx v (if skew then 1 else 0) = .ok (v[if skew then 1 else 0]) := idx_eq_ok.2 (List.getElem?_eq_getElem hk)
    rw [hps]
    show ∃ rr, (if p = "CorrectorPass" then _ else _) = _
    rw [if_pos hc, e1]
    show ∃ rr, (idx v _ >>= _) = _
    rw [e2]
    exact ⟨_, rfl⟩
  · have ht : ¬ thin r cm := by rw [thin, hp]; simp [hc]
    have hki : kickIndex r cm skew = 0 := by simp [kickIndex, ht]
    have hka : kickAttr r cm skew = "Polynom" ++ plane skew := by simp [kickAttr, ht]
    rw [hka] at hv
    rw [hki] at hk
    obtain ⟨len, hlen, h0⟩ := hl ht
    have e1 : r.getVec cm ("Polynom" ++ letter skew) = .ok v := Ring.getVec_eq_ok.2 hv
    have e2 : idx v 0 = .ok v[0] := idx_eq_ok.2 (List.getElem?_eq_getElem hk)
    have e3 : r.getNum cm "Length" = .ok len := Ring.getNum_eq_ok.2 hlen
    have e4 : divE d len = .ok (d / len) := divE_eq_ok.2 ⟨h0, rfl⟩
    rw [hps]
    show ∃ rr, (if p = "CorrectorPass" then _ else _) = _
    rw [if_neg hc, e1, e3]
    show ∃ rr, (divE d len >>= _) = _
    rw [e4]
    show ∃ rr, (idx v _ >>= _) = _
    rw [e2]
    exact ⟨_, rfl⟩

theorem modelColumns_total {T : Ring K → List (Option K)} {d : K} (hd : d ≠ 0) {Ta : List (Option K)} {l : List (Bool × Nat)} {r : Ring K}
    (h : ∀ c ∈ l, CanKick r c.2 c.1) : ∃ cols, modelColumns T d Ta l r = .ok cols := by
  induction l with
  | nil => exact ⟨[], rfl⟩
  | cons c l ih =>
    obtain ⟨rr, hrr⟩ := kickModel_total (d := d) (h c List.mem_cons_self)
    obtain ⟨cs, hcs⟩ := ih (fun x hx => h x (List.mem_cons_of_mem _ hx))
    unfold modelColumns
    rw [hrr]
    show ∃ cols, (modelColumns T d Ta l rr.2 >>= _) = _
    rw [(kickModel_eq_ok hrr).2, hcs]
    show ∃ cols, (if d = 0 then _ else _) = _
    rw [if_neg hd]
    exact ⟨_, rfl⟩

theorem chooseModel_eq_ok {useIdeal : Bool} {s s' : SC K} {r : Ring K} (h : chooseModel useIdeal s = .ok r s') :
    (useIdeal = true → r = s.IDEALRING ∧ s' = s) ∧ (useIdeal = false → modelRing s = .ok r s') := by
  unfold chooseModel at h
  rw [bindGet_eq_ok] at h
  cases useIdeal with
  | true => rw [if_pos rfl] at h; cases h; simp
  | false => rw [if_neg (by simp)] at h; simp [h]

/-- all positions are known -/
theorem modelTrajectory_some {B : BeamEnv K} {mode : String} {Z0 : List K} {nt : Nat} {bpms : List Nat} {r : Ring K}
    (h : ∀ (vert : Bool) (t b ref : Nat), t < nt → bpms[b]? = some ref → (inPlane vert (position B mode Z0 r ref t)).isSome) :
    (modelTrajectory B mode Z0 nt bpms r).any Option.isNone = false := by
  rw [Bool.eq_false_iff]
  intro hc
  rw [List.any_eq_true] at hc
  obtain ⟨x, hx, hn⟩ := hc
  unfold modelTrajectory at hx
  rw [List.mem_append] at hx
  have key : ∀ vert, x ∈ flatten2 bpms.length nt (fun b t => inPlane vert (position B mode Z0 r (bpms.getD b 0) t)) → False := by
    intro vert hx
    simp only [flatten2, List.mem_flatMap, List.mem_map, List.mem_range] at hx
    obtain ⟨t, ht, b, hb, rfl⟩ := hx
    have hg : bpms[b]? = some (bpms.getD b 0) := by
      rw [List.getD_eq_getElem?_getD, List.getElem?_eq_getElem hb]; rfl
    have := h vert t b _ ht hg
    rw [Option.isNone_iff_eq_none] at hn
    rw [hn] at this
    cases this
  rcases hx with hx | hx
  · exact key false hx
  · exact key true hx

/-- at least one position is not known -/
theorem modelTrajectory_none {B : BeamEnv K} {mode : String} {Z0 : List K} {nt : Nat} {bpms : List Nat} {r : Ring K}
    {vert : Bool} {t b ref : Nat} (ht : t < nt) (hb : bpms[b]? = some ref) (hn : inPlane vert (position B mode Z0 r ref t) = none) :
    (modelTrajectory B mode Z0 nt bpms r).any Option.isNone = true := by
  rw [List.any_eq_true]
  exact ⟨none, List.mem_of_getElem? (by rw [modelTrajectory_get B mode Z0 r vert ht hb, hn]), rfl⟩

end PySC
