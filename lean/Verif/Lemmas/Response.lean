import Verif.Spec.Response
import Verif.Lemmas.Correctors
import Verif.Lemmas.Rf
import Verif.Lemmas.Bba
set_option linter.unusedSectionVars false
namespace PySC
open Py Spec
variable {K : Type} [Field K] [LinearOrder K]

theorem diffQuot_eq (d : K) (y x : Option K) : diffQuot d y x = quotient d y x := by
  cases y <;> cases x <;> rfl

theorem modelTrajectory_length (B : BeamEnv K) (mode : String) (Z0 : List K) (nt : Nat) (bpms : List Nat) (r : Ring K) :
    (modelTrajectory B mode Z0 nt bpms r).length = 2 * bpms.length * nt := by
  rw [modelTrajectory, List.length_append, flatten2_length, flatten2_length]
  ring

theorem modelTrajectory_get (B : BeamEnv K) (mode : String) (Z0 : List K) {nt : Nat} {bpms : List Nat} (r : Ring K) (vert : Bool)
    {t b ref : Nat} (ht : t < nt) (hb : bpms[b]? = some ref) :
    (modelTrajectory B mode Z0 nt bpms r)[rowOf bpms.length nt vert t b]? = some (inPlane vert (position B mode Z0 r ref t)) := by
  have hlt := (List.getElem?_eq_some_iff.1 hb).1
  have hd : bpms.getD b 0 = ref := by rw [List.getD_eq_getElem?_getD, hb]; rfl
  have hrow : t * bpms.length + b < bpms.length * nt := by
    have : (t + 1) * bpms.length ≤ nt * bpms.length := Nat.mul_le_mul_right _ ht
    rw [Nat.mul_comm bpms.length nt]
    rw [Nat.add_mul] at this
    omega
  cases vert with
  | false =>
    rw [modelTrajectory, rowOf, if_neg (by simp), Nat.zero_add, List.getElem?_append_left (by rw [flatten2_length, Nat.mul_comm nt]; exact hrow),
      flatten2_get _ hlt ht, hd]
    rfl
  | true =>
    rw [modelTrajectory, rowOf, if_pos rfl, List.getElem?_append_right (by rw [flatten2_length, Nat.mul_comm nt]; omega), flatten2_length,
      Nat.add_assoc, Nat.mul_comm nt, Nat.add_sub_cancel_left, flatten2_get _ hlt ht, hd]
    rfl

theorem difference_of_zip (B : BeamEnv K) (mode : String) (Z0 : List K) (nt : Nat) (bpms : List Nat) (d : K) (r r' : Ring K) :
    Difference B mode Z0 nt bpms d r r' (List.zipWith (diffQuot d) (modelTrajectory B mode Z0 nt bpms r')
      (modelTrajectory B mode Z0 nt bpms r)) := by
  refine ⟨by simp [modelTrajectory_length], fun vert t b ref ht hb => ?_⟩
  rw [List.getElem?_zipWith, modelTrajectory_get B mode Z0 r' vert ht hb, modelTrajectory_get B mode Z0 r vert ht hb]
  simp only [diffQuot_eq]

/-- what `kickModel` does -/
theorem kickModel_eq_ok {d : K} {skew : Bool} {r : Ring K} {cm : Nat} {rr : Ring K × Ring K} (h : kickModel d skew r cm = .ok rr) :
    Kicked r rr.1 cm skew d ∧ rr.2 = r := by
  unfold kickModel at h
  rw [Except.bind_eq_ok'] at h
  obtain ⟨pass, hp, h⟩ := h
  have hpass : r.attr cm "PassMethod" = some (.str pass) := by
    simp only [Ring.getStr, Except.bind_eq_ok', Ring.getA_eq_ok] at hp
    obtain ⟨a, ha, hp⟩ := hp
    cases a <;> simp [Attr.toStr] at hp
    subst hp
    exact ha
  have hlt := Ring.attr_some_lt hpass
  have hlet : letter skew = plane skew := rfl
  by_cases hc : pass = "CorrectorPass"
  · rw [if_pos hc] at h
    have ht : thin r cm := by rw [thin, hpass, hc]
    simp only [Except.bind_eq_ok', Ring.getVec_eq_ok, idx_eq_ok] at h
    obtain ⟨v, hv, k, hk, h⟩ := h
    cases h
    have hkl := (List.getElem?_eq_some_iff.1 hk).1
    have hki : ∀ r : Ring K, thin r cm → kickIndex r cm skew = if skew then 1 else 0 := fun r h => by cases skew <;> simp [kickIndex, h]
    have hka : ∀ r : Ring K, thin r cm → kickAttr r cm skew = "KickAngle" := fun r h => by simp [kickAttr, h]
    have hkf : ∀ r : Ring K, thin r cm → kickFactor r cm skew = 1 := fun r h => by
      unfold thin at h
      rw [kickFactor, if_pos h]
    have hcs : ∀ j, coef (v.set (if skew then 1 else 0) (k + d)) j = if j = (if skew then 1 else 0) then k + d else coef v j :=
      fun j => coef_set _ _ _ _ hkl
    have hback : (v.set (if skew then 1 else 0) (k + d)).set (if skew then 1 else 0) k = v := by
      rw [List.set_set]
      obtain ⟨h1, h2⟩ := List.getElem?_eq_some_iff.1 hk
      conv_lhs => rw [← h2]
      rw [List.set_getElem_self]
    have hl : (v.set (if skew then 1 else 0) (k + d)).length = v.length := by simp
    rw [hback]
    generalize v.set (if skew then 1 else 0) (k + d) = w at hcs hl ⊢
    have ht' : thin (r.setAttr cm "KickAngle" (.vec w)) cm := by
      rw [thin, Ring.attr_setAttr_ne (by decide)]; exact ht
    refine ⟨⟨by simp, ?_, fun j a hj => ?_, v, w, ?_, ?_, hl, fun j hj => ?_⟩, ?_⟩
    · rw [realKick, realKick, hka _ ht, hka _ ht', hki _ ht, hki _ ht', hkf _ ht, hkf _ ht', vecAt_of_attr hv,
        vecAt_of_attr (Ring.attr_setAttr_same hlt), hcs, coef_of_getElem? hk]
      simp
    · rw [hka _ ht] at hj
      rcases hj with hj | hj
      · exact Ring.attr_setAttr_ne' hj
      · exact Ring.attr_setAttr_ne hj
    · rw [hka _ ht]; exact hv
    · rw [hka _ ht]; exact Ring.attr_setAttr_same hlt
    · rw [hki _ ht] at hj
      rw [hcs, if_neg hj]
    · simp only
      rw [Ring.setAttr_setAttr_same]
      exact Ring.setAttr_eq_self hv
  · rw [if_neg hc] at h
    have ht : ¬ thin r cm := by rw [thin, hpass]; simp [hc]
    simp only [Except.bind_eq_ok', Ring.getVec_eq_ok, Ring.getNum_eq_ok, idx_eq_ok, divE_eq_ok] at h
    obtain ⟨p, hv, len, hl, delta, ⟨hz, rfl⟩, k, hk, h⟩ := h
    cases h
    rw [hlet] at *
    have hpn : ("PassMethod" : String) ≠ "Polynom" ++ plane skew := by cases skew <;> decide
    have hln : ("Length" : String) ≠ "Polynom" ++ plane skew := by cases skew <;> decide
    have hkl := (List.getElem?_eq_some_iff.1 hk).1
    have hki : ∀ r : Ring K, ¬ thin r cm → kickIndex r cm skew = 0 := fun r h => by simp [kickIndex, h]
    have hka : ∀ r : Ring K, ¬ thin r cm → kickAttr r cm skew = "Polynom" ++ plane skew := fun r h => by simp [kickAttr, h]
    have hkf : ∀ r : Ring K, ¬ thin r cm → numAt r cm "Length" = len → kickFactor r cm skew = if skew then len else - len :=
      fun r h h2 => by
        unfold thin at h
        rw [kickFactor, if_neg h, h2]
    have hcs : ∀ j, coef (p.set 0 (k + (if skew then 1 else -1) * (d / len))) j =
        if j = 0 then k + (if skew then 1 else -1) * (d / len) else coef p j := fun j => coef_set _ _ _ _ hkl
    have hll : (p.set 0 (k + (if skew then 1 else -1) * (d / len))).length = p.length := by simp
    generalize p.set 0 (k + (if skew then 1 else -1) * (d / len)) = w at hcs hll ⊢
    have ht' : ¬ thin (r.setAttr cm ("Polynom" ++ plane skew) (.vec w)) cm := by
      rw [thin, Ring.attr_setAttr_ne hpn]; exact ht
    have hl' : numAt (r.setAttr cm ("Polynom" ++ plane skew) (.vec w)) cm "Length" = len := by
      apply numAt_of_attr
      rw [Ring.attr_setAttr_ne hln]; exact hl
    refine ⟨⟨by simp, ?_, fun j a hj => ?_, p, w, ?_, ?_, hll, fun j hj => ?_⟩, ?_⟩
    · rw [realKick, realKick, hka _ ht, hka _ ht', hki _ ht, hki _ ht', hkf _ ht (numAt_of_attr hl), hkf _ ht' hl', vecAt_of_attr hv,
        vecAt_of_attr (Ring.attr_setAttr_same hlt), hcs, coef_of_getElem? hk]
      cases skew <;> simp <;> field_simp <;> ring
    · rw [hka _ ht] at hj
      rcases hj with hj | hj
      · exact Ring.attr_setAttr_ne' hj
      · exact Ring.attr_setAttr_ne hj
    · rw [hka _ ht]; exact hv
    · rw [hka _ ht]; exact Ring.attr_setAttr_same hlt
    · rw [hki _ ht] at hj
      rw [hcs, if_neg hj]
    · simp only
      rw [Ring.setAttr_setAttr_same]
      exact Ring.setAttr_eq_self hv

theorem modelColumns_eq_ok {T : Ring K → List (Option K)} {d : K} {Ta : List (Option K)} {l : List (Bool × Nat)} {r : Ring K}
    {cols : List (List (Option K))} (h : modelColumns T d Ta l r = .ok cols) :
    cols.length = l.length ∧ ∀ (j : Nat) (c : Bool × Nat), l[j]? = some c → d ≠ 0 ∧ ∃ r', Kicked r r' c.2 c.1 d ∧ cols[j]? = some (List.zipWith (diffQuot d) (T r') Ta) := by
  induction l generalizing cols with
  | nil => cases h; simp
  | cons c l ih =>
    simp only [modelColumns, Except.bind_eq_ok'] at h
    obtain ⟨rr, hrr, cs, hcs, h⟩ := h
    obtain ⟨hk, he⟩ := kickModel_eq_ok hrr
    rw [he] at hcs
    obtain ⟨hlen, hall⟩ := ih hcs
    split at h
    · cases h
    rename_i hd
    cases h
    refine ⟨by simp [hlen], fun j c' hj => ?_⟩
    cases j with
    | zero =>
      simp only [List.getElem?_cons_zero, Option.some.injEq] at hj
      subst hj
      exact ⟨hd, rr.1, hk, by simp⟩
    | succ j =>
      simp only [List.getElem?_cons_succ] at hj ⊢
      exact hall j c' hj

end PySC

namespace PySC
open Py Spec
variable {K : Type} [Field K] [LinearOrder K]

/-- what is known of one element of the model -/
structure ModelElemAt (s : SC K) (i : Nat) (m : Elem K) : Prop where
  lt : i < s.RING.length
  multipoles : hasSetpoints s.RING i → ∀ skew, ∃ v, m ("Polynom" ++ plane skew) = some (.vec v) ∧
    v.length = (vecAt s.RING i ("SetPoint" ++ plane skew)).length ∧ ∀ k, coef v k = if k = 0 then 0 else setpoint s.RING i skew k
  cavities : isCavity s i → ∀ f ∈ ["Voltage", "Frequency", "TimeLag"], ∃ x, s.RING.attr i (f ++ "SetPoint") = some x ∧ m f = some x
  other : ∀ a, (hasSetpoints s.RING i → a ∉ ["PolynomA", "PolynomB"]) →
    (isCavity s i → a ∉ ["Voltage", "Frequency", "TimeLag"]) → m a = s.IDEALRING.attr i a

theorem coef_set_zero {v : List K} {x : K} (h : v[0]? = some x) (k : Nat) : coef (v.set 0 0) k = if k = 0 then 0 else coef v k :=
  coef_set _ _ _ _ (List.getElem?_eq_some_iff.1 h).1

theorem modelElem_eq_ok {i : Nat} {s s' : SC K} {m : Elem K} (h : modelElem i s = .ok m s') :
    ModelElemAt s i m ∧ Frame (fun j a => j = i ∧ hasSetpoints s.RING i ∧ a ∈ ["SetPointA", "SetPointB"]) s s' ∧
    (hasSetpoints s.RING i → ∀ skew, ∃ x v, s.RING.attr i ("SetPoint" ++ plane skew) = some (.vec (x :: v)) ∧
      s'.RING.attr i ("SetPoint" ++ plane skew) = some (.vec (0 :: v))) := by
  unfold modelElem at h
  rw [bindGet_eq_ok] at h
  rw [bindLift_eq_ok] at h; obtain ⟨e, he, h⟩ := h
  rw [bindRd_eq_ok] at h; obtain ⟨hA, hhA, h⟩ := h
  rw [bindRd_eq_ok] at h; obtain ⟨hB, hhB, h⟩ := h
  rw [bind_eq_ok] at h; obtain ⟨m1, s1, h1, h⟩ := h
  have hlt : i < s.RING.length := by
    simp only [Ring.hasA, Except.bind_eq_ok', Ring.getE_eq_ok] at hhA
    obtain ⟨e', he', -⟩ := hhA
    exact (List.getElem?_eq_some_iff.1 he').1
  have hid : ∀ a, e a = s.IDEALRING.attr i a := by
    intro a
    rw [Ring.getE_eq_ok] at he
    simp [Ring.attr, he]
  rw [Ring.hasA_eq_ok] at hhA hhB
  have hiff : (hA && hB) = true ↔ hasSetpoints s.RING i := by
    rw [hasSetpoints, hhA.2, hhB.2]; simp
  have stage : Frame (fun j a => j = i ∧ hasSetpoints s.RING i ∧ a ∈ ["SetPointA", "SetPointB"]) s s1 ∧
      (hasSetpoints s.RING i → ∀ skew, ∃ x v, s.RING.attr i ("SetPoint" ++ plane skew) = some (.vec (x :: v)) ∧
        s1.RING.attr i ("SetPoint" ++ plane skew) = some (.vec (0 :: v))) ∧
      (hasSetpoints s.RING i → ∀ skew, ∃ v, m1 ("Polynom" ++ plane skew) = some (.vec v) ∧
        v.length = (vecAt s.RING i ("SetPoint" ++ plane skew)).length ∧ ∀ k, coef v k = if k = 0 then 0 else setpoint s.RING i skew k) ∧
      ∀ a, (hasSetpoints s.RING i → a ∉ ["PolynomA", "PolynomB"]) → m1 a = e a := by
    by_cases hc : (hA && hB) = true
    · have hsp := hiff.1 hc
      rw [if_pos hc] at h1
      rw [bindRd_eq_ok] at h1; obtain ⟨a, ha, h1⟩ := h1
      rw [bindRd_eq_ok] at h1; obtain ⟨b, hb, h1⟩ := h1
      rw [bindLift_eq_ok] at h1; obtain ⟨x, hx, h1⟩ := h1
      rw [bind_eq_ok] at h1; obtain ⟨_, s2, h2, h1⟩ := h1
      rw [bindLift_eq_ok] at h1; obtain ⟨y, hy, h1⟩ := h1
      rw [bind_eq_ok] at h1; obtain ⟨_, s3, h3, h1⟩ := h1
      cases h1
      rw [setAttr_eq_ok] at h2 h3
      obtain ⟨-, rfl⟩ := h2
      obtain ⟨-, rfl⟩ := h3
      rw [idx_eq_ok] at hx hy
      rw [Ring.getVec_eq_ok] at ha hb
      refine ⟨⟨rfl, rfl, rfl, rfl, rfl, by simp, fun j c hW => ?_⟩, fun _ skew => ?_, fun _ skew => ?_, fun c hc' => ?_⟩
      · simp only
        rw [Ring.attr_setAttr, if_neg, Ring.attr_setAttr, if_neg]
        · rintro ⟨rfl, rfl⟩; exact hW ⟨rfl, hsp, by simp⟩
        · rintro ⟨rfl, rfl⟩; exact hW ⟨rfl, hsp, by simp⟩
      · cases skew with
        | true =>
          have e1 : ((s.RING.setAttr i "SetPointA" (.vec (a.set 0 0))).setAttr i "SetPointB" (.vec (b.set 0 0))).attr i "SetPointA" = some (.vec (a.set 0 0)) := by
            rw [Ring.attr_setAttr_ne (by decide), Ring.attr_setAttr_same hlt]
          obtain ⟨y', v', rfl⟩ : ∃ y v, a = y :: v := by cases a <;> simp_all
          exact ⟨y', v', ha, e1⟩
        | false =>
          have e1 : ((s.RING.setAttr i "SetPointA" (.vec (a.set 0 0))).setAttr i "SetPointB" (.vec (b.set 0 0))).attr i "SetPointB" = some (.vec (b.set 0 0)) := by
            rw [Ring.attr_setAttr_same (by simpa using hlt)]
          obtain ⟨y', v', rfl⟩ : ∃ y v, b = y :: v := by cases b <;> simp_all
          exact ⟨y', v', hb, e1⟩
      · cases skew with
        | true =>
          refine ⟨a.set 0 0, ?_, ?_, fun k => ?_⟩
          · simp [Elem.set_apply, plane]
          · simp [plane, vecAt_of_attr ha]
          · rw [coef_set_zero hx]
            simp [setpoint, plane, vecAt_of_attr ha]
        | false =>
          refine ⟨b.set 0 0, ?_, ?_, fun k => ?_⟩
          · simp [Elem.set_apply, plane]
          · simp [plane, vecAt_of_attr hb]
          · rw [coef_set_zero hy]
            simp [setpoint, plane, vecAt_of_attr hb]
      · have := hc' hsp
        simp only [List.mem_cons, List.not_mem_nil, or_false, not_or] at this
        rw [Elem.set_apply, if_neg this.2, Elem.set_apply, if_neg this.1]
    · rw [if_neg hc] at h1
      cases h1
      have hn : ¬ hasSetpoints s.RING i := fun hh => hc (hiff.2 hh)
      exact ⟨Frame.refl _, fun hh => absurd hh hn, fun hh => absurd hh hn, fun _ _ => rfl⟩
  obtain ⟨hfr, hset, hmul, hoth⟩ := stage
  have hkeep : ∀ a, a ∉ ["SetPointA", "SetPointB"] → s1.RING.attr i a = s.RING.attr i a := fun a ha => hfr.attr i a (fun hh => ha hh.2.2)
  rw [bindRd_eq_ok] at h; obtain ⟨hF, hhF, h⟩ := h
  rw [Ring.hasA_eq_ok, hkeep _ (by decide)] at hhF
  by_cases hc : (!s.ORD.RF.isEmpty && hF) = true
  · rw [if_pos hc] at h
    rw [bindRd_eq_ok] at h; obtain ⟨v, hv, h⟩ := h
    rw [bindRd_eq_ok] at h; obtain ⟨f, hf, h⟩ := h
    rw [bindRd_eq_ok] at h; obtain ⟨t, ht, h⟩ := h
    rw [Ring.getA_eq_ok, hkeep _ (by decide)] at hv hf ht
    cases h
    have hcav : isCavity s i := by
      rw [hhF.2] at hc
      simpa [isCavity] using hc
    refine ⟨⟨hlt, fun hh skew => ?_, fun _ g hg => ?_, fun a h1 h2 => ?_⟩, hfr, hset⟩
    · obtain ⟨w, hw, hw2⟩ := hmul hh skew
      refine ⟨w, ?_, hw2⟩
      rw [← hw]
      cases skew <;> simp [Elem.set_apply, plane]
    · simp only [List.mem_cons, List.not_mem_nil, or_false] at hg
      rcases hg with rfl | rfl | rfl
      · exact ⟨v, hv, by simp [Elem.set_apply]⟩
      · exact ⟨f, hf, by simp [Elem.set_apply]⟩
      · exact ⟨t, ht, by simp [Elem.set_apply]⟩
    · have := h2 hcav
      simp only [List.mem_cons, List.not_mem_nil, or_false, not_or] at this
      rw [Elem.set_apply, if_neg this.2.2, Elem.set_apply, if_neg this.2.1, Elem.set_apply, if_neg this.1, hoth a h1, hid]
  · rw [if_neg hc] at h
    cases h
    have hcav : ¬ isCavity s i := by
      rw [hhF.2] at hc
      simpa [isCavity] using hc
    exact ⟨⟨hlt, hmul, fun hh => absurd hh hcav, fun a h1 _ => by rw [hoth a h1, hid]⟩, hfr, hset⟩

theorem setpoint_attr {r r' : Ring K} {i : Nat} {skew : Bool} (h : r'.attr i ("SetPoint" ++ plane skew) = r.attr i ("SetPoint" ++ plane skew)) (k : Nat) :
    setpoint r' i skew k = setpoint r i skew k := by simp only [setpoint, vecAt, h]

theorem hasSetpoints_frame {W : Nat → String → Prop} {s s' : SC K} (h : Frame W s s') {i : Nat} (hi : ∀ a, ¬ W i a) :
    (hasSetpoints s'.RING i ↔ hasSetpoints s.RING i) ∧ (isCavity s' i ↔ isCavity s i) ∧
    (∀ a, s'.RING.attr i a = s.RING.attr i a) := by
  have : ∀ a, s'.RING.attr i a = s.RING.attr i a := fun a => h.attr i a (hi a)
  simp [hasSetpoints, isCavity, this, h.ord]

theorem modelElems_eq_ok {l : List Nat} (hnd : l.Nodup) {s s' : SC K} {ms : List (Elem K)} (h : mapEach l modelElem s = .ok ms s') :
    ms.length = l.length ∧ (∀ (j o : Nat), l[j]? = some o → ∃ m, ms[j]? = some m ∧ ModelElemAt s o m) ∧
    Frame (fun i a => i ∈ l ∧ hasSetpoints s.RING i ∧ a ∈ ["SetPointA", "SetPointB"]) s s' ∧
    ∀ i ∈ l, hasSetpoints s.RING i → ∀ skew, ∃ x v, s.RING.attr i ("SetPoint" ++ plane skew) = some (.vec (x :: v)) ∧
      s'.RING.attr i ("SetPoint" ++ plane skew) = some (.vec (0 :: v)) := by
  induction l generalizing s s' ms with
  | nil => cases h; exact ⟨rfl, by simp, Frame.refl _, by simp⟩
  | cons o l ih =>
    rw [List.nodup_cons] at hnd
    rw [mapEach_cons] at h
    simp only [bind_eq_ok] at h
    obtain ⟨m, s1, h1, ms', s2, h2, h⟩ := h
    cases h
    obtain ⟨e1, f1, p1⟩ := modelElem_eq_ok h1
    obtain ⟨e2, e3, f2, p2⟩ := ih hnd.2 h2
    have same : ∀ i, i ≠ o → (hasSetpoints s1.RING i ↔ hasSetpoints s.RING i) ∧ (isCavity s1 i ↔ isCavity s i) ∧
        (∀ a, s1.RING.attr i a = s.RING.attr i a) := fun i hi => hasSetpoints_frame f1 (fun a hh => hi hh.1)
    have hne : ∀ {i}, i ∈ l → i ≠ o := fun hi he => hnd.1 (he ▸ hi)
    refine ⟨by simp [e2], fun j i hj => ?_, ?_, fun i hi hsp skew => ?_⟩
    · cases j with
      | zero =>
        simp only [List.getElem?_cons_zero, Option.some.injEq] at hj
        subst hj
        exact ⟨m, by simp, e1⟩
      | succ j =>
        simp only [List.getElem?_cons_succ] at hj ⊢
        obtain ⟨m', hm', hm⟩ := e3 j i hj
        obtain ⟨q1, q2, q3⟩ := same i (hne (List.mem_of_getElem? hj))
        refine ⟨m', hm', ⟨f1.len ▸ hm.lt, fun hh skew => ?_, fun hh f hf => ?_, fun a h1 h2 => ?_⟩⟩
        · obtain ⟨v, w1, w2, w3⟩ := hm.multipoles (q1.2 hh) skew
          refine ⟨v, w1, ?_, fun k => ?_⟩
          · rw [w2]; simp only [vecAt, q3]
          · rw [w3 k, setpoint_attr (q3 _)]
        · rw [← q3]; exact hm.cavities (q2.2 hh) f hf
        · rw [hm.other a (fun hh => h1 (q1.1 hh)) (fun hh => h2 (q2.1 hh)), f1.ideal]
    · refine Frame.trans _ _ _ (Frame.mono ?_ f1) ⟨f2.ideal, f2.inj, f2.sig, f2.ord, f2.rng, f2.len, fun i a hW => ?_⟩
      · rintro i a ⟨rfl, h1, h2⟩; exact ⟨by simp, h1, h2⟩
      · refine f2.attr i a (fun hh => hW ⟨by simp [hh.1], (same i (hne hh.1)).1.1 hh.2.1, hh.2.2⟩)
    · rcases List.mem_cons.1 hi with rfl | hi'
      · rw [f2.attr _ _ (fun hh => hnd.1 hh.1)]; exact p1 hsp skew
      · obtain ⟨q1, -, q3⟩ := same i (hne hi')
        rw [← q3]; exact p2 i hi' (q1.2 hsp) skew

/-- what `SCgetModelRING` returns and leaves behind -/
theorem modelRing_eq_ok {s s' : SC K} {m : Ring K} (h : modelRing s = .ok m s') : IsModel s m ∧ DipolesLost s s' := by
  unfold modelRing at h
  rw [bindGet_eq_ok] at h
  obtain ⟨h1, h2, h3, h4⟩ := modelElems_eq_ok List.nodup_range h
  rw [List.length_range] at h1
  have hat : ∀ i < m.length, ∃ e, m[i]? = some e ∧ ModelElemAt s i e ∧ ∀ a, m.attr i a = e a := by
    intro i hi
    obtain ⟨e, he, hm⟩ := h2 i i (by rw [List.getElem?_range (by omega)])
    exact ⟨e, he, hm, fun a => by simp [Ring.attr, he]⟩
  refine ⟨⟨h1, fun i hi hsp skew => ?_, fun i hi hc f hf => ?_, fun i hi a q1 q2 => ?_⟩, ⟨Frame.mono ?_ h3, fun i hsp skew => ?_⟩⟩
  · obtain ⟨e, -, hm, ha⟩ := hat i hi
    rw [ha]; exact hm.multipoles hsp skew
  · obtain ⟨e, -, hm, ha⟩ := hat i hi
    simp only [ha]; exact hm.cavities hc f hf
  · obtain ⟨e, -, hm, ha⟩ := hat i hi
    rw [ha]; exact hm.other a q1 q2
  · rintro i a ⟨-, hh⟩; exact hh
  · obtain ⟨v, hv⟩ := Option.isSome_iff_exists.1 hsp.1
    exact h4 i (by rw [List.mem_range]; exact Ring.attr_some_lt hv) hsp skew

end PySC
