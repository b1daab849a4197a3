import Verif.Lemmas.BbaEval
import Verif.Spec.Loco
import Verif.Lemmas.ResponseMeasure
import Verif.Lemmas.ResponseModel
import Verif.Lemmas.ScTools
/-
The Jacobian of LOCO: the models of the machine in the worker processes.
-/
set_option linter.unusedSectionVars false
namespace PySC
open Py Spec
variable {K : Type} [Field K] [LinearOrder K]

/-- names of set-points and realised fields of magnets -/
def modelFree : List String := ["SetPointA", "SetPointB", "PolynomA", "PolynomB", "KickAngle", "MaxOrder"]

/-- two machines which have the same model: they only differ in dipole set-points and realised fields -/
structure SameModel (s t : SC K) : Prop where
  len : t.RING.length = s.RING.length
  ideal : t.IDEALRING = s.IDEALRING
  ord : t.ORD = s.ORD
  other : ∀ i a, a ∉ modelFree → t.RING.attr i a = s.RING.attr i a
  sp : ∀ i skew, t.RING.attr i ("SetPoint" ++ plane skew) = s.RING.attr i ("SetPoint" ++ plane skew) ∨
    ∃ v v', s.RING.attr i ("SetPoint" ++ plane skew) = some (.vec v) ∧ t.RING.attr i ("SetPoint" ++ plane skew) = some (.vec v') ∧
      v'.length = v.length ∧ ∀ k, k ≠ 0 → coef v' k = coef v k

theorem SameModel.refl (s : SC K) : SameModel s s := ⟨rfl, rfl, rfl, fun _ _ _ => rfl, fun _ _ => Or.inl rfl⟩

theorem SameModel.trans {a b c : SC K} (h : SameModel a b) (g : SameModel b c) : SameModel a c := by
  refine ⟨g.len.trans h.len, g.ideal.trans h.ideal, g.ord.trans h.ord, fun i x hx => (g.other i x hx).trans (h.other i x hx), fun i skew => ?_⟩
  rcases h.sp i skew with e | ⟨v, v', e1, e2, e3, e4⟩
  · rw [← e]; exact g.sp i skew
  · rcases g.sp i skew with e' | ⟨w, w', f1, f2, f3, f4⟩
    · exact Or.inr ⟨v, v', e1, by rw [e', e2], e3, e4⟩
    · rw [e2] at f1; cases f1
      exact Or.inr ⟨v, w', e1, f2, f3.trans e3, fun k hk => (f4 k hk).trans (e4 k hk)⟩

theorem SameModel.setpoint {s t : SC K} (h : SameModel s t) (i : Nat) (skew : Bool) {k : Nat} (hk : k ≠ 0) :
    setpoint t.RING i skew k = setpoint s.RING i skew k := by
  rcases h.sp i skew with e | ⟨v, v', e1, e2, -, e4⟩
  · exact setpoint_attr e k
  · unfold Spec.setpoint
    rw [vecAt_of_attr e1, vecAt_of_attr e2, e4 k hk]

theorem SameModel.length {s t : SC K} (h : SameModel s t) (i : Nat) (skew : Bool) :
    (vecAt t.RING i ("SetPoint" ++ plane skew)).length = (vecAt s.RING i ("SetPoint" ++ plane skew)).length := by
  rcases h.sp i skew with e | ⟨v, v', e1, e2, e3, -⟩
  · simp only [vecAt, e]
  · rw [vecAt_of_attr e1, vecAt_of_attr e2, e3]

theorem SameModel.isSome {s t : SC K} (h : SameModel s t) (i : Nat) (skew : Bool) :
    (t.RING.attr i ("SetPoint" ++ plane skew)).isSome = (s.RING.attr i ("SetPoint" ++ plane skew)).isSome := by
  rcases h.sp i skew with e | ⟨v, v', e1, e2, -, -⟩
  · rw [e]
  · rw [e1, e2]; rfl

theorem SameModel.hasSetpoints {s t : SC K} (h : SameModel s t) (i : Nat) : hasSetpoints t.RING i ↔ hasSetpoints s.RING i := by
  have h1 := h.isSome i true
  have h2 := h.isSome i false
  have e1 : ("SetPoint" ++ plane true : String) = "SetPointA" := rfl
  have e2 : ("SetPoint" ++ plane false : String) = "SetPointB" := rfl
  rw [e1] at h1; rw [e2] at h2
  unfold Spec.hasSetpoints
  rw [h1, h2]

theorem SameModel.isCavity {s t : SC K} (h : SameModel s t) (i : Nat) : isCavity t i ↔ isCavity s i := by
  unfold Spec.isCavity
  rw [h.ord, h.other i "Frequency" (by decide)]

/-- the model is the same -/
theorem SameModel.model {s t : SC K} (h : SameModel s t) {m : Ring K} (hm : IsModel t m) : IsModel s m := by
  refine ⟨by rw [hm.len, h.len], fun i hi hs skew => ?_, fun i hi hc f hf => ?_, fun i hi a h1 h2 => ?_⟩
  · obtain ⟨v, hv, hl, hk⟩ := hm.multipoles i hi ((h.hasSetpoints i).2 hs) skew
    refine ⟨v, hv, by rw [hl, h.length], fun k => ?_⟩
    rw [hk]
    by_cases h0 : k = 0
    · rw [if_pos h0, if_pos h0]
    · rw [if_neg h0, if_neg h0, h.setpoint i skew h0]
  · obtain ⟨x, hx, hx'⟩ := hm.cavities i hi ((h.isCavity i).2 hc) f hf
    refine ⟨x, ?_, hx'⟩
    rw [← hx, h.other]
    simp only [List.mem_cons, List.not_mem_nil, or_false] at hf
    rcases hf with rfl | rfl | rfl <;> decide
  · rw [hm.other i hi a (fun hh => h1 ((h.hasSetpoints i).1 hh)) (fun hh => h2 ((h.isCavity i).1 hh)), h.ideal]

/-- there is only one model -/
theorem isModel_unique {s : SC K} {m m' : Ring K} (h : IsModel s m) (h' : IsModel s m') : m = m' := by
  have hl : m.length = m'.length := by rw [h.len, h'.len]
  refine Ring.ext_attr hl (fun i a => ?_)
  by_cases hi : i < m'.length
  swap
  · have h1 : m.attr i a = none := by
      cases hx : m.attr i a with
      | none => rfl
      | some x => exact absurd (Ring.attr_some_lt hx) (by omega)
    have h2 : m'.attr i a = none := by
      cases hx : m'.attr i a with
      | none => rfl
      | some x => exact absurd (Ring.attr_some_lt hx) (by omega)
    rw [h1, h2]
  by_cases h1 : hasSetpoints s.RING i ∧ a ∈ ["PolynomA", "PolynomB"]
  · have : ∃ skew, a = "Polynom" ++ plane skew := by
      have := h1.2
      simp only [List.mem_cons, List.not_mem_nil, or_false] at this
      rcases this with rfl | rfl
      · exact ⟨true, rfl⟩
      · exact ⟨false, rfl⟩
    obtain ⟨skew, rfl⟩ := this
    obtain ⟨v, e1, e2, e3⟩ := h.multipoles i (by omega) h1.1 skew
    obtain ⟨w, f1, f2, f3⟩ := h'.multipoles i (by omega) h1.1 skew
    rw [e1, f1, padded_ext (v := v) (w := w) (by rw [e2, f2]) (fun k => (e3 k).trans (f3 k).symm)]
  by_cases h2 : isCavity s i ∧ a ∈ ["Voltage", "Frequency", "TimeLag"]
  · obtain ⟨x, e1, e2⟩ := h.cavities i (by omega) h2.1 a h2.2
    obtain ⟨y, f1, f2⟩ := h'.cavities i (by omega) h2.1 a h2.2
    rw [e1] at f1; cases f1
    rw [e2, f2]
  rw [h.other i (by omega) a (fun hh hm => h1 ⟨hh, hm⟩) (fun hh hm => h2 ⟨hh, hm⟩),
    h'.other i (by omega) a (fun hh hm => h1 ⟨hh, hm⟩) (fun hh hm => h2 ⟨hh, hm⟩)]

theorem plane_spName (skew : Bool) : ("SetPoint" ++ plane skew) ∈ modelFree := by cases skew <;> decide

theorem dipolesLost_same {s t : SC K} (h : DipolesLost s t) : SameModel s t := by
  refine ⟨h.rest.len, h.rest.ideal, h.rest.ord, fun i a ha => h.rest.attr i a (fun hh => ha ?_), fun i skew => ?_⟩
  · have := hh.2
    simp only [List.mem_cons, List.not_mem_nil, or_false] at this
    rcases this with rfl | rfl <;> decide
  · by_cases hs : Spec.hasSetpoints s.RING i
    · obtain ⟨x, v, e1, e2⟩ := h.lost i hs skew
      refine Or.inr ⟨_, _, e1, e2, by simp, fun k hk => ?_⟩
      cases k with
      | zero => exact absurd rfl hk
      | succ k => rfl
    · exact Or.inl (h.rest.attr _ _ (fun hh => hs hh.1))

theorem plane_ne {skew sk : Bool} (h : sk ≠ skew) : ("SetPoint" ++ plane sk : String) ≠ "SetPoint" ++ plane skew := by
  cases skew <;> cases sk <;> simp_all [plane]

theorem withStrength_attr (s : SC K) (o : Nat) (skew : Bool) (order : Nat) (d : K) (ho : o < s.RING.length) (i : Nat) (a : String) :
    (withStrength s o skew order d).RING.attr i a = if i = o ∧ a = "SetPoint" ++ plane skew then
      some (.vec ((vecAt s.RING o ("SetPoint" ++ plane skew)).set order (setpoint s.RING o skew order + d))) else s.RING.attr i a := by
  unfold withStrength
  simp only
  by_cases hc : i = o ∧ a = "SetPoint" ++ plane skew
  · rw [if_pos hc]
    obtain ⟨rfl, rfl⟩ := hc
    exact Ring.attr_setAttr_same ho
  · rw [if_neg hc]
    by_cases hi : i = o
    · exact Ring.attr_setAttr_ne (fun hh => hc ⟨hi, hh⟩)
    · exact Ring.attr_setAttr_ne' hi

theorem withStrength_same {s t : SC K} (h : SameModel s t) {o : Nat} (ho : o < s.RING.length) (skew : Bool) (order : Nat) (d : K) :
    SameModel (withStrength s o skew order d) (withStrength t o skew order d) := by
  have ho' : o < t.RING.length := by rw [h.len]; exact ho
  refine ⟨?_, h.ideal, h.ord, fun i a ha => ?_, fun i sk => ?_⟩
  · simp only [withStrength, Ring.length_setAttr]; exact h.len
  · rw [withStrength_attr _ _ _ _ _ ho, withStrength_attr _ _ _ _ _ ho', if_neg (fun hh => ha (by rw [hh.2]; exact plane_spName _)),
      if_neg (fun hh => ha (by rw [hh.2]; exact plane_spName _)), h.other i a ha]
  · rw [withStrength_attr _ _ _ _ _ ho, withStrength_attr _ _ _ _ _ ho']
    by_cases hc : i = o ∧ ("SetPoint" ++ plane sk : String) = "SetPoint" ++ plane skew
    · rw [if_pos hc, if_pos hc]
      have hsk : sk = skew := by by_contra hne; exact plane_ne hne hc.2
      refine Or.inr ⟨_, _, rfl, rfl, ?_, fun k hk => ?_⟩
      · rw [List.length_set, List.length_set, h.length]
      · have hl := h.length o skew
        have hv : coef (vecAt t.RING o ("SetPoint" ++ plane skew)) k = coef (vecAt s.RING o ("SetPoint" ++ plane skew)) k := h.setpoint o skew hk
        by_cases hn : order < (vecAt s.RING o ("SetPoint" ++ plane skew)).length
        · rw [coef_set _ _ _ _ hn, coef_set _ _ _ _ (by rw [hl]; exact hn)]
          by_cases hko : k = order
          · rw [if_pos hko, if_pos hko, ← hko, h.setpoint o skew hk]
          · rw [if_neg hko, if_neg hko, hv]
        · rw [List.set_eq_of_length_le (by omega), List.set_eq_of_length_le (by omega), hv]
    · rw [if_neg hc, if_neg hc]; exact h.sp i sk

theorem withStrength_back {s : SC K} {o : Nat} {skew : Bool} {order : Nat} {d : K} {v : List K}
    (hv : s.RING.attr o ("SetPoint" ++ plane skew) = some (.vec v)) (hn : order < v.length) :
    SameModel (withStrength (withStrength s o skew order d) o skew order (-d)) s := by
  have ho := Ring.attr_some_lt hv
  have ho' : o < (withStrength s o skew order d).RING.length := by simp only [withStrength, Ring.length_setAttr]; exact ho
  refine ⟨by simp only [withStrength, Ring.length_setAttr], rfl, rfl, fun i a ha => ?_, fun i sk => ?_⟩
  · rw [withStrength_attr _ _ _ _ _ ho', withStrength_attr _ _ _ _ _ ho, if_neg (fun hh => ha (by rw [hh.2]; exact plane_spName _)),
      if_neg (fun hh => ha (by rw [hh.2]; exact plane_spName _))]
  · left
    rw [withStrength_attr _ _ _ _ _ ho']
    by_cases hc : i = o ∧ ("SetPoint" ++ plane sk : String) = "SetPoint" ++ plane skew
    · rw [if_pos hc, hc.1, hc.2, hv]
      have e : (withStrength s o skew order d).RING.attr o ("SetPoint" ++ plane skew) = some (.vec (v.set order (coef v order + d))) := by
        rw [withStrength_attr _ _ _ _ _ ho, if_pos ⟨rfl, rfl⟩]
        simp only [setpoint, vecAt_of_attr hv]
      simp only [setpoint, vecAt_of_attr e, List.set_set]
      rw [coef_set _ _ _ _ hn, if_pos rfl, add_neg_cancel_right]
      congr 2
      refine padded_ext (by simp) (fun k => ?_)
      show coef _ k = coef _ k
      rw [coef_set _ _ _ _ hn]
      split
      · rename_i hk; rw [hk]
      · rfl
    · rw [if_neg hc, withStrength_attr _ _ _ _ _ ho, if_neg hc]

variable [IsStrictOrderedRing K] [FloorRing K]

/-- adding to one set-point -/
theorem setMagnet_withStrength {o : Nat} {d : K} {skew : Bool} {order : Nat} {s s' : SC K} {u : Unit}
    (hlim : skew = true → order = 1 → skewLimit s.RING o = .inf)
    (h : setMagnetSetpoints [o] ⟨false, [d]⟩ skew order "add" false s = .ok u s') :
    SameModel (withStrength s o skew order d) s' ∧
      ∃ v, s.RING.attr o ("SetPoint" ++ plane skew) = some (.vec v) ∧ order < v.length := by
  have hv : ∃ v, s.RING.attr o ("SetPoint" ++ plane skew) = some (.vec v) ∧ order < v.length := by
    obtain ⟨sps, s1, h1, -, -⟩ := setMagnetSetpoints_eq_ok h
    simp only [magnetRequest, Except.bind_eq_ok'] at h1
    obtain ⟨sps0, -, h1⟩ := h1
    rw [if_neg (by decide), if_pos trivial, Except.bind_eq_ok'] at h1
    obtain ⟨w, hw, -⟩ := h1
    obtain ⟨y, hy⟩ := mapM_except_mem hw o (by simp)
    rw [Ring.getVecAt_eq_ok] at hy
    obtain ⟨v, e1, e2⟩ := hy
    exact ⟨v, by rw [← plane_eq_letter] at e1; exact e1, (List.getElem?_eq_some_iff.1 e2).1⟩
  refine ⟨?_, hv⟩
  obtain ⟨v, hv, hn⟩ := hv
  have ho := Ring.attr_some_lt hv
  have hf := (setMagnetSetpoints_modifies [o] ⟨false, [d]⟩ skew order "add" false).ok h
  have hnot : ∀ i a, ¬ (i = o ∧ a = "SetPoint" ++ plane skew) → a ∉ magnetWrites → s'.RING.attr i a = s.RING.attr i a := by
    intro i a h1 h2
    refine hf.attr i a ?_
    rintro (⟨hi, hsp | ⟨hsp, -⟩⟩ | hw)
    · rw [List.mem_singleton] at hi
      exact h1 ⟨hi, hsp⟩
    · cases hsp
    · exact h2 hw
  refine ⟨by rw [hf.len]; simp only [withStrength, Ring.length_setAttr], hf.ideal, hf.ord, fun i a ha => ?_, fun i sk => ?_⟩
  · rw [withStrength_attr _ _ _ _ _ ho, if_neg (fun hh => ha (by rw [hh.2]; exact plane_spName _))]
    refine hnot i a (fun hh => ha (by rw [hh.2]; exact plane_spName _)) (fun hw => ha ?_)
    simp only [magnetWrites, List.mem_cons, List.not_mem_nil, or_false] at hw
    rcases hw with rfl | rfl | rfl | rfl <;> decide
  · rw [withStrength_attr _ _ _ _ _ ho]
    by_cases hc : i = o ∧ ("SetPoint" ++ plane sk : String) = "SetPoint" ++ plane skew
    · rw [if_pos hc, hc.1, hc.2]
      have hsp : setpoint s'.RING o skew order = setpoint s.RING o skew order + d := by
        have hl : LastAt [o] 0 o := ⟨rfl, fun j hj hj' => by
          cases j with
          | zero => omega
          | succ j => simp at hj'⟩
        rw [setMagnetSetpoints_setpoint h hl]
        have e : magnetAsked s.RING o skew order "add" (valueFor [d] 0) = setpoint s.RING o skew order + d := by
          rw [magnetAsked, asked, if_neg (by decide), if_pos rfl, if_neg (by decide), add_comm]
          rfl
        simp only [e]
        split
        · rename_i hs
          rw [hlim hs.1 hs.2]
          simp [skewClipped, clipped, exceeds]
        · rfl
      obtain ⟨-, -, q⟩ := setMagnetSetpoints_settled h
      have hv' : ∃ v', s'.RING.attr o ("SetPoint" ++ plane skew) = some (.vec v') ∧ v'.length = v.length := by
        rcases q o skew with e | ⟨w, w', e1, e2, e3⟩
        · exact ⟨v, by rw [e, hv], rfl⟩
        · rw [hv] at e1; cases e1; exact ⟨w', e2, e3⟩
      obtain ⟨v', hv', hl'⟩ := hv'
      have hother : ∀ k, k ≠ order → coef v' k = coef v k := by
        intro k hk
        have := setMagnetSetpoints_other h o skew k (Or.inr (Or.inl rfl)) (Or.inr (Or.inr hk))
        rwa [setpoint, setpoint, vecAt_of_attr hv, vecAt_of_attr hv'] at this
      left
      rw [hv']
      rw [setpoint, setpoint, vecAt_of_attr hv, vecAt_of_attr hv'] at hsp
      simp only [setpoint, vecAt_of_attr hv]
      congr 2
      refine padded_ext (by simp [hl']) (fun k => ?_)
      show coef _ k = coef _ k
      rw [coef_set _ _ _ _ hn]
      split
      · rename_i hk; rw [hk, hsp]
      · rename_i hk; exact hother k hk
    · rw [if_neg hc]
      refine Or.inl (hnot _ _ hc ?_)
      cases sk <;> simp [plane, magnetWrites]

/-- the response matrix is a function of the lattice -/
theorem modelRM_lattice {B : BeamEnv K} {bpms : List Nat} {cms : List Nat × List Nat} {mode : String} {Z0 : List K} {nTurns : Nat} {dkick : K}
    {useIdeal : Bool} {s s' : SC K} {RM : List (List (Option K))} (h : modelRM B bpms cms mode Z0 nTurns dkick useIdeal s = .ok RM s') :
    ∃ r, chooseModel useIdeal s = .ok r s' ∧ ∀ s0 : SC K, modelRM B bpms cms mode Z0 nTurns dkick true (withDesign s0 r) = .ok RM (withDesign s0 r) := by
  unfold modelRM at h
  rw [bind_eq_ok] at h
  obtain ⟨r, s1, h1, h⟩ := h
  have hs1 : s1 = s' ∧ ∀ t : SC K, (if mode ≠ "TBT" ∧ mode ≠ "ORB" then (Py.throw .keyError : Py (SC K) (List (List (Option K))))
      else
        let T := modelTrajectory B mode Z0 (if mode = "ORB" then 1 else nTurns) bpms
        if (T r).any Option.isNone then Py.throw .valueError
        else lift (modelColumns T dkick (T r) (cms.1.map (fun c => (false, c)) ++ cms.2.map (fun c => (true, c))) r)) t = .ok RM t := by
    by_cases hm : mode ≠ "TBT" ∧ mode ≠ "ORB"
    · rw [if_pos hm] at h; cases h
    rw [if_neg hm] at h
    by_cases hn : (modelTrajectory B mode Z0 (if mode = "ORB" then 1 else nTurns) bpms r).any Option.isNone = true
    · rw [if_pos hn] at h; cases h
    rw [if_neg hn, lift_eq_ok] at h
    refine ⟨h.2.symm, fun t => ?_⟩
    rw [if_neg hm, if_neg hn, lift_eq_ok]
    exact ⟨h.1, rfl⟩
  refine ⟨r, by rw [h1, hs1.1], fun s0 => ?_⟩
  unfold modelRM chooseModel
  simp only [bind_apply, get_apply, if_true, Py.pure]
  exact hs1.2 _

/-- the dispersion of the design is a function of the design -/
theorem modelDispersion_design {B : BeamEnv K} {bpms cavs : List Nat} {mode : String} {Z0 : List K} {nTurns : Nat} {step : K}
    {s s' : SC K} {eta : List (Option K)} (h : modelDispersion B bpms cavs mode Z0 nTurns step true s = .ok eta s') :
    s' = s ∧ ∀ s0 : SC K, s0.IDEALRING = s.IDEALRING → modelDispersion B bpms cavs mode Z0 nTurns step true s0 = .ok eta s0 := by
  unfold modelDispersion chooseModel at h
  simp only [bind_apply, get_apply, if_true, Py.pure] at h
  have key : s' = s ∧ ∀ t : SC K, t.IDEALRING = s.IDEALRING → (modelDispersion B bpms cavs mode Z0 nTurns step true t = .ok eta t) := by
    by_cases hm : mode ≠ "TBT" ∧ mode ≠ "ORB"
    · rw [if_pos hm] at h; cases h
    rw [if_neg hm] at h
    by_cases hn : (modelTrajectory B mode Z0 (if mode = "ORB" then 1 else nTurns) bpms s.IDEALRING).any Option.isNone = true
    · rw [if_pos hn] at h; cases h
    rw [if_neg hn, bindLift_eq_ok] at h
    obtain ⟨r1, h1, h⟩ := h
    by_cases hs : step = 0
    · rw [if_pos hs] at h; cases h
    rw [if_neg hs] at h
    cases h
    refine ⟨rfl, fun t ht => ?_⟩
    unfold modelDispersion chooseModel
    simp only [bind_apply, get_apply, if_true, Py.pure, ht]
    rw [if_neg hm, if_neg hn, h1]
    simp only [lift_ok_apply, bind_apply]
    rw [if_neg hs]
    rfl
  exact key

theorem quadLattice_unique {s : SC K} {useIdeal skew : Bool} {order : Nat} {dk : K} {o : Nat} {r r' : Ring K}
    (h : QuadLattice s useIdeal skew order dk o r) (h' : QuadLattice s useIdeal skew order dk o r') : r = r' := by
  cases useIdeal with
  | true => rw [h.1 rfl, h'.1 rfl]
  | false => exact isModel_unique (h.2 rfl) (h'.2 rfl)

/-- what the call for quadrupole `o` returns, given in terms of the original machine -/
def QuadResult (B : BeamEnv K) (C : List (List (Option K))) (bpms : List Nat) (cms : List Nat × List Nat) (dkick dk : K) (mode : String)
    (useIdeal skew : Bool) (order : Nat) (disp : Option (List Nat × K)) (s : SC K) (o : Nat) (M : List (List (Option K))) : Prop :=
  ∃ r RM M0, QuadLattice s useIdeal skew order dk o r ∧
    (∀ s0 : SC K, modelRM B bpms cms mode (List.replicate 6 0) 1 dkick true (withDesign s0 r) = .ok RM (withDesign s0 r)) ∧
    subMatrix RM C = .ok M0 ∧
    match disp with
    | none => M = M0
    | some (cavs, rfStep) => ∃ d0 d1, modelDispersion B bpms cavs "ORB" (List.replicate 6 0) 1 1000 true s = .ok d0 s ∧
        modelDispersion B bpms cavs "ORB" (List.replicate 6 0) 1 rfStep true s = .ok d1 s ∧ M = M0 ++ [List.zipWith optSub d1 d0]

theorem quadResult_unique {B : BeamEnv K} {C : List (List (Option K))} {bpms : List Nat} {cms : List Nat × List Nat} {dkick dk : K} {mode : String}
    {useIdeal skew : Bool} {order : Nat} {disp : Option (List Nat × K)} {s : SC K} {o : Nat} {M M' : List (List (Option K))}
    (h : QuadResult B C bpms cms dkick dk mode useIdeal skew order disp s o M)
    (h' : QuadResult B C bpms cms dkick dk mode useIdeal skew order disp s o M') : M = M' := by
  obtain ⟨r, RM, M0, h1, h2, h3, h4⟩ := h
  obtain ⟨r', RM', M0', g1, g2, g3, g4⟩ := h'
  cases quadLattice_unique h1 g1
  have e := (h2 s).symm.trans (g2 s)
  simp only [Res.ok.injEq, and_true] at e
  subst e
  rw [h3] at g3; cases g3
  cases disp with
  | none => rw [h4, g4]
  | some d =>
    obtain ⟨d0, d1, a1, a2, a3⟩ := h4
    obtain ⟨e0, e1, b1, b2, b3⟩ := g4
    rw [a1] at b1; rw [a2] at b2
    simp only [Res.ok.injEq, and_true] at b1 b2
    rw [a3, b3, b1, b2]

theorem quadResponse_ok {B : BeamEnv K} {C : List (List (Option K))} {bpms : List Nat} {cms : List Nat × List Nat} {dkick dk : K} {mode : String}
    {useIdeal skew : Bool} {order : Nat} {disp : Option (List Nat × K)} {s t t' : SC K} {o : Nat} {M : List (List (Option K))}
    (hlim : skew = true → order = 1 → skewLimit s.RING o = .inf) (hst : SameModel s t)
    (h : quadResponse B C bpms cms dkick dk mode useIdeal skew order "add" disp o t = .ok M t') :
    SameModel s t' ∧ QuadResult B C bpms cms dkick dk mode useIdeal skew order disp s o M := by
  have hlimOf : ∀ t : SC K, SameModel s t → skew = true → order = 1 → skewLimit t.RING o = .inf := by
    intro t ht h1 h2
    rw [← hlim h1 h2]
    exact skewLimit_congr (ht.other o _ (by decide))
  have hws : ∀ s : SC K, skewLimit (withStrength s o skew order dk).RING o = skewLimit s.RING o := by
    intro s
    refine skewLimit_congr (Ring.attr_setAttr_ne ?_)
    cases skew <;> decide
  -- what happens from setting to setting back
  have core : ∀ (t1 t2 t3 : SC K) (RM : List (List (Option K))),
      setMagnetSetpoints [o] ⟨false, [dk]⟩ skew order "add" false t = .ok () t1 →
      modelRM B bpms cms mode (List.replicate 6 0) 1 dkick useIdeal t1 = .ok RM t2 →
      setMagnetSetpoints [o] ⟨false, [-dk]⟩ skew order "add" false t2 = .ok () t3 →
      SameModel s t3 ∧ ∃ r, QuadLattice s useIdeal skew order dk o r ∧
        (∀ s0 : SC K, modelRM B bpms cms mode (List.replicate 6 0) 1 dkick true (withDesign s0 r) = .ok RM (withDesign s0 r)) := by
    intro t1 t2 t3 RM h1 h2 h3
    obtain ⟨m1, v, hv, hn⟩ := setMagnet_withStrength (hlimOf t hst) h1
    have ho' := Ring.attr_some_lt hv
    have ho : o < s.RING.length := by rw [← hst.len]; exact ho'
    have m2 : SameModel (withStrength s o skew order dk) t1 := (withStrength_same hst ho skew order dk).trans m1
    obtain ⟨r, hr, hRM⟩ := modelRM_lattice h2
    obtain ⟨c1, c2⟩ := chooseModel_eq_ok hr
    have hq : QuadLattice s useIdeal skew order dk o r ∧ SameModel t1 t2 := by
      cases useIdeal with
      | true =>
        obtain ⟨e1, e2⟩ := c1 rfl
        refine ⟨⟨fun _ => by rw [e1, m2.ideal]; rfl, fun hh => by cases hh⟩, ?_⟩
        rw [e2]; exact SameModel.refl _
      | false =>
        obtain ⟨q1, q2⟩ := modelRing_eq_ok (c2 rfl)
        exact ⟨⟨fun hh => (by cases hh), fun _ => m2.model q1⟩, dipolesLost_same q2⟩
    refine ⟨?_, r, hq.1, hRM⟩
    have m3 := m2.trans hq.2
    have hl3 : skew = true → order = 1 → skewLimit t2.RING o = .inf := by
      intro g1 g2
      rw [skewLimit_congr (m3.other o _ (by decide)), hws, hlim g1 g2]
    obtain ⟨m4, -⟩ := setMagnet_withStrength hl3 h3
    have ho2 : o < (withStrength s o skew order dk).RING.length := by simp only [withStrength, Ring.length_setAttr]; exact ho
    have m5 := (withStrength_same m3 ho2 skew order (-dk)).trans m4
    have hvs : ∃ w, s.RING.attr o ("SetPoint" ++ plane skew) = some (.vec w) ∧ order < w.length := by
      rcases hst.sp o skew with e | ⟨w, w', e1, e2, e3, -⟩
      · exact ⟨v, by rw [← e, hv], hn⟩
      · rw [hv] at e2; cases e2; exact ⟨w, e1, by omega⟩
    obtain ⟨w, hw, hnw⟩ := hvs
    have m6 := withStrength_back (d := dk) hw hnw
    refine SameModel.trans ?_ m5
    refine ⟨m6.len.symm, m6.ideal.symm, m6.ord.symm, fun i a ha => (m6.other i a ha).symm, fun i sk => ?_⟩
    rcases m6.sp i sk with e | ⟨w, w', e1, e2, e3, e4⟩
    · exact Or.inl e.symm
    · exact Or.inr ⟨w', w, e2, e1, e3.symm, fun k hk => (e4 k hk).symm⟩
  unfold quadResponse at h
  cases disp with
  | none =>
    simp only [bind_eq_ok] at h
    obtain ⟨_, t1, h1, RM, t2, h2, _, t3, h3, h⟩ := h
    rw [lift_eq_ok] at h
    obtain ⟨h4, rfl⟩ := h
    obtain ⟨k1, r, k2, k3⟩ := core t1 t2 _ RM h1 h2 h3
    exact ⟨k1, r, RM, M, k2, k3, h4, rfl⟩
  | some d =>
    obtain ⟨cavs, rfStep⟩ := d
    simp only [bind_eq_ok] at h
    obtain ⟨d0, t0, h0, _, t1, h1, RM, t2, h2, d1, t2', h5, _, t3, h3, M0, t4, h4, h⟩ := h
    obtain ⟨rfl, g0⟩ := modelDispersion_design h0
    obtain ⟨rfl, g5⟩ := modelDispersion_design h5
    rw [lift_eq_ok] at h4
    obtain ⟨h4, rfl⟩ := h4
    cases h
    obtain ⟨k1, r, k2, k3⟩ := core t1 _ _ RM h1 h2 h3
    refine ⟨k1, r, RM, M0, k2, k3, h4, d0, d1, g0 s hst.ideal.symm, g5 s ?_, rfl⟩
    obtain ⟨m1, -⟩ := setMagnet_withStrength (hlimOf _ hst) h1
    have e1 : t1.IDEALRING = s.IDEALRING := by rw [m1.ideal]; exact hst.ideal
    obtain ⟨r', hr', -⟩ := modelRM_lattice h2
    obtain ⟨c1, c2⟩ := chooseModel_eq_ok hr'
    rw [← e1]
    cases useIdeal with
    | true => rw [(c1 rfl).2]
    | false => exact (modelRing_eq_ok (c2 rfl)).2.rest.ideal.symm

/-- the calls of one process -/
theorem quadChunk_ok {B : BeamEnv K} {C : List (List (Option K))} {bpms : List Nat} {cms : List Nat × List Nat} {dkick dk : K} {mode : String}
    {useIdeal skew : Bool} {order : Nat} {disp : Option (List Nat × K)} {s : SC K} {qs : List Nat}
    (hlim : ∀ o ∈ qs, skew = true → order = 1 → skewLimit s.RING o = .inf) {t t' : SC K} {out : List (List (List (Option K)))}
    (hst : SameModel s t) (h : mapEach qs (quadResponse B C bpms cms dkick dk mode useIdeal skew order "add" disp) t = .ok out t') :
    List.Forall₂ (QuadResult B C bpms cms dkick dk mode useIdeal skew order disp s) qs out := by
  induction qs generalizing t out with
  | nil => cases h; exact .nil
  | cons o qs ih =>
    simp only [mapEach_cons, bind_eq_ok] at h
    obtain ⟨M, t1, h1, ys, t2, h2, h⟩ := h
    cases h
    obtain ⟨k1, k2⟩ := quadResponse_ok (hlim o List.mem_cons_self) hst h1
    exact .cons k2 (ih (fun o ho => hlim o (List.mem_cons_of_mem _ ho)) k1 h2)

theorem poolMap_ok {B : BeamEnv K} {C : List (List (Option K))} {bpms : List Nat} {cms : List Nat × List Nat} {dkick dk : K} {mode : String}
    {useIdeal skew : Bool} {order : Nat} {disp : Option (List Nat × K)} {s : SC K} {chunks : List (List Nat)}
    (hlim : ∀ o ∈ chunks.flatten, skew = true → order = 1 → skewLimit s.RING o = .inf) {res : List (List (List (Option K)))}
    (h : poolMap s chunks (quadResponse B C bpms cms dkick dk mode useIdeal skew order "add" disp) = .ok res) :
    List.Forall₂ (QuadResult B C bpms cms dkick dk mode useIdeal skew order disp s) chunks.flatten res := by
  unfold poolMap at h
  rw [Except.bind_eq_ok'] at h
  obtain ⟨outs, h, he⟩ := h
  cases he
  induction chunks generalizing outs with
  | nil => cases h; exact .nil
  | cons c chunks ih =>
    rw [List.mapM_cons, Except.bind_eq_ok'] at h
    obtain ⟨out, h1, h⟩ := h
    rw [Except.bind_eq_ok'] at h
    obtain ⟨outs', h2, h⟩ := h
    cases h
    rw [List.flatten_cons, List.flatten_cons]
    refine List.rel_append ?_ (ih (fun o ho => hlim o (by rw [List.flatten_cons]; exact List.mem_append_right _ ho)) outs' h2)
    unfold elsewhere at h1
    cases hm : mapEach c (quadResponse B C bpms cms dkick dk mode useIdeal skew order "add" disp) s with
    | error e t => rw [hm] at h1; cases h1
    | ok a t =>
      rw [hm] at h1; cases h1
      exact quadChunk_ok (fun o ho => hlim o (by rw [List.flatten_cons]; exact List.mem_append_left _ ho)) (SameModel.refl s) hm

/-! ### The Jacobian -/

/-- entry of a matrix given by columns -/
theorem cell_cons_zero {c : List (Option K)} {M : List (List (Option K))} {j : Nat} : cell (c :: M) j 0 = c[j]? := rfl
theorem cell_cons_succ {c : List (Option K)} {M : List (List (Option K))} {j k : Nat} : cell (c :: M) j (k + 1) = cell M j k := by
  simp [cell]

theorem subMatrix_eq_ok {A C M : List (List (Option K))} (h : subMatrix A C = .ok M) :
    A.map List.length = C.map List.length ∧ M = List.zipWith (List.zipWith optSub) A C := by
  unfold subMatrix at h
  by_cases hl : A.map List.length ≠ C.map List.length
  · rw [if_pos hl] at h; cases h
  · rw [if_neg hl] at h; cases h; exact ⟨not_not.1 hl, rfl⟩

theorem subMatrix_length {A C M : List (List (Option K))} (h : subMatrix A C = .ok M) : M.length = C.length := by
  obtain ⟨h1, rfl⟩ := subMatrix_eq_ok h
  have := congrArg List.length h1
  simp only [List.length_map] at this
  simp [this]

theorem div_optSub (d : K) (a b : Option K) : (optSub a b).map (· / d) = quotient d a b := by
  cases a <;> cases b <;> rfl

theorem divMatrix_subMatrix {A C M : List (List (Option K))} {d : K} (h : subMatrix A C = .ok M) :
    ∀ j k x, cell (divMatrix d M) j k = some x ↔ ∃ a b, cell A j k = some a ∧ cell C j k = some b ∧ x = quotient d a b := by
  obtain ⟨-, rfl⟩ := subMatrix_eq_ok h
  clear h
  intro j k x
  induction A generalizing C k with
  | nil => simp [cell, divMatrix]
  | cons a A ih =>
    cases C with
    | nil => simp [cell, divMatrix]
    | cons c C =>
      cases k with
      | zero =>
        simp only [divMatrix, List.zipWith_cons_cons, List.map_cons, cell_cons_zero, List.getElem?_map, List.getElem?_zipWith]
        cases a[j]? <;> cases c[j]? <;> simp [div_optSub, eq_comm]
      | succ k =>
        have := ih (C := C) (k := k)
        simp only [divMatrix] at this
        simp only [divMatrix, List.zipWith_cons_cons, List.map_cons, cell_cons_succ]
        exact this

theorem divMatrix_length (d : K) (M : List (List (Option K))) : (divMatrix d M).length = M.length := by simp [divMatrix]

theorem jacobian_eq_ok {B : BeamEnv K} {rows : Nat} {C : List (List (Option K))} {bpms : List Nat} {cms : List Nat × List Nat}
    {chunks : List (List Nat)} {dkick dk : K} {mode : String} {useIdeal skew : Bool} {order : Nat} {method : String}
    {disp : Option (List Nat × K)} {full : Bool} {s s' : SC K} {J : List (List (List (Option K)))}
    (h : jacobian B rows C bpms cms chunks dkick dk mode useIdeal skew order method disp full s = .ok J s') :
    s' = s ∧ ∃ res, poolMap s chunks (quadResponse B C bpms cms dkick dk mode useIdeal skew order method disp) = .ok res ∧
      (res ≠ [] → dk ≠ 0) ∧
      (full = false → J = res.map (divMatrix dk)) ∧
      (full = true → res ≠ [] ∧ (∀ m ∈ res, m.length = C.length) ∧ ∃ jc jb,
        (List.range (cms.1.length + cms.2.length)).mapM (gainColumn C) = .ok jc ∧
        (List.range (bpms.length * 2)).mapM (gainRow C rows) = .ok jb ∧ J = res.map (divMatrix dk) ++ jc ++ jb) := by
  unfold jacobian at h
  rw [bindGet_eq_ok, bindLift_eq_ok] at h
  obtain ⟨res, h1, h⟩ := h
  by_cases h0 : dk = 0 ∧ res ≠ []
  · rw [if_pos h0] at h; cases h
  rw [if_neg h0] at h
  have h0' : res ≠ [] → dk ≠ 0 := fun a b => h0 ⟨b, a⟩
  cases full with
  | false =>
    cases h
    exact ⟨rfl, res, h1, h0', fun _ => rfl, fun hh => by cases hh⟩
  | true =>
    simp only [if_true] at h
    rw [bindLift_eq_ok] at h
    obtain ⟨jc, h2, h⟩ := h
    rw [bindLift_eq_ok] at h
    obtain ⟨jb, h3, h⟩ := h
    by_cases hc : (res.map (divMatrix dk) = [] ∨ ∃ m ∈ res.map (divMatrix dk), m.length ≠ C.length)
    · rw [if_pos hc] at h; cases h
    rw [if_neg hc] at h
    cases h
    push Not at hc
    refine ⟨rfl, res, h1, h0', fun hh => (by cases hh), fun _ => ⟨fun hr => hc.1 (by rw [hr]; rfl), fun m hm => ?_, jc, jb, h2, h3, rfl⟩⟩
    have := hc.2 _ (List.mem_map_of_mem hm)
    rwa [divMatrix_length] at this

theorem gainColumn_eq_ok {C M : List (List (Option K))} {i : Nat} (h : gainColumn C i = .ok M) :
    ∀ j k x, cell M j k = some x ↔ ∃ y, cell C j k = some y ∧ x = if k = i then y else some 0 := by
  unfold gainColumn at h
  cases hc : C[i]? with
  | none => rw [hc] at h; cases h
  | some c =>
    rw [hc] at h; cases h
    intro j k x
    obtain ⟨hi, -⟩ := List.getElem?_eq_some_iff.1 hc
    unfold cell
    rw [List.getElem?_set]
    by_cases hk : i = k
    · subst hk
      simp only [if_true, List.length_map, hi, hc, Option.bind_some]
      constructor
      · intro h; exact ⟨x, h, rfl⟩
      · rintro ⟨y, h, rfl⟩; exact h
    · rw [if_neg hk, List.getElem?_map]
      have hk' : ¬ k = i := fun h => hk h.symm
      simp only [hk', if_false]
      cases C[k]? with
      | none => simp
      | some d =>
        simp only [Option.map_some, Option.bind_some, List.getElem?_map]
        cases hd : d[j]? <;> simp [eq_comm]

theorem gainRow_eq_ok {C M : List (List (Option K))} {rows i : Nat} (hrows : ∀ c ∈ C, c.length = rows) (h : gainRow C rows i = .ok M) :
    ∀ j k x, cell M j k = some x ↔ ∃ y, cell C j k = some y ∧ x = if j = i then y else some 0 := by
  unfold gainRow at h
  by_cases hi : rows ≤ i
  · rw [if_pos hi] at h; cases h
  rw [if_neg hi] at h; cases h
  intro j k x
  unfold cell
  rw [List.getElem?_map]
  cases hc : C[k]? with
  | none => simp
  | some c =>
    have hl := hrows c (List.mem_of_getElem? hc)
    have hi' : i < c.length := by omega
    simp only [Option.map_some, Option.bind_some]
    rw [List.getElem?_set]
    by_cases hj : i = j
    · subst hj
      simp [hi', eq_comm]
    · have hj' : ¬ j = i := fun h => hj h.symm
      simp only [hj, hj', if_false, List.getElem?_map]
      cases hd : c[j]? <;> simp [eq_comm]

/-- with dispersion the matrices have one more column -/
theorem quadResponse_extra {B : BeamEnv K} {C : List (List (Option K))} {bpms : List Nat} {cms : List Nat × List Nat} {dkick dk : K} {mode : String}
    {useIdeal skew : Bool} {order : Nat} {method : String} {d : List Nat × K} {t t' : SC K} {o : Nat} {M : List (List (Option K))}
    (h : quadResponse B C bpms cms dkick dk mode useIdeal skew order method (some d) o t = .ok M t') : M.length = C.length + 1 := by
  unfold quadResponse at h
  obtain ⟨cavs, rfStep⟩ := d
  simp only [bind_eq_ok] at h
  obtain ⟨d0, t0, h0, _, t1, h1, RM, t2, h2, d1, t2', h5, _, t3, h3, M0, t4, h4, h⟩ := h
  rw [lift_eq_ok] at h4
  cases h
  simp [subMatrix_length h4.1]

theorem mapEach_all {σ α β : Type} {f : β → Py σ α} {P : α → Prop} (hf : ∀ b s a s', f b s = .ok a s' → P a) {l : List β} {s s' : σ}
    {out : List α} (h : mapEach l f s = .ok out s') : ∀ a ∈ out, P a := by
  induction l generalizing s out with
  | nil => cases h; simp
  | cons b l ih =>
    simp only [mapEach_cons, bind_eq_ok] at h
    obtain ⟨a, s1, h1, ys, s2, h2, h⟩ := h
    cases h
    intro x hx
    rcases List.mem_cons.1 hx with rfl | hx
    · exact hf _ _ _ _ h1
    · exact ih h2 x hx

theorem poolMap_all {σ α β : Type} {f : β → Py σ α} {P : α → Prop} (hf : ∀ b s a s', f b s = .ok a s' → P a) {chunks : List (List β)} {s : σ}
    {out : List α} (h : poolMap s chunks f = .ok out) : ∀ a ∈ out, P a := by
  unfold poolMap at h
  rw [Except.bind_eq_ok'] at h
  obtain ⟨outs, h, he⟩ := h
  cases he
  intro a ha
  obtain ⟨o, ho, ha⟩ := List.mem_flatten.1 ha
  obtain ⟨c, -, hc⟩ := mapM_except_src h ho
  unfold elsewhere at hc
  cases hm : mapEach c f s with
  | error e t => rw [hm] at hc; cases hc
  | ok x t => rw [hm] at hc; cases hc; exact mapEach_all hf hm a ha

end PySC
