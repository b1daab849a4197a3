import Verif.Lemmas.Fields
import Verif.Spec.Setpoints
namespace PySC
open Spec
set_option linter.unusedSectionVars false
variable {K : Type _} [Field K] [LinearOrder K] [FloorRing K]
open Py

theorem plane_eq_letter (skew : Bool) : plane skew = letter skew := rfl

theorem normBy_eq_ok {r : Ring K} {i : Nat} {skew : Bool} {x : K} (h : normBy r i skew = .ok x) :
    x = kickFactor r i skew := by
  simp only [normBy, Except.bind_eq_ok', Ring.getStr_eq_ok, Except.ite_eq_ok, Ring.getNum_eq_ok] at h
  obtain ⟨p, hp, ⟨hc, h⟩ | ⟨hc, len, hl, h⟩⟩ := h
  · simp at h; subst hc h; simp [kickFactor, hp]
  · simp at h; subst h
    have hne : ¬ r.attr i "PassMethod" = some (.str "CorrectorPass") := by rw [hp]; simpa using hc
    simp only [kickFactor, if_neg hne, numAt_of_attr hl]

/-- value stored when the limit `l` is applied to `x` -/
def clipped (isInt : Bool) (l : Lim K) (x : K) : K := if exceeds x l then store isInt (signLim x l) else x

theorem clipCM_eq_ok {r : Ring K} {i : Nat} {skew isInt : Bool} {x y : K} (h : clipCM r i skew isInt x = .ok y) :
    y = clipped isInt (kickLimit r i skew) x := by
  simp only [clipCM, Except.bind_eq_ok', Ring.hasA_eq_ok, Except.ite_eq_ok, Ring.getA_eq_ok, idx_eq_ok] at h
  obtain ⟨b, ⟨-, rfl⟩, ⟨-, a, ha, ls, hls, l, hl, h⟩ | ⟨hno, h⟩⟩ := h
  · cases a <;> simp [Attr.toLims] at hls
    subst hls
    simp at h; subst h
    simp [kickLimit, ha, clipped, List.getD_eq_getElem?_getD, hl]
  · simp at hno h; subst h
    simp [kickLimit, hno, clipped, exceeds]

/-- the request after the method has been applied, as stored in the array of set-points -/
def requested (isInt : Bool) (method : String) (x c : K) : K :=
  if method = "rel" then store isInt (x * c) else if method = "add" then store isInt (x + c) else x

/-- new kick as a function of the old one -/
def nextKick (isInt : Bool) (method : String) (l : Lim K) (x c : K) : K :=
  clipped isInt l (requested isInt method x c)

/-- one iteration of the loop of `set_cm_setpoints` -/
theorem newCM_spec {r : Ring K} {skew isInt : Bool} {method : String} {o : Nat} {x : K} {w : List K}
    (h : newCM r skew method isInt o x = .ok w) :
    ∃ v, r.attr o ("SetPoint" ++ plane skew) = some (.vec v) ∧ 0 < v.length ∧ kickFactor r o skew ≠ 0 ∧
      w = v.set 0 (nextKick isInt method (kickLimit r o skew) x (kick r o skew) / kickFactor r o skew) := by
  simp only [newCM, Except.bind_eq_ok', Ring.getVec_eq_ok, idx_eq_ok, divE_eq_ok] at h
  obtain ⟨nb, hnb, v, hv, cur, hcur, sp2, hsp2, y, ⟨hnb0, rfl⟩, h⟩ := h
  obtain rfl := normBy_eq_ok hnb
  refine ⟨v, hv, (List.getElem?_eq_some_iff.1 hcur).1, hnb0, ?_⟩
  simp at h; subst h
  have hk : kick r o skew = cur * kickFactor r o skew := by
    unfold kick setpoint; rw [plane_eq_letter, vecAt_of_attr hv, coef_of_getElem? hcur]
  rw [hk, clipCM_eq_ok hsp2]
  simp only [nextKick, requested]

theorem setCM1_eq_ok {skew isInt : Bool} {method : String} {o : Nat} {x : K} {s s' : SC K} {u : Unit}
    (h : setCM1 skew method isInt o x s = .ok u s') :
    ∃ v, s.RING.attr o ("SetPoint" ++ plane skew) = some (.vec v) ∧ 0 < v.length ∧ kickFactor s.RING o skew ≠ 0 ∧
      s' = { s with RING := s.RING.setAttr o ("SetPoint" ++ plane skew) (.vec (v.set 0
        (nextKick isInt method (kickLimit s.RING o skew) x (kick s.RING o skew) / kickFactor s.RING o skew))) } := by
  simp only [setCM1, bind_eq_ok, rd_eq_ok, setAttr_eq_ok] at h
  obtain ⟨w, _, ⟨hw, rfl⟩, -, rfl⟩ := h
  obtain ⟨v, hv, hl, hn, rfl⟩ := newCM_spec hw
  exact ⟨v, hv, hl, hn, rfl⟩

/-- quantities that depend only on attributes that are not set-points -/
theorem kickFactor_congr {r r' : Ring K} {i : Nat} {skew : Bool} (h1 : r'.attr i "PassMethod" = r.attr i "PassMethod")
    (h2 : r'.attr i "Length" = r.attr i "Length") : kickFactor r' i skew = kickFactor r i skew := by
  simp [kickFactor, numAt, h1, h2]
theorem kickLimit_congr {r r' : Ring K} {i : Nat} {skew : Bool} (h1 : r'.attr i "CMlimit" = r.attr i "CMlimit") :
    kickLimit r' i skew = kickLimit r i skew := by
  simp [kickLimit, h1]
theorem setpoint_congr {r r' : Ring K} {i : Nat} {skew : Bool} {k : Nat}
    (h1 : r'.attr i ("SetPoint" ++ plane skew) = r.attr i ("SetPoint" ++ plane skew)) :
    setpoint r' i skew k = setpoint r i skew k := by
  simp [setpoint, vecAt, h1]

theorem kick_congr {r r' : Ring K} {i : Nat} {skew : Bool}
    (h1 : r'.attr i ("SetPoint" ++ plane skew) = r.attr i ("SetPoint" ++ plane skew))
    (h2 : r'.attr i "PassMethod" = r.attr i "PassMethod") (h3 : r'.attr i "Length" = r.attr i "Length") :
    kick r' i skew = kick r i skew := by
  unfold kick; rw [kickFactor_congr h2 h3, setpoint_congr h1]

/-- a frame that keeps what determines kicks except the set-points -/
theorem Frame.kickFactor {W : Nat → String → Prop} {s s' : SC K} (h : Frame W s s') (i : Nat) (skew : Bool)
    (h1 : ¬ W i "PassMethod") (h2 : ¬ W i "Length") :
    Spec.kickFactor s'.RING i skew = Spec.kickFactor s.RING i skew :=
  kickFactor_congr (h.attr _ _ h1) (h.attr _ _ h2)

/-- attribute names written by the set-point methods -/
def spNames : List String := ["SetPointA", "SetPointB"]

theorem plane_mem (skew : Bool) : "SetPoint" ++ plane skew ∈ spNames := by cases skew <;> simp [plane, spNames]

theorem setCM1_modifies {skew isInt : Bool} {method : String} {o : Nat} {x : K} :
    Modifies (K := K) (fun i a => i = o ∧ a = "SetPoint" ++ plane skew) (setCM1 skew method isInt o x) := by
  unfold setCM1
  have : (fun i a => i = o ∧ a = "SetPoint" ++ plane skew) o ("SetPoint" ++ letter skew) := ⟨rfl, rfl⟩
  frames

theorem SC.kick_setAttr {r : Ring K} {o : Nat} {skew : Bool} {v : List K} {y : K} (hl : 0 < v.length)
    (ho : o < r.length) :
    kick (r.setAttr o ("SetPoint" ++ plane skew) (.vec (v.set 0 y))) o skew = y * kickFactor r o skew := by
  unfold kick
  rw [kickFactor_congr (r := r)]
  · unfold setpoint
    rw [vecAt_of_attr (Ring.attr_setAttr_same ho), coef_set _ _ _ _ hl, if_pos rfl]
  · exact Ring.attr_setAttr_ne (by cases skew <;> simp [plane])
  · exact Ring.attr_setAttr_ne (by cases skew <;> simp [plane])

theorem plane_inj {a b : Bool} : "SetPoint" ++ plane a = "SetPoint" ++ plane b ↔ a = b := by
  cases a <;> cases b <;> simp [plane]

theorem ne_setPoint {a : String} (h : a ∉ spNames) (skew : Bool) : a ≠ "SetPoint" ++ plane skew := by
  rintro rfl; exact h (plane_mem skew)

/-- effect of one iteration on all kicks -/
theorem setCM1_kick {skew isInt : Bool} {method : String} {o : Nat} {x : K} {s s' : SC K} {u : Unit}
    (h : setCM1 skew method isInt o x s = .ok u s') (i : Nat) (sk : Bool) :
    kick s'.RING i sk = if i = o ∧ sk = skew
      then nextKick isInt method (kickLimit s.RING i sk) x (kick s.RING i sk) else kick s.RING i sk := by
  obtain ⟨v, hv, hl, hn, rfl⟩ := setCM1_eq_ok h
  simp only
  split
  · rename_i hh; obtain ⟨rfl, rfl⟩ := hh
    rw [SC.kick_setAttr hl (Ring.attr_some_lt hv)]
    field_simp
  · rename_i hh
    refine kick_congr ?_ ?_ ?_
    · rw [Ring.attr_setAttr, if_neg]
      rintro ⟨rfl, h2⟩
      exact hh ⟨rfl, plane_inj.1 h2⟩
    · exact Ring.attr_setAttr_ne (ne_setPoint (by simp [spNames]) _)
    · exact Ring.attr_setAttr_ne (ne_setPoint (by simp [spNames]) _)

/-- effect of the loop of `set_cm_setpoints` on one corrector -/
theorem setCMLoop_kick {skew isInt : Bool} {method : String} (l : List (Nat × K)) {s s' : SC K} {u : Unit}
    (h : forEach l (fun p => setCM1 skew method isInt p.1 p.2) s = .ok u s') (i : Nat) :
    kick s'.RING i skew = (l.filter (fun p => p.1 = i)).foldl
      (fun c p => nextKick isInt method (kickLimit s.RING i skew) p.2 c) (kick s.RING i skew) := by
  induction l generalizing s with
  | nil => simp at h; rw [h]; rfl
  | cons p l ih =>
    rw [forEach_cons, bind_eq_ok] at h
    obtain ⟨_, s1, h1, h2⟩ := h
    rw [ih h2]
    have hf := setCM1_modifies.ok h1
    have hlim : kickLimit s1.RING i skew = kickLimit s.RING i skew :=
      kickLimit_congr (hf.attr _ _ (by rintro ⟨-, h⟩; exact ne_setPoint (by simp [spNames]) _ h))
    rw [hlim, setCM1_kick h1]
    by_cases hp : p.1 = i
    · simp [hp]
    · simp [hp, Ne.symm hp]

theorem setCMLoop_modifies {skew isInt : Bool} {method : String} (l : List (Nat × K)) :
    Modifies (K := K) (fun i a => i ∈ l.map Prod.fst ∧ a = "SetPoint" ++ plane skew)
      (forEach l (fun p => setCM1 skew method isInt p.1 p.2)) := by
  refine Modifies.forEach (fun p hp => Modifies.mono ?_ setCM1_modifies)
  rintro i a ⟨rfl, rfl⟩
  exact ⟨List.mem_map_of_mem hp, rfl⟩

theorem updateMagnets_keeps {ords : Option (List Nat)} {s : SC K} {i : Nat} {a : String} (ha : a ∉ magnetWrites) :
    (updateMagnets ords s).state.RING.attr i a = s.RING.attr i a :=
  (updateMagnets_modifies ords s).attr i a ha

theorem updateMagnets_kick (ords : Option (List Nat)) (s : SC K) (i : Nat) (skew : Bool) :
    kick (updateMagnets ords s).state.RING i skew = kick s.RING i skew := by
  refine kick_congr ?_ ?_ ?_
  · exact updateMagnets_keeps (by cases skew <;> simp [plane, magnetWrites])
  · exact updateMagnets_keeps (by simp [magnetWrites])
  · exact updateMagnets_keeps (by simp [magnetWrites])

/-- the values used for the individual ordinates -/
def spread (n : Nat) (vals : List K) : List K := if vals.length = 1 then List.replicate n (vals.headD 0) else vals

theorem checkInput_eq_ok {method : String} {ords : List Nat} {sp sps : NpArr K}
    (h : checkInput method ords sp = .ok sps) :
    method ∈ settingMethods ∧ (sp.vals.length = 1 ∨ sp.vals.length = ords.length) ∧
      sps = ⟨sp.isInt, spread ords.length sp.vals⟩ := by
  unfold checkInput at h
  split at h
  · simp at h
  · rename_i hm
    split at h
    · simp at h
    · rename_i hl
      refine ⟨by simpa using hm, by omega, ?_⟩
      unfold spread
      split at h <;> rename_i h1 <;> simp at h <;> simp [h1, ← h]

theorem length_spread {n : Nat} {vals : List K} (h : vals.length = 1 ∨ vals.length = n) :
    (spread n vals).length = n := by
  unfold spread; split
  · simp
  · omega

/-- `set_cm_setpoints` decomposed -/
theorem setCMSetpoints_eq_ok {ords : List Nat} {sp : NpArr K} {skew : Bool} {method : String} {s s' : SC K} {u : Unit}
    (h : setCMSetpoints ords sp skew method s = .ok u s') :
    method ∈ settingMethods ∧ (sp.vals.length = 1 ∨ sp.vals.length = ords.length) ∧
    ∃ s1, forEach (ords.zip (spread ords.length sp.vals)) (fun p => setCM1 skew method sp.isInt p.1 p.2) s = .ok () s1 ∧
      updateMagnets (some ords) s1 = .ok () s' := by
  simp only [setCMSetpoints, bind_eq_ok, lift_eq_ok] at h
  obtain ⟨sps, _, ⟨h1, rfl⟩, _, s1, h2, h3⟩ := h
  obtain ⟨hm, hl, rfl⟩ := checkInput_eq_ok h1
  exact ⟨hm, hl, s1, h2, h3⟩

theorem setCMSetpoints_kick {ords : List Nat} {sp : NpArr K} {skew : Bool} {method : String} {s s' : SC K} {u : Unit}
    (h : setCMSetpoints ords sp skew method s = .ok u s') (i : Nat) :
    kick s'.RING i skew = ((ords.zip (spread ords.length sp.vals)).filter (fun p => p.1 = i)).foldl
      (fun c p => nextKick sp.isInt method (kickLimit s.RING i skew) p.2 c) (kick s.RING i skew) := by
  obtain ⟨-, -, s1, h1, h2⟩ := setCMSetpoints_eq_ok h
  have := updateMagnets_kick (some ords) s1 i skew
  rw [h2] at this
  rw [← setCMLoop_kick _ h1 i]
  exact this

theorem setCMSetpoints_modifies (ords : List Nat) (sp : NpArr K) (skew : Bool) (method : String) :
    Modifies (K := K) (fun i a => (i ∈ ords ∧ a = "SetPoint" ++ plane skew) ∨ a ∈ magnetWrites)
      (setCMSetpoints ords sp skew method) := by
  unfold setCMSetpoints
  refine Modifies.bind (Modifies.lift _) (fun sps => Modifies.bind ?_ (fun _ => ?_))
  · refine Modifies.mono ?_ (setCMLoop_modifies _)
    rintro i a ⟨h1, h2⟩
    left
    refine ⟨?_, h2⟩
    simp only [List.mem_map] at h1
    obtain ⟨p, hp, rfl⟩ := h1
    exact (List.of_mem_zip (a := p.1) (b := p.2) hp).1
  · exact Modifies.mono (fun _ _ h => Or.inr h) (updateMagnets_modifies _)

/-! ### reading back -/
/-- `get_cm_setpoints` can read this corrector -/
def Readable (r : Ring K) (o : Nat) (skew : Bool) : Prop :=
  (∃ v, r.attr o ("SetPoint" ++ plane skew) = some (.vec v) ∧ 0 < v.length) ∧ ∃ x, normBy r o skew = .ok x

theorem Readable.getCM1 {r : Ring K} {o : Nat} {skew : Bool} (h : Readable r o skew) :
    getCM1 r skew o = .ok (kick r o skew) := by
  obtain ⟨⟨v, hv, hl⟩, x, hx⟩ := h
  have h0 : r.getVecAt o ("SetPoint" ++ letter skew) 0 = .ok (coef v 0) :=
    Ring.getVecAt_eq_ok.2 ⟨v, hv, by simp [coef, hl]⟩
  simp only [PySC.getCM1, h0, hx, Except.ok_bind', kick, setpoint, vecAt_of_attr hv, normBy_eq_ok hx]

theorem normBy_congr {r r' : Ring K} {i : Nat} {skew : Bool} (hl : r'.length = r.length)
    (h1 : r'.attr i "PassMethod" = r.attr i "PassMethod")
    (h2 : r'.attr i "Length" = r.attr i "Length") : normBy r' i skew = normBy r i skew := by
  simp only [normBy, Ring.getStr, Ring.getNum, Ring.getA_congr hl h1, Ring.getA_congr hl h2]

theorem Readable.congr {r r' : Ring K} {i : Nat} {skew : Bool} (hl : r'.length = r.length)
    (h0 : r'.attr i ("SetPoint" ++ plane skew) = r.attr i ("SetPoint" ++ plane skew))
    (h1 : r'.attr i "PassMethod" = r.attr i "PassMethod")
    (h2 : r'.attr i "Length" = r.attr i "Length") (h : Readable r i skew) : Readable r' i skew := by
  unfold Readable
  rw [h0, normBy_congr hl h1 h2]
  exact h

theorem setCM1_readable {skew isInt : Bool} {method : String} {o : Nat} {x : K} {s s' : SC K} {u : Unit}
    (h : setCM1 skew method isInt o x s = .ok u s') (i : Nat) (hi : i = o ∨ Readable s.RING i skew) :
    Readable s'.RING i skew := by
  have hf := setCM1_modifies.ok h
  have e1 := hf.attr i "PassMethod" (by rintro ⟨-, h⟩; exact ne_setPoint (by simp [spNames]) _ h)
  have e2 := hf.attr i "Length" (by rintro ⟨-, h⟩; exact ne_setPoint (by simp [spNames]) _ h)
  by_cases hio : i = o
  · subst hio
    obtain ⟨v, hv, hl, -, hs'⟩ := setCM1_eq_ok h
    have hn : ∃ nb, normBy s.RING i skew = .ok nb := by
      simp only [setCM1, bind_eq_ok, rd_eq_ok, newCM, Except.bind_eq_ok'] at h
      obtain ⟨_, _, ⟨⟨nb, hnb, -⟩, -⟩, -⟩ := h
      exact ⟨nb, hnb⟩
    refine ⟨⟨_, by rw [hs']; exact Ring.attr_setAttr_same (Ring.attr_some_lt hv), by simpa using hl⟩, ?_⟩
    · rw [normBy_congr hf.len e1 e2]; exact hn
  · rcases hi with hi | hi
    · exact absurd hi hio
    · exact hi.congr hf.len (hf.attr _ _ (fun h => hio h.1)) e1 e2

theorem setCMLoop_readable {skew isInt : Bool} {method : String} (l : List (Nat × K)) {s s' : SC K} {u : Unit}
    (h : forEach l (fun p => setCM1 skew method isInt p.1 p.2) s = .ok u s') (i : Nat)
    (hi : i ∈ l.map Prod.fst ∨ Readable s.RING i skew) : Readable s'.RING i skew := by
  induction l generalizing s with
  | nil => simp at h hi; rw [← h]; exact hi
  | cons p l ih =>
    rw [forEach_cons, bind_eq_ok] at h
    obtain ⟨_, s1, h1, h2⟩ := h
    refine ih h2 ?_
    by_cases hil : i ∈ l.map Prod.fst
    · exact Or.inl hil
    · right
      refine setCM1_readable h1 i ?_
      rcases hi with hi | hi
      · simp only [List.map_cons, List.mem_cons] at hi
        rcases hi with hi | hi
        · exact Or.inl hi
        · exact absurd hi hil
      · exact Or.inr hi

theorem map_fst_zip_spread {ords : List Nat} {vals : List K} (h : vals.length = 1 ∨ vals.length = ords.length) :
    (ords.zip (spread ords.length vals)).map Prod.fst = ords := by
  rw [List.map_fst_zip]; rw [length_spread h]

theorem setCMSetpoints_readable {ords : List Nat} {sp : NpArr K} {skew : Bool} {method : String} {s s' : SC K}
    {u : Unit} (h : setCMSetpoints ords sp skew method s = .ok u s') {i : Nat} (hi : i ∈ ords) :
    Readable s'.RING i skew := by
  obtain ⟨-, hl, s1, h1, h2⟩ := setCMSetpoints_eq_ok h
  have h3 := setCMLoop_readable _ h1 i (Or.inl (by rw [map_fst_zip_spread hl]; exact hi))
  have hf := (updateMagnets_modifies (some ords)).ok h2
  exact h3.congr hf.len (hf.attr _ _ (by cases skew <;> simp [plane, magnetWrites]))
    (hf.attr _ _ (by simp [magnetWrites])) (hf.attr _ _ (by simp [magnetWrites]))

theorem mapM_except_ok {α β : Type _} {f : α → Except Err β} {g : α → β} {l : List α}
    (h : ∀ x ∈ l, f x = .ok (g x)) : l.mapM f = .ok (l.map g) := by
  induction l with
  | nil => rfl
  | cons x xs ih =>
    rw [List.mapM_cons, h x (by simp), ih (fun y hy => h y (by simp [hy]))]
    rfl

theorem filter_fst_eq {l : List (Nat × K)} (hnd : (l.map Prod.fst).Nodup) {p : Nat × K} (hp : p ∈ l) :
    l.filter (fun q => q.1 = p.1) = [p] := by
  induction l with
  | nil => simp at hp
  | cons q l ih =>
    simp only [List.map_cons, List.nodup_cons] at hnd
    rcases List.mem_cons.1 hp with rfl | hp
    · simp only [List.filter_cons, decide_true, if_true, List.cons.injEq, true_and]
      rw [List.filter_eq_nil_iff]
      intro x hx hxq
      apply hnd.1
      simp at hxq
      rw [← hxq]
      exact List.mem_map_of_mem hx
    · have : q.1 ≠ p.1 := by
        intro h; apply hnd.1; rw [h]; exact List.mem_map_of_mem hp
      simp only [List.filter_cons, this, decide_false]
      simpa using ih hnd.2 hp

theorem filter_fst_nil {l : List (Nat × K)} {i : Nat} (h : i ∉ l.map Prod.fst) :
    l.filter (fun q => q.1 = i) = [] := by
  rw [List.filter_eq_nil_iff]
  intro x hx hxq
  simp at hxq
  exact h (hxq ▸ List.mem_map_of_mem hx)

theorem spread_getElem? {n : Nat} {vals : List K} (h : vals.length = 1 ∨ vals.length = n) {k : Nat} (hk : k < n) :
    (spread n vals)[k]? = some (valueFor vals k) := by
  unfold spread valueFor
  split
  · rename_i h1
    obtain ⟨x, rfl⟩ := List.length_eq_one_iff.1 h1
    simp [hk, coef]
  · rename_i h1
    have : k < vals.length := by omega
    simp [coef, this]

/-- with distinct ordinates each corrector gets exactly its own value -/
theorem setCMSetpoints_kick_distinct {ords : List Nat} {sp : NpArr K} {skew : Bool} {method : String} {s s' : SC K}
    {u : Unit} (h : setCMSetpoints ords sp skew method s = .ok u s') (hnd : ords.Nodup) {k : Nat} {o : Nat}
    (hk : ords[k]? = some o) :
    kick s'.RING o skew =
      nextKick sp.isInt method (kickLimit s.RING o skew) (valueFor sp.vals k) (kick s.RING o skew) := by
  obtain ⟨-, hl, -⟩ := setCMSetpoints_eq_ok h
  have hlt : k < ords.length := (List.getElem?_eq_some_iff.1 hk).1
  have hmem : (o, valueFor sp.vals k) ∈ ords.zip (spread ords.length sp.vals) := by
    rw [List.mem_iff_getElem?]
    refine ⟨k, ?_⟩
    rw [List.getElem?_zip_eq_some]
    exact ⟨hk, spread_getElem? hl hlt⟩
  rw [setCMSetpoints_kick h, filter_fst_eq (p := (o, valueFor sp.vals k)) (by rw [map_fst_zip_spread hl]; exact hnd) hmem]
  rfl

section order
variable [IsStrictOrderedRing K]

theorem clipped_eq_clip {l : Lim K} (hl : Lim.Nonneg l) (x : K) : clipped false l x = clip l x := by
  cases l with
  | inf => simp [clipped, clip, exceeds]
  | fin l =>
    have hl : 0 ≤ l := hl
    simp only [clipped, exceeds, store, signLim, clip, decide_eq_true_eq, Bool.false_eq_true, if_false]
    rw [abs_of_nonneg hl]
    split
    · rename_i h
      rcases lt_or_ge x 0 with hx | hx
      · rw [abs_of_neg hx] at h
        simp only [npSign, hx, if_true]
        rw [min_eq_left (by linarith), max_eq_left (by linarith)]; ring
      · rw [abs_of_nonneg hx] at h
        have : 0 < x := lt_of_le_of_lt hl h
        simp only [npSign, not_lt.2 hx, if_false, this, if_true]
        rw [min_eq_right (by linarith), max_eq_right (by linarith)]; ring
    · rename_i h
      rw [not_lt, abs_le] at h
      rw [min_eq_left h.2, max_eq_right h.1]

theorem nextKick_float {method : String} {l : Lim K} (hl : Lim.Nonneg l) (x c : K) :
    nextKick false method l x c = clip l (asked method x c) := by
  unfold nextKick
  rw [clipped_eq_clip hl]
  simp [requested, asked, store]

theorem abs_truncZ_le (x : K) : |truncZ x| ≤ |x| := by
  unfold truncZ
  split
  · rename_i h
    have h1 : (0 : K) ≤ (⌊x⌋ : K) := by exact_mod_cast Int.floor_nonneg.2 h
    rw [abs_of_nonneg h1, abs_of_nonneg h]
    exact Int.floor_le x
  · rename_i h
    have h : x < 0 := not_le.1 h
    have h1 : ((⌈x⌉ : Int) : K) ≤ 0 := by
      have : ⌈x⌉ ≤ 0 := Int.ceil_le.2 (by simpa using h.le)
      exact_mod_cast this
    rw [abs_of_nonpos h1, abs_of_neg h]
    have := Int.le_ceil x
    linarith

theorem abs_store_le (isInt : Bool) (x : K) : |store isInt x| ≤ |x| := by
  unfold store; split
  · exact abs_truncZ_le x
  · exact le_rfl

theorem abs_npSign_le (x : K) : |npSign x| ≤ 1 := by
  unfold npSign; split
  · simp
  · split <;> simp

theorem clipped_within (isInt : Bool) (l : Lim K) (x : K) : Within l (clipped isInt l x) := by
  cases l with
  | inf => trivial
  | fin l =>
    show |clipped isInt (.fin l) x| ≤ |l|
    unfold clipped
    split
    · refine (abs_store_le _ _).trans ?_
      simp only [signLim, abs_mul]
      calc |npSign x| * |l| ≤ 1 * |l| := mul_le_mul_of_nonneg_right (abs_npSign_le x) (abs_nonneg l)
        _ = |l| := one_mul _
    · rename_i h
      simpa [exceeds] using h
end order

end PySC
