import Verif.Spec.Restore
import Verif.Lemmas.CavitySetpoints
import Verif.Lemmas.Beam
/-
Set-points which are restored give back the same machine.
-/
namespace PySC
open Py Spec
set_option linter.unusedSectionVars false
variable {K : Type} [Field K] [LinearOrder K]

theorem magnetValues_keys {r : Ring K} {src tgt : Nat} {L} (h : magnetValues r src tgt = .ok L) (a : String) :
    (∃ v, (a, v) ∈ L) ↔ (a ∈ ["PolynomA", "PolynomB", "MaxOrder"] ∨
      (a = "KickAngle" ∧ r.attr src "PassMethod" = some (.str "CorrectorPass"))) := by
  simp only [magnetValues, Except.bind_eq_ok'] at h
  obtain ⟨p, hp, vA, hA, vB, hB, x, hx, vB1, h4, y, hy, vB2, h5, pass, hpass, l, hl, hL⟩ := h
  rw [Ring.getStr_eq_ok] at hpass
  simp at hL; subst hL
  unfold kickValues at hl
  by_cases hp : pass = "CorrectorPass"
  · subst hp
    rw [if_pos rfl] at hl
    simp only [Except.bind_eq_ok'] at hl
    obtain ⟨_, _, _, _, hl⟩ := hl
    simp at hl; subst hl
    simp only [hpass, List.mem_append, List.mem_cons, List.not_mem_nil, or_false, Prod.mk.injEq, exists_or]
    constructor
    · rintro (⟨v, h, -⟩ | ⟨v, h, -⟩ | ⟨v, h, -⟩ | ⟨v, h, -⟩) <;> simp [h]
    · rintro ((h | h | h) | ⟨h, -⟩) <;> simp [h]
  · rw [if_neg hp] at hl
    simp at hl; subst hl
    simp only [hpass, List.mem_append, List.mem_cons, List.not_mem_nil, or_false, Prod.mk.injEq, exists_or]
    constructor
    · rintro (⟨v, h, -⟩ | ⟨v, h, -⟩ | ⟨v, h⟩ | ⟨v, h, -⟩)
      · simp [h]
      · simp [h]
      · cases h
      · simp [h]
    · rintro ((h | h | h) | ⟨-, h⟩)
      · simp [h]
      · simp [h]
      · simp [h]
      · simp at h; exact absurd h hp

theorem magnetValues_of_writes {l : List Nat} {r : Ring K} {W : Writes K} (h : loopWrites magnetFamilyWrites l r = .ok W)
    {src t : Nat} (hs : src ∈ l) (ha : Affects r src t) : ∃ L, magnetValues r src t = .ok L := by
  obtain ⟨Wi, hWi⟩ := loopWrites_ok_of_mem h hs
  simp only [magnetFamilyWrites, Except.bind_eq_ok'] at hWi
  obtain ⟨W1, h1, W2, ⟨ch, hch, h2⟩, hWi⟩ := hWi
  have hone : ∀ {W0}, oneMagnetWrites src t r = .ok W0 → ∃ L, magnetValues r src t = .ok L := by
    intro W0 h0
    simp only [oneMagnetWrites, Except.bind_eq_ok'] at h0
    obtain ⟨-, -, L, hL, h0⟩ := h0
    exact ⟨L, hL⟩
  rcases ha with rfl | ha
  · exact hone h1
  · obtain ⟨Wc, hWc⟩ := loopWrites_ok_of_mem h2 ((childrenOf_spec hch t).2 ha)
    exact hone hWc

/-- which attributes are written -/
theorem writes_keys {l : List Nat} {r : Ring K} {W : Writes K} (h : loopWrites magnetFamilyWrites l r = .ok W) (i : Nat) (a : String) :
    (∃ v, (i, a, v) ∈ W) ↔ FieldOf r l i a := by
  constructor
  · rintro ⟨v, hv⟩
    obtain ⟨src, hs, haff, L, hL, hm⟩ := (mem_magnetWrites h i a v).1 hv
    exact ⟨src, hs, haff, (magnetValues_keys hL a).1 ⟨v, hm⟩⟩
  · rintro ⟨src, hs, haff, hk⟩
    obtain ⟨L, hL⟩ := magnetValues_of_writes h hs haff
    obtain ⟨v, hv⟩ := (magnetValues_keys hL a).2 hk
    exact ⟨v, (mem_magnetWrites h i a v).2 ⟨src, hs, haff, L, hL, hv⟩⟩

theorem lastWrite_isSome_of_mem {W : Writes K} {j : Nat} {b : String} {v : Attr K} (hm : (j, b, v) ∈ W) :
    ∃ v', lastWrite W j b = some v' := by
  induction W using List.reverseRecOn with
  | nil => simp at hm
  | append_singleton W p ih =>
    rw [lastWrite_append_single]
    by_cases hp : j = p.1 ∧ b = p.2.1
    · exact ⟨p.2.2, if_pos hp⟩
    · rw [if_neg hp]
      rcases List.mem_append.1 hm with hm | hm
      · exact ih hm
      · simp at hm; subst hm; exact absurd ⟨rfl, rfl⟩ hp

theorem Spec.FieldOf.mem {r : Ring K} {l : List Nat} {i : Nat} {a : String} (h : FieldOf r l i a) : a ∈ magnetWrites := by
  obtain ⟨-, -, -, h | ⟨h, -⟩⟩ := h
  · simp only [List.mem_cons, List.not_mem_nil, or_false] at h
    rcases h with rfl | rfl | rfl <;> simp [magnetWrites]
  · subst h; simp [magnetWrites]

/-- Two machines that agree outside the fields of the magnets `l` and whose fields are both up to date are the same. -/
theorem settled_unique {l : List Nat} {s s' : SC K} (h : Settled s l) (h' : Settled s' l) (hlen : s'.RING.length = s.RING.length)
    (hattr : ∀ i a, ¬ FieldOf s.RING l i a → s'.RING.attr i a = s.RING.attr i a) : s'.RING = s.RING := by
  obtain ⟨W, hW, he⟩ := ((updateMagnets_writer l).ok _ _ _).1 h
  obtain ⟨W', hW', he'⟩ := ((updateMagnets_writer l).ok _ _ _).1 h'
  have hag : Agree s'.RING s.RING := ⟨hlen, fun i a ha => hattr i a (fun hf => ha hf.mem)⟩
  have hWW : W' = W := by
    have : ∀ {l}, loopWrites magnetFamilyWrites l s'.RING = loopWrites magnetFamilyWrites l s.RING := by
      intro l
      have hfam : ∀ i, magnetFamilyWrites i s'.RING = magnetFamilyWrites i s.RING := by
        intro i
        have h1 : ∀ src tgt, oneMagnetWrites src tgt s'.RING = oneMagnetWrites src tgt s.RING := by
          intro src tgt
          simp only [oneMagnetWrites, hag.magnetValues, Ring.valid, hlen]
        have h2 : ∀ ch : List Nat, loopWrites (fun child => oneMagnetWrites i child) ch s'.RING =
            loopWrites (fun child => oneMagnetWrites i child) ch s.RING := by
          intro ch
          induction ch with
          | nil => rfl
          | cons c ch ih => simp only [loopWrites, h1, ih]
        simp only [magnetFamilyWrites, h1, hag.childrenOf, h2]
      induction l with
      | nil => rfl
      | cons i l ih => simp only [loopWrites, hfam, ih]
    rw [this, hW] at hW'
    cases hW'; rfl
  subst hWW
  have e : s.RING = s.RING.write W' := congrArg SC.RING he
  have e' : s'.RING = s'.RING.write W' := congrArg SC.RING he'
  refine Ring.ext_attr hlen (fun i a => ?_)
  by_cases hf : FieldOf s.RING l i a
  · obtain ⟨v, hv⟩ := (writes_keys hW i a).2 hf
    obtain ⟨v', hv'⟩ := lastWrite_isSome_of_mem hv
    rw [e, e', Ring.attr_write, Ring.attr_write, hv']
    simp only [hlen]
  · exact hattr i a hf

/-- `update_magnets` changes nothing but the fields of the magnets -/
theorem updateMagnets_tight {l : List Nat} {s s' : SC K} {u : Unit} (h : updateMagnets (some l) s = .ok u s') :
    Settled s' l ∧ Frame (FieldOf s.RING l) s s' := by
  refine ⟨(updateMagnets_writer l).idem h, ?_⟩
  obtain ⟨W, hW, rfl⟩ := ((updateMagnets_writer l).ok _ _ _).1 h
  refine ⟨rfl, rfl, rfl, rfl, rfl, by simp, fun i a ha => ?_⟩
  exact Ring.attr_write_of_not_mem (fun v hv => ha ((writes_keys hW i a).1 ⟨v, hv⟩))

theorem fieldOf_congr {r r' : Ring K} (h : ∀ i, r'.attr i "MasterOf" = r.attr i "MasterOf" ∧ r'.attr i "PassMethod" = r.attr i "PassMethod")
    (l : List Nat) (i : Nat) (a : String) : FieldOf r' l i a ↔ FieldOf r l i a := by
  simp only [FieldOf, Affects, h]

/-- fields of all magnets being up to date implies it for those magnets whose fields are not set by others too -/
theorem Spec.Settled.mem {l : List Nat} {s : SC K} (h : Settled s l) {o : Nat} (ho : o ∈ l)
    (honly : ∀ j ∈ l, ∀ t, Affects s.RING o t → Affects s.RING j t → j = o) : Settled s [o] := by
  obtain ⟨W, hW, he⟩ := ((updateMagnets_writer l).ok _ _ _).1 h
  obtain ⟨W1, hW1⟩ := loopWrites_ok_of_mem hW ho
  have hl1 : loopWrites magnetFamilyWrites [o] s.RING = .ok (W1 ++ []) := by simp [loopWrites, hW1]
  refine ((updateMagnets_writer [o]).ok _ _ _).2 ⟨_, hl1, ?_⟩
  have e : s.RING = s.RING.write W := congrArg SC.RING he
  have hr : s.RING.write (W1 ++ []) = s.RING := by
    refine Ring.ext_attr (by simp) (fun i a => ?_)
    rw [Ring.attr_write]
    cases hw : lastWrite (W1 ++ []) i a with
    | none => rfl
    | some v =>
      have hm := lastWrite_isSome_mem hw
      obtain ⟨src, hs, haff, L, hL, hv⟩ := (mem_magnetWrites hl1 i a v).1 hm
      simp at hs; subst hs
      have hmW : (i, a, v) ∈ W := (mem_magnetWrites hW i a v).2 ⟨src, ho, haff, L, hL, hv⟩
      have hu : ∀ v', (i, a, v') ∈ W → v' = v := by
        intro v' hv'
        obtain ⟨j, hj, hja, L', hL', hm'⟩ := (mem_magnetWrites hW i a v').1 hv'
        obtain rfl := honly j hj i haff hja
        rw [hL] at hL'; cases hL'
        simp only [magnetValues, Except.bind_eq_ok'] at hL
        obtain ⟨p, hp, vA, hA, vB, hB, x, hx, vB1, h4, y, hy, vB2, h5, pass, hpass, lk, hlk, hL⟩ := hL
        simp at hL; subst hL
        unfold kickValues at hlk
        by_cases hp : pass = "CorrectorPass"
        · rw [if_pos hp] at hlk
          simp only [Except.bind_eq_ok'] at hlk
          obtain ⟨_, _, _, _, hlk⟩ := hlk
          simp at hlk; subst hlk
          simp at hv hm'
          rcases hv with ⟨rfl, rfl⟩ | ⟨rfl, rfl⟩ | ⟨rfl, rfl⟩ | ⟨rfl, rfl⟩ <;> simpa using hm'
        · rw [if_neg hp] at hlk
          simp at hlk; subst hlk
          simp at hv hm'
          rcases hv with ⟨rfl, rfl⟩ | ⟨rfl, rfl⟩ | ⟨rfl, rfl⟩ <;> simpa using hm'
      have hlast := lastWrite_unique hmW hu
      conv_rhs => rw [e, Ring.attr_write, hlast]
  exact (by simp only [SC.write, hr] : s = s.write (W1 ++ []))

/-- the values depend on the two elements only -/
theorem magnetValues_local {r r' : Ring K} {src tgt : Nat} (hl : r'.length = r.length) (h1 : ∀ a, r'.attr src a = r.attr src a)
    (h2 : ∀ a, r'.attr tgt a = r.attr tgt a) : magnetValues r' src tgt = magnetValues r src tgt := by
  have g1 : ∀ a, r'.getA src a = r.getA src a := fun a => Ring.getA_congr hl (h1 a)
  have g2 : ∀ a, r'.getA tgt a = r.getA tgt a := fun a => Ring.getA_congr hl (h2 a)
  have k1 : ∀ a, r'.hasA src a = r.hasA src a := fun a => Ring.hasA_congr hl (h1 a)
  have k2 : ∀ a, r'.hasA tgt a = r.hasA tgt a := fun a => Ring.hasA_congr hl (h2 a)
  simp only [magnetValues, polynoms, newPolynom, addSystematic, bendingErrorTerm, combinedFunctionTerm, isCombinedFunction,
    Ring.getVecAt, Ring.getVec, Ring.getNum, Ring.getStr, g1, g2, k1, k2]

theorem familyWrites_local {r r' : Ring K} {o : Nat} (hl : r'.length = r.length)
    (h : ∀ t, Affects r o t → ∀ a, r'.attr t a = r.attr t a) : magnetFamilyWrites o r' = magnetFamilyWrites o r := by
  have h0 := h o (Or.inl rfl)
  have hone : ∀ t, Affects r o t → oneMagnetWrites o t r' = oneMagnetWrites o t r := by
    intro t ht
    simp only [oneMagnetWrites, magnetValues_local hl h0 (h t ht), Ring.valid, hl]
  have hch : childrenOf r' o = childrenOf r o := by
    simp only [childrenOf, Ring.getA_congr hl (h0 _), Ring.hasA_congr hl (h0 _)]
  have hloop : ∀ ch : List Nat, (∀ t ∈ ch, Affects r o t) → loopWrites (fun child => oneMagnetWrites o child) ch r' =
      loopWrites (fun child => oneMagnetWrites o child) ch r := by
    intro ch
    induction ch with
    | nil => intro _; rfl
    | cons c ch ih => intro hc; simp only [loopWrites, hone c (hc c (by simp)), ih (fun t ht => hc t (by simp [ht]))]
  unfold magnetFamilyWrites
  rw [hone o (Or.inl rfl), hch]
  cases hc : childrenOf r o with
  | error e => rfl
  | ok ch =>
    have := hloop ch (fun t ht => Or.inr ((childrenOf_spec hc t).1 ht))
    simp only [Except.ok_bind', this]

/-- fields stay up to date as long as neither the magnet nor its children are touched -/
theorem Spec.Settled.keep {s s' : SC K} {o : Nat} (h : Settled s [o]) (hl : s'.RING.length = s.RING.length)
    (hk : ∀ t, Affects s.RING o t → ∀ a, s'.RING.attr t a = s.RING.attr t a) : Settled s' [o] := by
  obtain ⟨W, hW, he⟩ := ((updateMagnets_writer [o]).ok _ _ _).1 h
  have hW' : loopWrites magnetFamilyWrites [o] s'.RING = .ok W := by
    rw [← hW]; simp only [loopWrites, familyWrites_local hl hk]
  refine ((updateMagnets_writer [o]).ok _ _ _).2 ⟨W, hW', ?_⟩
  have e : s.RING = s.RING.write W := congrArg SC.RING he
  have hr : s'.RING.write W = s'.RING := by
    refine Ring.ext_attr (by simp) (fun i a => ?_)
    rw [Ring.attr_write]
    cases hw : lastWrite W i a with
    | none => rfl
    | some v =>
      obtain ⟨src, hs, haff, -⟩ := (mem_magnetWrites hW i a v).1 (lastWrite_isSome_mem hw)
      simp at hs; subst hs
      rw [hk i haff a]
      conv_rhs => rw [e, Ring.attr_write, hw]
      simp only [hl]
  simp only [SC.write, hr]

section
variable [FloorRing K]

theorem setCMSetpoints_settled {ords : List Nat} {sp : NpArr K} {skew : Bool} {method : String} {s s' : SC K} {u : Unit}
    (h : setCMSetpoints ords sp skew method s = .ok u s') :
    Settled s' ords ∧ Frame (fun i a => (i ∈ ords ∧ a = "SetPoint" ++ plane skew) ∨ FieldOf s.RING ords i a) s s' := by
  obtain ⟨-, -, s1, h1, h2⟩ := setCMSetpoints_eq_ok h
  have f1 := (setCMLoop_modifies _).ok h1
  obtain ⟨st, f2⟩ := updateMagnets_tight h2
  refine ⟨st, Frame.trans _ _ _ (Frame.mono ?_ f1) (Frame.mono ?_ f2)⟩
  · rintro i a ⟨hi, ha⟩
    simp only [List.mem_map] at hi
    obtain ⟨p, hp, rfl⟩ := hi
    exact Or.inl ⟨(List.of_mem_zip (a := p.1) (b := p.2) hp).1, ha⟩
  · intro i a hf
    refine Or.inr ((fieldOf_congr (fun j => ⟨f1.attr _ _ ?_, f1.attr _ _ ?_⟩) _ _ _).1 hf)
    · rintro ⟨-, h⟩; exact ne_setPoint (by simp [spNames]) _ h
    · rintro ⟨-, h⟩; exact ne_setPoint (by simp [spNames]) _ h

/-- the arrays of set-points keep their length and all entries but the first -/
theorem setCM1_array {skew isInt : Bool} {method : String} {o : Nat} {x : K} {s s' : SC K} {u : Unit}
    (h : setCM1 skew method isInt o x s = .ok u s') (i : Nat) {v : List K} (hv : s.RING.attr i ("SetPoint" ++ plane skew) = some (.vec v)) :
    ∃ y, s'.RING.attr i ("SetPoint" ++ plane skew) = some (.vec (v.set 0 y)) := by
  obtain ⟨w, hw, hl, hn, rfl⟩ := setCM1_eq_ok h
  by_cases hi : i = o
  · subst hi
    rw [hw] at hv; cases hv
    exact ⟨_, Ring.attr_setAttr_same (Ring.attr_some_lt hw)⟩
  · refine ⟨v.getD 0 0, ?_⟩
    rw [Ring.attr_setAttr_ne' hi, hv]
    congr 2
    cases v <;> simp

theorem setCMLoop_array {skew isInt : Bool} {method : String} (l : List (Nat × K)) {s s' : SC K} {u : Unit}
    (h : forEach l (fun p => setCM1 skew method isInt p.1 p.2) s = .ok u s') (i : Nat) {v : List K}
    (hv : s.RING.attr i ("SetPoint" ++ plane skew) = some (.vec v)) :
    ∃ y, s'.RING.attr i ("SetPoint" ++ plane skew) = some (.vec (v.set 0 y)) := by
  induction l generalizing s v with
  | nil =>
    cases h
    refine ⟨v.getD 0 0, ?_⟩
    rw [hv]; congr 2; cases v <;> simp
  | cons p l ih =>
    rw [forEach_cons, bind_eq_ok] at h
    obtain ⟨_, s1, h1, h2⟩ := h
    obtain ⟨y, hy⟩ := setCM1_array h1 i hv
    obtain ⟨z, hz⟩ := ih h2 hy
    exact ⟨z, by rw [hz]; simp⟩

theorem setCMSetpoints_array {ords : List Nat} {sp : NpArr K} {skew : Bool} {method : String} {s s' : SC K} {u : Unit}
    (h : setCMSetpoints ords sp skew method s = .ok u s') (i : Nat) {v : List K}
    (hv : s.RING.attr i ("SetPoint" ++ plane skew) = some (.vec v)) :
    ∃ y, s'.RING.attr i ("SetPoint" ++ plane skew) = some (.vec (v.set 0 y)) := by
  obtain ⟨-, -, s1, h1, h2⟩ := setCMSetpoints_eq_ok h
  obtain ⟨y, hy⟩ := setCMLoop_array _ h1 i hv
  refine ⟨y, ?_⟩
  rw [← hy]
  exact ((updateMagnets_modifies _).ok h2).attr _ _ (by cases skew <;> simp [plane, magnetWrites])

theorem setCMLoop_factor {skew isInt : Bool} {method : String} (l : List (Nat × K)) {s s' : SC K} {u : Unit}
    (h : forEach l (fun p => setCM1 skew method isInt p.1 p.2) s = .ok u s') {o : Nat} (ho : o ∈ l.map Prod.fst) :
    kickFactor s.RING o skew ≠ 0 ∧ ∃ v, s.RING.attr o ("SetPoint" ++ plane skew) = some (.vec v) ∧ 0 < v.length := by
  induction l generalizing s with
  | nil => simp at ho
  | cons p l ih =>
    rw [forEach_cons, bind_eq_ok] at h
    obtain ⟨_, s2, h1, h2⟩ := h
    by_cases hp : o = p.1
    · obtain ⟨v, hv, hl, hn, -⟩ := setCM1_eq_ok h1
      rw [hp]; exact ⟨hn, v, hv, hl⟩
    · obtain ⟨hn, v, hv, hl⟩ := ih h2 (by simpa [hp] using ho)
      have f := setCM1_modifies.ok h1
      rw [f.attr _ _ (by rintro ⟨h, -⟩; exact hp h)] at hv
      rw [kickFactor_congr (f.attr _ _ (by rintro ⟨h, -⟩; exact hp h)) (f.attr _ _ (by rintro ⟨h, -⟩; exact hp h))] at hn
      exact ⟨hn, v, hv, hl⟩

/-- the correctors addressed by a successful call have set-points and a factor between them and kicks -/
theorem setCMSetpoints_factor {ords : List Nat} {sp : NpArr K} {skew : Bool} {method : String} {s s' : SC K} {u : Unit}
    (h : setCMSetpoints ords sp skew method s = .ok u s') {o : Nat} (ho : o ∈ ords) :
    kickFactor s.RING o skew ≠ 0 ∧ ∃ v, s.RING.attr o ("SetPoint" ++ plane skew) = some (.vec v) ∧ 0 < v.length := by
  obtain ⟨-, hl, s1, h1, -⟩ := setCMSetpoints_eq_ok h
  exact setCMLoop_factor _ h1 (by rw [map_fst_zip_spread hl]; exact ho)

/-- If two calls addressing the same correctors of a settled machine give the same kicks as before, they give the same machine. -/
theorem setCM_restores {ords : List Nat} {sp sp' : NpArr K} {skew : Bool} {m m' : String} {s s1 s1' s2 : SC K} {u u' : Unit}
    (hs : Settled s ords) (h1 : setCMSetpoints ords sp skew m s = .ok u s1) (hr : s1'.RING = s1.RING)
    (h2 : setCMSetpoints ords sp' skew m' s1' = .ok u' s2) (hk : ∀ o ∈ ords, kick s2.RING o skew = kick s.RING o skew) :
    s2.RING = s.RING := by
  obtain ⟨-, f1⟩ := setCMSetpoints_settled h1
  obtain ⟨st, f2⟩ := setCMSetpoints_settled h2
  have hsp : ∀ a, a ∉ spNames → a ∉ magnetWrites → ∀ i, s1.RING.attr i a = s.RING.attr i a := by
    intro a ha hm i
    refine f1.attr _ _ ?_
    rintro (⟨-, h⟩ | h)
    · exact ne_setPoint ha _ h
    · exact hm h.mem
  have hsp2 : ∀ a, a ∉ spNames → a ∉ magnetWrites → ∀ i, s2.RING.attr i a = s1.RING.attr i a := by
    intro a ha hm i
    rw [← hr]
    refine f2.attr _ _ ?_
    rintro (⟨-, h⟩ | h)
    · exact ne_setPoint ha _ h
    · exact hm h.mem
  refine settled_unique hs st (by rw [f2.len, hr, f1.len]) (fun i a hf => ?_)
  have hf2 : ¬ FieldOf s1'.RING ords i a := by
    rw [fieldOf_congr (r := s.RING) (fun j => ⟨?_, ?_⟩)]
    · exact hf
    · rw [hr]; exact hsp _ (by simp [spNames]) (by simp [magnetWrites]) j
    · rw [hr]; exact hsp _ (by simp [spNames]) (by simp [magnetWrites]) j
  by_cases hi : i ∈ ords ∧ a = "SetPoint" ++ plane skew
  · obtain ⟨hi, rfl⟩ := hi
    obtain ⟨hn, v, hv, hl⟩ := setCMSetpoints_factor h1 hi
    obtain ⟨y, hy⟩ := setCMSetpoints_array h1 i hv
    rw [← hr] at hy
    obtain ⟨z, hz⟩ := setCMSetpoints_array h2 i hy
    have hfac : kickFactor s2.RING i skew = kickFactor s.RING i skew :=
      kickFactor_congr (by rw [hsp2 _ (by simp [spNames]) (by simp [magnetWrites]), hsp _ (by simp [spNames]) (by simp [magnetWrites])])
        (by rw [hsp2 _ (by simp [spNames]) (by simp [magnetWrites]), hsp _ (by simp [spNames]) (by simp [magnetWrites])])
    have hk' := hk i hi
    unfold kick at hk'
    rw [hfac] at hk'
    have hc := mul_right_cancel₀ hn hk'
    unfold setpoint at hc
    rw [vecAt_of_attr hz, vecAt_of_attr hv] at hc
    rw [hz, hv]
    cases v with
    | nil => simp at hl
    | cons x v => simp [coef] at hc ⊢; exact hc
  · rw [f2.attr i a (by rintro (h | h); exact hi h; exact hf2 h), hr, f1.attr i a (by rintro (h | h); exact hi h; exact hf h)]

/-! ### histories -/

/-- What successful calls on registered magnets do: only set-points and fields change, arrays of set-points keep their lengths, and
fields that are up to date stay up to date. -/
structure Trimmed (s s' : SC K) : Prop where
  ord : s'.ORD = s.ORD
  len : s'.RING.length = s.RING.length
  rest : ∀ i a, a ∉ spNames → ¬ FieldOf s.RING s.ORD.Magnet i a → s'.RING.attr i a = s.RING.attr i a
  arr : ∀ i skew, s'.RING.attr i ("SetPoint" ++ plane skew) = s.RING.attr i ("SetPoint" ++ plane skew) ∨
    ∃ v v', s.RING.attr i ("SetPoint" ++ plane skew) = some (.vec v) ∧ s'.RING.attr i ("SetPoint" ++ plane skew) = some (.vec v') ∧
      v'.length = v.length
  up : Separate s → UpToDate s → UpToDate s'

theorem Trimmed.field {s s' : SC K} (h : Trimmed s s') (l : List Nat) (i : Nat) (a : String) :
    FieldOf s'.RING l i a ↔ FieldOf s.RING l i a :=
  fieldOf_congr (fun j => ⟨h.rest j _ (by simp [spNames]) (fun hf => by simpa [magnetWrites] using hf.mem),
    h.rest j _ (by simp [spNames]) (fun hf => by simpa [magnetWrites] using hf.mem)⟩) _ _ _

theorem Trimmed.affects {s s' : SC K} (h : Trimmed s s') (o t : Nat) : Affects s'.RING o t ↔ Affects s.RING o t := by
  unfold Affects
  rw [h.rest o _ (by simp [spNames]) (fun hf => by simpa [magnetWrites] using hf.mem)]

theorem Trimmed.separate {s s' : SC K} (h : Trimmed s s') (hs : Separate s) : Separate s' := by
  intro o ho o' ho' t h1 h2
  rw [h.ord] at ho ho'
  exact hs o ho o' ho' t ((h.affects o t).1 h1) ((h.affects o' t).1 h2)

theorem Trimmed.of_ring {s s' : SC K} (hr : s'.RING = s.RING) (ho : s'.ORD = s.ORD) : Trimmed s s' := by
  refine ⟨ho, by rw [hr], fun i a _ _ => by rw [hr], fun i skew => Or.inl (by rw [hr]), fun _ hu o h => ?_⟩
  rw [ho] at h
  exact (hu o h).keep (by rw [hr]) (fun t _ a => by rw [hr])

theorem Trimmed.refl (s : SC K) : Trimmed s s := Trimmed.of_ring rfl rfl

theorem Trimmed.trans {a b c : SC K} (h1 : Trimmed a b) (h2 : Trimmed b c) : Trimmed a c := by
  refine ⟨h2.ord.trans h1.ord, h2.len.trans h1.len, fun i x hx hf => ?_, fun i skew => ?_, fun hs hu => h2.up (h1.separate hs) (h1.up hs hu)⟩
  · rw [h2.rest i x hx (by rw [h1.ord, h1.field]; exact hf), h1.rest i x hx hf]
  · rcases h1.arr i skew with e1 | ⟨v, v', e1, e1', l1⟩
    · rcases h2.arr i skew with e2 | ⟨w, w', e2, e2', l2⟩
      · exact Or.inl (e2.trans e1)
      · exact Or.inr ⟨w, w', by rw [← e1, e2], e2', l2⟩
    · rcases h2.arr i skew with e2 | ⟨w, w', e2, e2', l2⟩
      · exact Or.inr ⟨v, v', e1, e2.trans e1', l1⟩
      · rw [e1'] at e2; cases e2
        exact Or.inr ⟨v, w', e1, e2', l2.trans l1⟩

/-- a call that ends with `update_magnets` of the magnets whose set-points it changed -/
theorem Trimmed.of_frame {ords : List Nat} {s s' : SC K} (hm : ∀ o ∈ ords, o ∈ s.ORD.Magnet) (hst : Settled s' ords)
    (hf : Frame (fun i a => (i ∈ ords ∧ a ∈ spNames) ∨ FieldOf s.RING ords i a) s s')
    (harr : ∀ i skew, s'.RING.attr i ("SetPoint" ++ plane skew) = s.RING.attr i ("SetPoint" ++ plane skew) ∨
      ∃ v v', s.RING.attr i ("SetPoint" ++ plane skew) = some (.vec v) ∧ s'.RING.attr i ("SetPoint" ++ plane skew) = some (.vec v') ∧
        v'.length = v.length) : Trimmed s s' := by
  have haff : ∀ o t, Affects s'.RING o t ↔ Affects s.RING o t := by
    intro o t
    unfold Affects
    rw [hf.attr o "MasterOf" (by
      rintro (⟨-, h⟩ | h)
      · simp [spNames] at h
      · simpa [magnetWrites] using h.mem)]
  refine ⟨hf.ord, hf.len, fun i a ha hno => hf.attr i a ?_, harr, fun hs hu o ho => ?_⟩
  · rintro (⟨-, h⟩ | ⟨src, h1, h2⟩)
    · exact ha h
    · exact hno ⟨src, hm src h1, h2⟩
  · rw [hf.ord] at ho
    by_cases hmem : o ∈ ords
    · exact hst.mem hmem (fun j hj t h1 h2 => hs j (hm j hj) o ho t ((haff _ _).1 h2) ((haff _ _).1 h1))
    · refine (hu o ho).keep hf.len (fun t ht a => hf.attr t a ?_)
      rintro (⟨h, -⟩ | ⟨src, h1, h2, -⟩)
      · exact hmem (by rw [hs o ho t (hm t h) t ht (Or.inl rfl)]; exact h)
      · exact hmem (by rw [hs o ho src (hm src h1) t ht h2]; exact h1)

theorem arr_other {s s' : SC K} {skew : Bool} (h : ∀ i v, s.RING.attr i ("SetPoint" ++ plane skew) = some (.vec v) →
      ∃ v', s'.RING.attr i ("SetPoint" ++ plane skew) = some (.vec v') ∧ v'.length = v.length) {ords : List Nat}
    (hv : ∀ o ∈ ords, ∃ v, s.RING.attr o ("SetPoint" ++ plane skew) = some (.vec v))
    (hn : ∀ i, i ∉ ords → s'.RING.attr i ("SetPoint" ++ plane skew) = s.RING.attr i ("SetPoint" ++ plane skew)) (i : Nat) :
    s'.RING.attr i ("SetPoint" ++ plane skew) = s.RING.attr i ("SetPoint" ++ plane skew) ∨
      ∃ v v', s.RING.attr i ("SetPoint" ++ plane skew) = some (.vec v) ∧ s'.RING.attr i ("SetPoint" ++ plane skew) = some (.vec v') ∧
        v'.length = v.length := by
  by_cases hi : i ∈ ords
  · obtain ⟨v, hv⟩ := hv i hi
    obtain ⟨v', hv', hl⟩ := h i v hv
    exact Or.inr ⟨v, v', hv, hv', hl⟩
  · exact Or.inl (hn i hi)

theorem setCMSetpoints_trimmed {ords : List Nat} {sp : NpArr K} {skew : Bool} {method : String} {s s' : SC K} {u : Unit}
    (hm : ∀ o ∈ ords, o ∈ s.ORD.Magnet) (h : setCMSetpoints ords sp skew method s = .ok u s') : Trimmed s s' := by
  obtain ⟨st, f⟩ := setCMSetpoints_settled h
  refine Trimmed.of_frame hm st (Frame.mono ?_ f) (fun i sk => ?_)
  · rintro i a (⟨h1, rfl⟩ | h)
    · exact Or.inl ⟨h1, plane_mem skew⟩
    · exact Or.inr h
  · by_cases hsk : sk = skew
    · subst hsk
      refine arr_other (fun i v hv => ?_) (ords := ords) (fun o ho => ?_) (fun i hi => f.attr _ _ ?_) i
      · obtain ⟨y, hy⟩ := setCMSetpoints_array h i hv
        exact ⟨_, hy, by simp⟩
      · obtain ⟨-, v, hv, -⟩ := setCMSetpoints_factor h ho
        exact ⟨v, hv⟩
      · rintro (⟨h, -⟩ | h)
        · exact hi h
        · have := h.mem
          cases sk <;> simp [plane, magnetWrites] at this
    · refine Or.inl (f.attr _ _ ?_)
      rintro (⟨-, h⟩ | h)
      · exact hsk (plane_inj.1 h)
      · have := h.mem
        cases sk <;> simp [plane, magnetWrites] at this

/-- what one iteration of `set_magnet_setpoints` changes -/
structure Adjusted (o : Nat) (s s' : SC K) : Prop where
  frame : Frame (fun i a => (i = o ∧ a ∈ spNames) ∨ FieldOf s.RING [o] i a) s s'
  arr : ∀ i skew, s'.RING.attr i ("SetPoint" ++ plane skew) = s.RING.attr i ("SetPoint" ++ plane skew) ∨
      ∃ v v', s.RING.attr i ("SetPoint" ++ plane skew) = some (.vec v) ∧ s'.RING.attr i ("SetPoint" ++ plane skew) = some (.vec v') ∧
        v'.length = v.length

theorem arr_trans {a b c : SC K} {i : Nat} {x : String}
    (h1 : b.RING.attr i x = a.RING.attr i x ∨ ∃ v v', a.RING.attr i x = some (.vec v) ∧ b.RING.attr i x = some (.vec v') ∧ v'.length = v.length)
    (h2 : c.RING.attr i x = b.RING.attr i x ∨ ∃ v v', b.RING.attr i x = some (.vec v) ∧ c.RING.attr i x = some (.vec v') ∧ v'.length = v.length) :
    c.RING.attr i x = a.RING.attr i x ∨ ∃ v v', a.RING.attr i x = some (.vec v) ∧ c.RING.attr i x = some (.vec v') ∧ v'.length = v.length := by
  rcases h1 with e1 | ⟨v, v', e1, e1', l1⟩
  · rcases h2 with e2 | ⟨w, w', e2, e2', l2⟩
    · exact Or.inl (e2.trans e1)
    · exact Or.inr ⟨w, w', by rw [← e1, e2], e2', l2⟩
  · rcases h2 with e2 | ⟨w, w', e2, e2', l2⟩
    · exact Or.inr ⟨v, v', e1, e2.trans e1', l1⟩
    · rw [e1'] at e2; cases e2
      exact Or.inr ⟨v, w', e1, e2', l2.trans l1⟩

theorem Adjusted.field {o : Nat} {s s' : SC K} (h : Adjusted o s s') (l : List Nat) (i : Nat) (a : String) :
    FieldOf s'.RING l i a ↔ FieldOf s.RING l i a := by
  refine fieldOf_congr (fun j => ⟨h.frame.attr j _ ?_, h.frame.attr j _ ?_⟩) _ _ _
  · rintro (⟨-, h⟩ | h)
    · simp [spNames] at h
    · simpa [magnetWrites] using h.mem
  · rintro (⟨-, h⟩ | h)
    · simp [spNames] at h
    · simpa [magnetWrites] using h.mem

theorem Adjusted.refl (o : Nat) (s : SC K) : Adjusted o s s := ⟨Frame.refl _, fun _ _ => Or.inl rfl⟩
theorem Adjusted.trans {o : Nat} {a b c : SC K} (h1 : Adjusted o a b) (h2 : Adjusted o b c) : Adjusted o a c := by
  refine ⟨Frame.trans _ _ _ h1.frame (Frame.mono ?_ h2.frame), fun i skew => arr_trans (h1.arr i skew) (h2.arr i skew)⟩
  rintro i x (h | h)
  · exact Or.inl h
  · exact Or.inr ((h1.field _ _ _).1 h)

theorem setCM_adjusted {o : Nat} {sp : NpArr K} {skew : Bool} {method : String} {s s' : SC K} {u : Unit}
    (h : setCMSetpoints [o] sp skew method s = .ok u s') : Adjusted o s s' := by
  obtain ⟨st, f⟩ := setCMSetpoints_settled h
  refine ⟨Frame.mono ?_ f, fun i sk => ?_⟩
  · rintro i a (⟨h1, rfl⟩ | h)
    · exact Or.inl ⟨by simpa using h1, plane_mem skew⟩
    · exact Or.inr h
  · by_cases hsk : sk = skew
    · subst hsk
      refine arr_other (fun i v hv => ?_) (ords := [o]) (fun o ho => ?_) (fun i hi => f.attr _ _ ?_) i
      · obtain ⟨y, hy⟩ := setCMSetpoints_array h i hv
        exact ⟨_, hy, by simp⟩
      · obtain ⟨-, v, hv, -⟩ := setCMSetpoints_factor h ho
        exact ⟨v, hv⟩
      · rintro (⟨h, -⟩ | h)
        · exact hi h
        · have := h.mem
          cases sk <;> simp [plane, magnetWrites] at this
    · refine Or.inl (f.attr _ _ ?_)
      rintro (⟨-, h⟩ | h)
      · exact hsk (plane_inj.1 h)
      · have := h.mem
        cases sk <;> simp [plane, magnetWrites] at this

theorem setMagnet1_adjusted {skew isInt comp : Bool} {order o : Nat} {x : K} {s s' : SC K} {u : Unit}
    (h : setMagnet1 skew order isInt comp o x s = .ok u s') : Adjusted o s s' := by
  unfold setMagnet1 at h
  rw [bindRd_eq_ok] at h; obtain ⟨sp, hsp, h⟩ := h
  rw [bind_eq_ok] at h; obtain ⟨_, s1, h1, h⟩ := h
  rw [bindRd_eq_ok] at h; obtain ⟨w, hw, h⟩ := h
  rw [setAttr_eq_ok] at h
  obtain ⟨hlt, rfl⟩ := h
  have a1 : Adjusted o s s1 := by
    by_cases hc : (comp && decide (order = 1)) = true
    · rw [hc] at h1
      simp only [when, if_true] at h1
      unfold dipoleCompensation at h1
      rw [bindRd_eq_ok] at h1; obtain ⟨ba, _, h1⟩ := h1
      rw [bindGet_eq_ok] at h1
      by_cases hb : (decide (ba ≠ 0) && decide (o ∈ s.ORD.HCM)) = true
      · rw [hb] at h1
        simp only [when, if_true] at h1
        rw [bindRd_eq_ok] at h1; obtain ⟨k, _, h1⟩ := h1
        exact setCM_adjusted h1
      · rw [Bool.not_eq_true] at hb
        rw [hb] at h1
        cases h1; exact Adjusted.refl _ _
    · rw [Bool.not_eq_true] at hc
      rw [hc] at h1
      cases h1; exact Adjusted.refl _ _
  refine a1.trans ⟨⟨rfl, rfl, rfl, rfl, rfl, by simp, fun i a ha => ?_⟩, fun i sk => ?_⟩
  · rw [Ring.attr_setAttr, if_neg]
    rintro ⟨rfl, rfl⟩
    exact ha (Or.inl ⟨rfl, plane_mem skew⟩)
  · simp only [newSetpoint, Except.bind_eq_ok', Ring.getVec_eq_ok, idx_eq_ok] at hw
    obtain ⟨v, hv, y, hy, hw⟩ := hw
    cases hw
    by_cases hh : i = o ∧ sk = skew
    · obtain ⟨rfl, rfl⟩ := hh
      exact Or.inr ⟨v, _, hv, Ring.attr_setAttr_same hlt, by simp⟩
    · refine Or.inl ?_
      simp only
      rw [Ring.attr_setAttr, if_neg]
      rintro ⟨rfl, h2⟩
      exact hh ⟨rfl, plane_inj.1 h2⟩

theorem setMagnetSetpoints_settled {ords : List Nat} {sp : NpArr K} {skew comp : Bool} {order : Nat} {method : String} {s s' : SC K} {u : Unit}
    (h : setMagnetSetpoints ords sp skew order method comp s = .ok u s') :
    Settled s' ords ∧ Frame (fun i a => (i ∈ ords ∧ a ∈ spNames) ∨ FieldOf s.RING ords i a) s s' ∧
    ∀ i skew, s'.RING.attr i ("SetPoint" ++ plane skew) = s.RING.attr i ("SetPoint" ++ plane skew) ∨
      ∃ v v', s.RING.attr i ("SetPoint" ++ plane skew) = some (.vec v) ∧ s'.RING.attr i ("SetPoint" ++ plane skew) = some (.vec v') ∧
        v'.length = v.length := by
  obtain ⟨sps, s1, hs1, hs2, hs3⟩ := setMagnetSetpoints_eq_ok h
  obtain ⟨st, f2⟩ := updateMagnets_tight hs3
  have key : ∀ (l : List (Nat × K)) (s s1 : SC K), (∀ p ∈ l, p.1 ∈ ords) →
      forEach l (fun p => setMagnet1 skew order sps.isInt comp p.1 p.2) s = .ok () s1 →
      (Frame (fun i a => (i ∈ ords ∧ a ∈ spNames) ∨ FieldOf s.RING ords i a) s s1 ∧ (∀ i a, FieldOf s1.RING ords i a ↔ FieldOf s.RING ords i a)) ∧
      ∀ i skew, s1.RING.attr i ("SetPoint" ++ plane skew) = s.RING.attr i ("SetPoint" ++ plane skew) ∨
        ∃ v v', s.RING.attr i ("SetPoint" ++ plane skew) = some (.vec v) ∧ s1.RING.attr i ("SetPoint" ++ plane skew) = some (.vec v') ∧
          v'.length = v.length := by
    intro l
    induction l with
    | nil => intro s s1 _ h; cases h; exact ⟨⟨Frame.refl _, fun _ _ => Iff.rfl⟩, fun _ _ => Or.inl rfl⟩
    | cons p l ih =>
      intro s s1 hl h
      rw [forEach_cons, bind_eq_ok] at h
      obtain ⟨_, s2, h1, h2⟩ := h
      have a1 := setMagnet1_adjusted h1
      obtain ⟨⟨f, g⟩, q⟩ := ih s2 s1 (fun p hp => hl p (by simp [hp])) h2
      refine ⟨⟨Frame.trans _ _ _ (Frame.mono ?_ a1.frame) (Frame.mono ?_ f), fun i a => (g i a).trans (a1.field _ _ _)⟩,
        fun i sk => arr_trans (a1.arr i sk) (q i sk)⟩
      · rintro i a (⟨rfl, ha⟩ | ⟨src, hsrc, rest⟩)
        · exact Or.inl ⟨hl p (by simp), ha⟩
        · simp at hsrc; subst hsrc
          exact Or.inr ⟨p.1, hl p (by simp), rest⟩
      · rintro i a (h | h)
        · exact Or.inl h
        · exact Or.inr ((a1.field _ _ _).1 h)
  obtain ⟨⟨f1, g1⟩, q1⟩ := key _ s s1 (fun p hp => (List.of_mem_zip (a := p.1) (b := p.2) hp).1) hs2
  refine ⟨st, Frame.trans _ _ _ f1 (Frame.mono (fun i a h => Or.inr ((g1 i a).1 h)) f2), fun i sk => ?_⟩
  rw [f2.attr i ("SetPoint" ++ plane sk) (fun h => by
    have := h.mem
    cases sk <;> simp [plane, magnetWrites] at this)]
  exact q1 i sk

theorem setMagnetSetpoints_trimmed {ords : List Nat} {sp : NpArr K} {skew comp : Bool} {order : Nat} {method : String} {s s' : SC K}
    {u : Unit} (hm : ∀ o ∈ ords, o ∈ s.ORD.Magnet) (h : setMagnetSetpoints ords sp skew order method comp s = .ok u s') : Trimmed s s' := by
  obtain ⟨st, f, q⟩ := setMagnetSetpoints_settled h
  exact Trimmed.of_frame hm st f q

theorem updateMagnets_trimmed {ords : List Nat} {s s' : SC K} {u : Unit} (hm : ∀ o ∈ ords, o ∈ s.ORD.Magnet)
    (h : updateMagnets (some ords) s = .ok u s') : Trimmed s s' := by
  obtain ⟨st, f⟩ := updateMagnets_tight h
  refine Trimmed.of_frame hm st (Frame.mono (fun i a h => Or.inr h) f) (fun i skew => Or.inl (f.attr _ _ (fun h => ?_)))
  have := h.mem
  cases skew <;> simp [plane, magnetWrites] at this

theorem runTrims_trimmed {l : List (Trim K)} {s s' : SC K} {u : Unit} (hm : ∀ c ∈ l, ∀ o ∈ c.ords, o ∈ s.ORD.Magnet)
    (h : runTrims l s = .ok u s') : Trimmed s s' := by
  induction l generalizing s with
  | nil => cases h; exact Trimmed.refl _
  | cons c l ih =>
    unfold runTrims at h ih
    rw [forEach_cons, bind_eq_ok] at h
    obtain ⟨_, s1, h1, h2⟩ := h
    have t1 : Trimmed s s1 := by
      have hc := hm c (by simp)
      cases c with
      | cm o v sk m => exact setCMSetpoints_trimmed hc h1
      | magnet o v sk k m d => exact setMagnetSetpoints_trimmed hc h1
      | update o => exact updateMagnets_trimmed hc h1
    exact t1.trans (ih (fun c hc o ho => by rw [t1.ord]; exact hm c (by simp [hc]) o ho) h2)

/-- machines which differ in set-points and fields of registered magnets only -/
structure Similar (s s' : SC K) : Prop where
  ord : s'.ORD = s.ORD
  len : s'.RING.length = s.RING.length
  rest : ∀ i a, a ∉ spNames → ¬ FieldOf s.RING s.ORD.Magnet i a → s'.RING.attr i a = s.RING.attr i a
  arr : ∀ i skew, s'.RING.attr i ("SetPoint" ++ plane skew) = s.RING.attr i ("SetPoint" ++ plane skew) ∨
    ∃ v v', s.RING.attr i ("SetPoint" ++ plane skew) = some (.vec v) ∧ s'.RING.attr i ("SetPoint" ++ plane skew) = some (.vec v') ∧
      v'.length = v.length

theorem Similar.field {s s' : SC K} (h : Similar s s') (l : List Nat) (i : Nat) (a : String) :
    FieldOf s'.RING l i a ↔ FieldOf s.RING l i a :=
  fieldOf_congr (fun j => ⟨h.rest j _ (by simp [spNames]) (fun hf => by simpa [magnetWrites] using hf.mem),
    h.rest j _ (by simp [spNames]) (fun hf => by simpa [magnetWrites] using hf.mem)⟩) _ _ _

theorem Similar.symm {s s' : SC K} (h : Similar s s') : Similar s' s := by
  refine ⟨h.ord.symm, h.len.symm, fun i a ha hf => (h.rest i a ha (fun hf' => hf ?_)).symm, fun i skew => ?_⟩
  · rw [h.ord, h.field]; exact hf'
  · rcases h.arr i skew with e | ⟨v, v', e, e', hl⟩
    · exact Or.inl e.symm
    · exact Or.inr ⟨v', v, e', e, hl.symm⟩

theorem Similar.trans {a b c : SC K} (h1 : Similar a b) (h2 : Similar b c) : Similar a c := by
  refine ⟨h2.ord.trans h1.ord, h2.len.trans h1.len, fun i x hx hf => ?_, fun i skew => arr_trans (h1.arr i skew) (h2.arr i skew)⟩
  rw [h2.rest i x hx (by rw [h1.ord, h1.field]; exact hf), h1.rest i x hx hf]

theorem Trimmed.similar {s s' : SC K} (h : Trimmed s s') : Similar s s' := ⟨h.ord, h.len, h.rest, h.arr⟩

/-- machines with the same set-points are the same -/
theorem Similar.same {s s' : SC K} (h : Similar s s') (hu : UpToDate s) (hu' : UpToDate s')
    (hsp : ∀ i skew k, setpoint s'.RING i skew k = setpoint s.RING i skew k) : s'.RING = s.RING := by
  have harr : ∀ i a, a ∈ spNames → s'.RING.attr i a = s.RING.attr i a := by
    have key : ∀ i skew, s'.RING.attr i ("SetPoint" ++ plane skew) = s.RING.attr i ("SetPoint" ++ plane skew) := by
      intro i skew
      rcases h.arr i skew with e | ⟨v, v', e, e', hl⟩
      · exact e
      · rw [e, e']
        congr 2
        refine List.ext_getElem? (fun k => ?_)
        have hk := hsp i skew k
        unfold setpoint at hk
        rw [vecAt_of_attr e, vecAt_of_attr e'] at hk
        by_cases hlt : k < v.length
        · rw [List.getElem?_eq_getElem hlt, List.getElem?_eq_getElem (hl ▸ hlt)]
          rw [coef_of_getElem? (List.getElem?_eq_getElem hlt), coef_of_getElem? (List.getElem?_eq_getElem (hl ▸ hlt))] at hk
          rw [hk]
        · rw [List.getElem?_eq_none (by omega), List.getElem?_eq_none (by omega)]
    intro i a ha
    simp only [spNames, List.mem_cons, List.not_mem_nil, or_false] at ha
    rcases ha with rfl | rfl
    · exact key i true
    · exact key i false
  -- magnet by magnet
  have hag : Agree s'.RING s.RING := ⟨h.len, fun i a ha => by
    by_cases hsn : a ∈ spNames
    · exact harr i a hsn
    · exact h.rest i a hsn (fun hf => ha hf.mem)⟩
  refine Ring.ext_attr h.len (fun i a => ?_)
  by_cases hf : FieldOf s.RING s.ORD.Magnet i a
  · obtain ⟨src, hsrc, rest⟩ := hf
    obtain ⟨W, hW, he⟩ := ((updateMagnets_writer [src]).ok _ _ _).1 (hu src hsrc)
    obtain ⟨W', hW', he'⟩ := ((updateMagnets_writer [src]).ok _ _ _).1 (hu' src (by rw [h.ord]; exact hsrc))
    have hWW : W' = W := by
      have h1 : ∀ src tgt, oneMagnetWrites src tgt s'.RING = oneMagnetWrites src tgt s.RING := by
        intro src tgt
        simp only [oneMagnetWrites, hag.magnetValues, Ring.valid, h.len]
      have h2 : ∀ ch : List Nat, loopWrites (fun child => oneMagnetWrites src child) ch s'.RING =
          loopWrites (fun child => oneMagnetWrites src child) ch s.RING := by
        intro ch
        induction ch with
        | nil => rfl
        | cons c ch ih => simp only [loopWrites, h1, ih]
      have : loopWrites magnetFamilyWrites [src] s'.RING = loopWrites magnetFamilyWrites [src] s.RING := by
        simp only [loopWrites, magnetFamilyWrites, h1, hag.childrenOf, h2]
      rw [this, hW] at hW'
      cases hW'; rfl
    subst hWW
    have e : s.RING = s.RING.write W' := congrArg SC.RING he
    have e' : s'.RING = s'.RING.write W' := congrArg SC.RING he'
    obtain ⟨v, hv⟩ := (writes_keys hW i a).2 ⟨src, by simp, rest⟩
    obtain ⟨v', hv'⟩ := lastWrite_isSome_of_mem hv
    rw [e, e', Ring.attr_write, Ring.attr_write, hv']
    simp only [h.len]
  · by_cases hsn : a ∈ spNames
    · exact harr i a hsn
    · exact h.rest i a hsn hf

end
end PySC
