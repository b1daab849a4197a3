import Verif.Lemmas.Registrable
import Verif.Lemmas.ApplyErrors
/-
What registrations in order leave behind: a machine in order (C88).
-/
namespace PySC
set_option linter.unusedSectionVars false
open Py Spec
variable {K : Type} [Field K] [LinearOrder K] [FloorRing K]

/-! ### child magnets -/

/-- child magnets are the ones given by the user -/
def MasterGiven (ords : List Nat) (kw : Kwargs K) (s s' : SC K) : Prop :=
  ∀ i, s'.RING.attr i "MasterOf" = s.RING.attr i "MasterOf" ∨
    ∃ v l, kw.get? "MasterOf" = some v ∧ masterOf ords i v = .ok l ∧ s'.RING.attr i "MasterOf" = some (.ords l)

instance (ords : List Nat) (kw : Kwargs K) : PreRel (MasterGiven ords kw) :=
  ⟨fun _ _ => Or.inl rfl, fun _ _ _ h1 h2 i => by
    rcases h2 i with h | h
    · rw [h]; exact h1 i
    · exact Or.inr h⟩

theorem MasterGiven.set {ords : List Nat} {kw : Kwargs K} {s : SC K} {i : Nat} {a : String} {v : Attr K} (h : a ≠ "MasterOf") :
    MasterGiven ords kw s { s with RING := s.RING.setAttr i a v } := fun _ => Or.inl (Ring.attr_setAttr_ne h.symm)

theorem registerMagnet1_master (ords : List Nat) (kw : Kwargs K) (ind : Nat) : Rel (MasterGiven ords kw) (registerMagnet1 ords kw ind) := by
  unfold registerMagnet1 registerZeros addPolynom modSig
  rels
  · exact fun _ => Or.inl rfl
  · rename_i ab hab _ f hf _
    simp only [List.mem_cons, List.not_mem_nil, or_false] at hab hf
    rcases hab with rfl | rfl <;> rcases hf with rfl | rfl | rfl <;> exact MasterGiven.set (by decide)
  · exact MasterGiven.set (by decide)
  · exact MasterGiven.set (by decide)
  · exact MasterGiven.set (by decide)
  · exact MasterGiven.set (by decide)
  · rename_i p hp _
    refine MasterGiven.set ?_
    intro h
    simp [magnetInit] at hp
    rcases hp with rfl | rfl | rfl | rfl | rfl | rfl <;> simp at h
  · unfold optionalMagnetFields ensureCMlimit setCMlimit
    refine Rels.bind (Rels.withKey (fun _ => ?_)) (fun _ => Rels.bind ?_ (fun _ => Rels.bind (Rels.withKey (fun _ => ?_))
      (fun _ => Rels.bind (Rels.withKey (fun _ => ?_)) (fun _ => Rels.bind (Rels.withKey (fun _ => ?_)) (fun _ => ?_)))))
    · rels; exact MasterGiven.set (by decide)
    · rels; exact MasterGiven.set (by decide)
    · rels; exact MasterGiven.set (by decide)
    · rels; exact MasterGiven.set (by decide)
    · rels; exact MasterGiven.set (by decide)
    · unfold withKey
      cases hk : kw.get? "MasterOf" with
      | none => exact Rels.pure' _
      | some v =>
        dsimp only
        cases hm : masterOf ords ind v with
        | error e => exact Rels.throw (R := MasterGiven ords kw) e
        | ok l =>
          show Rel _ (setAttr ind "MasterOf" (.ords l))
          refine Rels.setAttr (fun s j => ?_)
          show (s.RING.setAttr ind _ _).attr j _ = _ ∨ ∃ v' l', _ ∧ _ ∧ (s.RING.setAttr ind _ _).attr j _ = _
          by_cases hj : j = ind
          · subst hj
            by_cases hl : j < s.RING.length
            · exact Or.inr ⟨v, l, hk, hm, Ring.attr_setAttr_same hl⟩
            · left
              rw [Ring.attr_setAttr, if_pos ⟨rfl, rfl⟩, if_neg hl, Ring.attr, List.getElem?_eq_none (not_lt.1 hl)]; rfl
          · exact Or.inl (Ring.attr_setAttr_ne' hj)

theorem registerMagnets_master {ords : List Nat} {kw : Kwargs K} {s s' : SC K} (h : registerMagnets ords kw s = .ok () s') :
    MasterGiven ords kw s s' := by
  have : Rel (MasterGiven ords kw) (registerMagnets ords kw) := by
    unfold registerMagnets modOrd
    rels
    · exact fun _ => Or.inl rfl
    · exact registerMagnet1_master _ _ _
  exact this.ok h

/-! ### uncertainties of supports -/

/-- the uncertainty stored at the start of a support -/
def startSig : Attr K → Attr K
  | .mat m => .vec (m.getD 0 [])
  | .pair (.mat m) c => .pair (.vec (m.getD 0 [])) c
  | a => a

theorem startSig_good {v : Attr K} (h : ForSupport v) :
    Drawable (startSig v) ∧ (uncertainties (startSig v)).length = 3 ∧ uncertainties (startSig v) = atStart v := by
  cases v with
  | vec v => exact ⟨trivial, h, rfl⟩
  | mat m =>
    match m, h with
    | [x, y], h => exact ⟨trivial, h.2 x (by simp), rfl⟩
  | pair a c =>
    cases a with
    | vec v => exact ⟨h.2, h.1, rfl⟩
    | mat m =>
      match m, h with
      | [x, y], h => exact ⟨h.2.2, h.2.1 x (by simp), rfl⟩
    | _ => exact absurd h id
  | _ => exact absurd h id

/-- where a new uncertainty can come from -/
def NewSig (pairs : List (Nat × Nat)) (t : String) (kw : Kwargs K) (i : Nat) (n : String) (v : Attr K) : Prop :=
  ∃ p ∈ pairs, ∃ kv ∈ kw, n = t ++ kv.1 ∧ ((i = p.1 ∧ v = startSig kv.2) ∨ (i = p.2 ∧ ForBothEnds kv.2))

/-- uncertainties of supports are old or new, and none of the entries disappears -/
structure SigGrow (D : Nat → String → Attr K → Prop) (s s' : SC K) : Prop where
  value : ∀ i n v, sigma s'.SIG.Support i n = some v → sigma s.SIG.Support i n = some v ∨ D i n v
  keys : ∀ i, i ∈ s.SIG.Support.keys → i ∈ s'.SIG.Support.keys
  ring : s'.RING = s.RING

instance (D : Nat → String → Attr K → Prop) : PreRel (SigGrow D) :=
  ⟨fun _ => ⟨fun _ _ _ h => Or.inl h, fun _ h => h, rfl⟩, fun _ _ _ h1 h2 => ⟨fun i n v h => by
    rcases h2.value i n v h with h | h
    · exact h1.value i n v h
    · exact Or.inr h, fun i h => h2.keys i (h1.keys i h), h2.ring.trans h1.ring⟩⟩

theorem setSupportSig_grow {D : Nat → String → Attr K → Prop} {i : Nat} {n : String} {v : Attr K} (h : D i n v) :
    Rel (SigGrow D) (setSupportSig i n v) := by
  unfold setSupportSig modSig
  refine Rels.modify (fun s => ⟨fun j m w hw => ?_, fun j hj => Dict.mem_keys_set.2 (Or.inl hj), rfl⟩)
  simp only at hw
  rw [sigma_set_set] at hw
  split at hw
  · rename_i hc; obtain ⟨rfl, rfl⟩ := hc; cases hw; exact Or.inr h
  · exact Or.inl hw

theorem storeSupportSig_grow {pairs : List (Nat × Nat)} {t : String} {kw : Kwargs K} {pr : Nat × Nat} (hp : pr ∈ pairs) {kv : String × Attr K}
    (hkv : kv ∈ kw) : Rel (SigGrow (NewSig pairs t kw)) (storeSupportSig t pr kv) := by
  obtain ⟨k, v⟩ := kv
  have start : ∀ w, w = startSig v → NewSig pairs t kw pr.1 (t ++ k) w := fun w hw => ⟨pr, hp, (k, v), hkv, rfl, Or.inl ⟨rfl, hw⟩⟩
  have end_ : ∀ w, ForBothEnds v → NewSig pairs t kw pr.2 (t ++ k) w := fun w hb => ⟨pr, hp, (k, v), hkv, rfl, Or.inr ⟨rfl, hb⟩⟩
  have hmat : ∀ (m : List (List K)) (f : List K → Attr K), f (m.getD 0 []) = startSig v → ForBothEnds v →
      Rel (SigGrow (NewSig pairs t kw)) (do
        let v0 ← lift (idx m 0)
        setSupportSig pr.1 (t ++ k) (f v0)
        let v1 ← lift (idx m 1)
        setSupportSig pr.2 (t ++ k) (f v1) : Py (SC K) Unit) := by
    intro m f hf hb
    cases m with
    | nil => exact Rels.throw (R := SigGrow (NewSig pairs t kw)) _
    | cons x m =>
      show Rel _ (setSupportSig pr.1 (t ++ k) (f x) >>= fun _ => lift (idx (x :: m) 1) >>= fun v1 => setSupportSig pr.2 (t ++ k) (f v1))
      exact Rels.bind (setSupportSig_grow (start _ hf)) (fun _ => Rels.bind (Rels.lift _) (fun v1 => setSupportSig_grow (end_ _ hb)))
  cases v with
  | vec v => exact setSupportSig_grow (start _ rfl)
  | mat m => exact hmat m .vec rfl trivial
  | pair a c =>
    cases a with
    | vec v => exact setSupportSig_grow (start _ rfl)
    | mat m => exact hmat m (fun v => .pair (.vec v) c) rfl trivial
    | _ => exact Rels.throw _
  | _ => exact Rels.throw _

/-- an element at which a support was just registered -/
structure InitEnd (t : String) (s : SC K) (i : Nat) : Prop where
  sigs : ∀ n, sigma s.SIG.Support i n = none
  key : i ∈ s.SIG.Support.keys
  offset : s.RING.attr i (t ++ "Offset") = some (.vec (zeros 3))
  roll : s.RING.attr i (t ++ "Roll") = some (.vec (zeros 3))

theorem append_ne {t a b : String} (h : a ≠ b) : t ++ a ≠ t ++ b := by
  intro e
  apply h
  have := congrArg String.toList e
  simp only [String.toList_append, List.append_cancel_left_eq] at this
  exact String.toList_inj.1 this

theorem initSupport_init {t : String} {x : Nat} {s s' : SC K} (h : initSupport t x s = .ok () s') : InitEnd t s' x := by
  unfold initSupport modSig at h
  simp only [bind_eq_ok, setAttr_eq_ok, modify_apply] at h
  obtain ⟨⟨⟩, s1, ⟨h1, rfl⟩, ⟨⟩, s2, ⟨h2, rfl⟩, h⟩ := h
  cases h
  refine ⟨fun n => ?_, Dict.mem_keys_set.2 (Or.inr rfl), ?_, ?_⟩
  · simp only
    rw [sigma_set, if_pos rfl]; rfl
  · simp only
    rw [Ring.attr_setAttr_ne (append_ne (by decide)), Ring.attr_setAttr_same h1]
  · exact Ring.attr_setAttr_same h2

theorem supportLoops_init {rows : List (List Nat)} {t : String} {s s' : SC K} (h : forEach rows.flatten (initSupport t) s = .ok () s') :
    (∀ i ∈ rows.flatten, InitEnd t s' i) ∧ ∀ i, i ∈ s.SIG.Support.keys → i ∈ s'.SIG.Support.keys := by
  have keys : ∀ x, Rel (fun s s' : SC K => ∀ i, i ∈ s.SIG.Support.keys → i ∈ s'.SIG.Support.keys) (initSupport t x) := by
    intro x
    have : PreRel (fun s s' : SC K => ∀ i, i ∈ s.SIG.Support.keys → i ∈ s'.SIG.Support.keys) := ⟨fun _ _ h => h, fun _ _ _ h1 h2 i h => h2 i (h1 i h)⟩
    unfold initSupport modSig
    exact Rels.bind (Rels.setAttr (fun _ _ h => h)) (fun _ => Rels.bind (Rels.setAttr (fun _ _ h => h)) (fun _ =>
      Rels.modify (fun s i hi => Dict.mem_keys_set.2 (Or.inl hi))))
  constructor
  · refine forEach_post (I := fun _ => True) (P := fun i s => InitEnd t s i) (fun _ _ _ _ _ => trivial)
      (fun x _ s s' _ h => initSupport_init h) (fun x _ y _ s s' _ hxy hy h => ?_) h trivial
    have hs := (initSupport_sigFrame t x).ok h
    have hr : ∀ a, s'.RING.attr y a = s.RING.attr y a := by
      intro a
      have : Rel (fun s s' : SC K => ∀ a, s'.RING.attr y a = s.RING.attr y a) (initSupport t x) := by
        have : PreRel (fun s s' : SC K => ∀ a, s'.RING.attr y a = s.RING.attr y a) := ⟨fun _ _ => rfl, fun _ _ _ h1 h2 a => (h2 a).trans (h1 a)⟩
        unfold initSupport modSig
        exact Rels.bind (Rels.setAttr (fun _ _ => Ring.attr_setAttr_ne' hxy.symm)) (fun _ =>
          Rels.bind (Rels.setAttr (fun _ _ => Ring.attr_setAttr_ne' hxy.symm)) (fun _ => Rels.modify (fun s a => rfl)))
      exact this.ok h a
    exact ⟨fun n => by rw [hs.support y n hxy.symm]; exact hy.sigs n, (keys x).ok h y hy.key, by rw [hr]; exact hy.offset, by rw [hr]; exact hy.roll⟩
  · have : PreRel (fun s s' : SC K => ∀ i, i ∈ s.SIG.Support.keys → i ∈ s'.SIG.Support.keys) := ⟨fun _ _ h => h, fun _ _ _ h1 h2 i h => h2 i (h1 i h)⟩
    exact (Rels.forEach (fun x _ => keys x)).ok h

/-- after the loops: the uncertainties at the ends of the new supports are new ones, the others are the old ones -/
theorem supportLoops_sigs {rows : List (List Nat)} {t : String} {kw : Kwargs K} {s s' : SC K} (h : supportLoops rows t kw s = .ok () s') :
    (∀ i ∈ rows.flatten, i ∈ s'.SIG.Support.keys ∧ s'.RING.attr i (t ++ "Offset") = some (.vec (zeros 3)) ∧
      s'.RING.attr i (t ++ "Roll") = some (.vec (zeros 3)) ∧
      ∀ n v, sigma s'.SIG.Support i n = some v → NewSig ((rows.getD 0 []).zip (rows.getD 1 [])) t kw i n v) ∧
    ∀ i, i ∈ s.SIG.Support.keys → i ∈ s'.SIG.Support.keys := by
  unfold supportLoops at h
  rw [bind_eq_ok] at h
  obtain ⟨⟨⟩, s1, h1, h2⟩ := h
  obtain ⟨hi, hk⟩ := supportLoops_init h1
  have hg : SigGrow (NewSig ((rows.getD 0 []).zip (rows.getD 1 [])) t kw) s1 s' :=
    (Rels.forEach (fun pr hpr => Rels.forEach (fun kv hkv => storeSupportSig_grow hpr hkv))).ok h2
  refine ⟨fun i hr => ?_, fun i h => hg.keys i (hk i h)⟩
  have := hi i hr
  refine ⟨hg.keys i this.key, by rw [hg.ring]; exact this.offset, by rw [hg.ring]; exact this.roll, fun n v hv => ?_⟩
  rcases hg.value i n v hv with h | h
  · rw [this.sigs n] at h; cases h
  · exact h

theorem registerSupports_total {starts ends : List Nat} {t : String} {kw : Kwargs K} {s : SC K} (ht : t ∈ supportTypes)
    (hk : Known kw ["Offset", "Roll"]) (hne : starts ≠ []) (hlen : starts.length = ends.length)
    (hin : ∀ i ∈ starts ++ ends, i < s.RING.length) (hv : ∀ kv ∈ kw, ForSupport kv.2) :
    ∃ new s', updateDoubleOrdinates (s.ORD.pairs t) (starts.zip ends) = .ok new ∧
      registerSupports [starts, ends] t kw s = .ok () s' ∧ supportLoops [starts, ends] t kw { s with ORD := s.ORD.setPairs t new } = .ok () s' := by
  obtain ⟨new, hnew⟩ : ∃ new, updateDoubleOrdinates (s.ORD.pairs t) (starts.zip ends) = .ok new := by
    unfold updateDoubleOrdinates
    rw [if_neg]
    · exact ⟨_, rfl⟩
    · intro hh
      rw [List.append_eq_nil_iff] at hh
      match starts, ends, hne, hlen with
      | a :: as, b :: bs, _, _ => simp at hh
  have hshape := registerSupports_shape [starts, ends] t kw s
  have heq : registerSupports [starts, ends] t kw s = supportLoops [starts, ends] t kw { s with ORD := s.ORD.setPairs t new } := by
    unfold registerSupports
    rw [if_neg (by simpa using ht), checkKwargs_ok hk (by decide +kernel), bind_apply, lift_ok_apply]
    dsimp only
    rw [if_neg (by simp), bind_apply, get_apply]
    have hnew' : updateDoubleOrdinates (s.ORD.pairs t) (([starts, ends].getD 0 []).zip ([starts, ends].getD 1 [])) = .ok new := hnew
    dsimp only
    rw [bind_apply, hnew']
    rfl
  have loops : ∃ s', supportLoops [starts, ends] t kw { s with ORD := s.ORD.setPairs t new } = .ok () s' := by
    obtain ⟨s1, h1, -⟩ := forEach_progress (f := initSupport (K := K) t) (l := [starts, ends].flatten)
      (I := fun u : SC K => u.RING.length = s.RING.length) (fun x hx u hu => by
        have hl : x < u.RING.length := by rw [hu]; exact hin x (by simpa using hx)
        refine ⟨_, by
          unfold initSupport modSig
          rw [bind_apply, setAttr_apply hl]; dsimp only
          rw [bind_apply, setAttr_apply (by simpa using hl)]; rfl, by simpa using hu⟩) (s := { s with ORD := s.ORD.setPairs t new }) rfl
    obtain ⟨s2, h2, -⟩ := forEach_progress (f := fun pr => forEach kw (storeSupportSig (K := K) t pr)) (l := starts.zip ends)
      (I := fun _ => True) (fun pr _ u _ => by
        obtain ⟨u', h', -⟩ := forEach_progress (f := storeSupportSig (K := K) t pr) (l := kw) (I := fun _ => True)
          (fun kv hkv w _ => by
            obtain ⟨w', hw⟩ := storeSupportSig_total (t := t) (pr := pr) (s := w) (hv kv hkv)
            exact ⟨w', hw, trivial⟩) (s := u) trivial
        exact ⟨u', h', trivial⟩) (s := s1) trivial
    exact ⟨s2, by unfold supportLoops; rw [bind_apply, h1]; exact h2⟩
  obtain ⟨s', hs'⟩ := loops
  exact ⟨new, s', hnew, by rw [heq]; exact hs', hs'⟩

end PySC
