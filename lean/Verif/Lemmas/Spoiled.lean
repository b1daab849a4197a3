import Verif.Spec.Spoiled
import Verif.Lemmas.HistoryDesign
import Verif.Lemmas.Superposition
/-
Failed registrations (C106).
-/
set_option linter.unusedSectionVars false
namespace PySC
open Py Spec
variable {K : Type} [Field K] [LinearOrder K] [IsStrictOrderedRing K] [FloorRing K]

/-- a loop that succeeds has succeeded for each item, in some state reached from the first -/
theorem forEach_reaches {σ α : Type} {R : σ → σ → Prop} [PreRel R] {f : α → Py σ Unit} {l : List α} (hR : ∀ x ∈ l, Rel R (f x)) {s s' : σ}
    (h : forEach l f s = .ok () s') {x : α} (hx : x ∈ l) : ∃ t t', R s t ∧ f x t = .ok () t' := by
  induction l generalizing s with
  | nil => cases hx
  | cons y l ih =>
    rw [forEach_cons, bind_eq_ok] at h
    obtain ⟨⟨⟩, s1, h1, h⟩ := h
    rcases List.mem_cons.1 hx with rfl | hx
    · exact ⟨s, s1, PreRel.refl s, h1⟩
    · obtain ⟨t, t', h2, h3⟩ := ih (fun z hz => hR z (List.mem_cons_of_mem _ hz)) h hx
      exact ⟨t, t', PreRel.trans _ _ _ ((hR y (List.mem_cons_self ..)).ok h1) h2, h3⟩

/-- every call keeps the registered elements -/
structure ListsGrow (s t : SC K) : Prop where
  length : t.RING.length = s.RING.length
  bpms : ∀ i ∈ s.ORD.BPM, i ∈ t.ORD.BPM
  magnets : ∀ i ∈ s.ORD.Magnet, i ∈ t.ORD.Magnet
  cavities : ∀ i ∈ s.ORD.RF, i ∈ t.ORD.RF

theorem setPairs_lists {o : Ords} {t : String} {v : List (Nat × Nat)} :
    (o.setPairs t v).BPM = o.BPM ∧ (o.setPairs t v).RF = o.RF ∧ (o.setPairs t v).Magnet = o.Magnet :=
  ⟨Ords.setPairs_other.1, Ords.setPairs_other.2.1, Ords.setPairs_other.2.2.1⟩

/-- the three lists after a registration -/
theorem registration_lists (c : RegCall K) (s : SC K) :
    (∀ i, i ∈ (c.run s).state.ORD.BPM → i ∈ s.ORD.BPM ∨ i ∈ c.given) ∧ (∀ i ∈ s.ORD.BPM, i ∈ (c.run s).state.ORD.BPM) ∧
    (∀ i, i ∈ (c.run s).state.ORD.Magnet → i ∈ s.ORD.Magnet ∨ i ∈ c.given) ∧ (∀ i ∈ s.ORD.Magnet, i ∈ (c.run s).state.ORD.Magnet) ∧
    (∀ i, i ∈ (c.run s).state.ORD.RF → i ∈ s.ORD.RF ∨ i ∈ c.given) ∧ (∀ i ∈ s.ORD.RF, i ∈ (c.run s).state.ORD.RF) := by
  cases c with
  | bpms o kw =>
    change _ ∧ _
    rcases registerBpms_ord o kw s with ⟨e, h⟩ | h
    · simp only [RegCall.run, h, Res.state]; tauto
    · simp only [RegCall.run, h, RegCall.given, mem_npUnique, List.mem_append]; tauto
  | cavities o kw =>
    rcases registerCavities_ord o kw s with ⟨e, h⟩ | h
    · simp only [RegCall.run, h, Res.state]; tauto
    · simp only [RegCall.run, h, RegCall.given, mem_npUnique, List.mem_append]; tauto
  | magnets o kw =>
    rcases registerMagnets_ord o kw s with ⟨e, h⟩ | h
    · simp only [RegCall.run, h, Res.state]; tauto
    · simp only [RegCall.run, h, RegCall.given, magnetOrds, mem_npUnique, List.mem_append]; tauto
  | supports r t kw =>
    rcases registerSupports_shape r t kw s with ⟨e, h⟩ | ⟨-, -, -, new, -, h⟩
    · simp only [RegCall.run, h, Res.state]; tauto
    · have ho : (supportLoops r t kw { s with ORD := s.ORD.setPairs t new }).state.ORD = s.ORD.setPairs t new :=
        supportLoops_ord r t kw { s with ORD := s.ORD.setPairs t new }
      simp only [RegCall.run, h, ho, setPairs_lists.1, setPairs_lists.2.1, setPairs_lists.2.2]; tauto

theorem run_listsGrow (W : World K) (c : Call K) (s : SC K) : ListsGrow s (c.run W s).state := by
  by_cases hr : c.IsRegistration
  · cases c with
    | register c =>
      obtain ⟨-, h1, -, h2, -, h3⟩ := registration_lists c s
      exact ⟨(registration_grow c s).ring.len, h1, h2, h3⟩
    | _ => exact hr.elim
  · have hk := run_keeps W c hr s
    exact ⟨hk.ring.len, by rw [hk.ord]; tauto, by rw [hk.ord]; tauto, by rw [hk.ord]; tauto⟩

theorem history_listsGrow (W : World K) (cs : List (Call K)) (s : SC K) : ListsGrow s (history W cs s) := by
  unfold history
  induction cs generalizing s with
  | nil => exact ⟨rfl, fun _ h => h, fun _ h => h, fun _ h => h⟩
  | cons c cs ih =>
    have h1 := run_listsGrow W c s
    have h2 := ih (c.run W s).state
    exact ⟨h2.length.trans h1.length, fun i hi => h2.bpms i (h1.bpms i hi), fun i hi => h2.magnets i (h1.magnets i hi),
      fun i hi => h2.cavities i (h1.cavities i hi)⟩

theorem fails_of_not_ok {σ : Type} {α : Type} {r : Res σ α} (h : ∀ a t, r ≠ .ok a t) : Fails r := by
  cases r with
  | ok a t => exact absurd rfl (h a t)
  | error e t => exact ⟨e, t, rfl⟩

theorem Ring.getA_ok_lt {r : Ring K} {i : Nat} {a : String} {v : Attr K} (h : r.getA i a = .ok v) : i < r.length :=
  Ring.isSome_lt (a := a) (by rw [Ring.getA_eq_ok.1 h]; rfl)

theorem updateSupports_needs {E : Env K} {b m : Bool} {s t : SC K} (h : updateSupports E b m s = .ok () t) :
    (b = true → ∀ i ∈ s.ORD.BPM, i < s.RING.length) ∧ (m = true → ∀ i ∈ s.ORD.Magnet, i < s.RING.length) := by
  obtain ⟨W, hW, -⟩ := (updateSupports_writes ..).1 h
  exact ⟨fun hb i hi => (allSupportWrites_has hW (Or.inr ⟨hb, hi⟩) (a := "SupportOffset") (by simp)).1,
    fun hm i hi => (allSupportWrites_has hW (Or.inl ⟨hm, hi⟩) (a := "SupportOffset") (by simp)).1⟩

theorem updateMagnets_needs {o : Option (List Nat)} {s t : SC K} (h : updateMagnets o s = .ok () t) :
    ∀ i ∈ o.getD s.ORD.Magnet, i < s.RING.length := by
  intro i hi
  unfold updateMagnets at h
  have h := bindGet_eq_ok.1 h
  obtain ⟨u, u', hu, hf⟩ := forEach_reaches (R := Keeps (K := K)) (fun x _ => by
    unfold updateMagnetAndChildren
    rels <;> exact updateMagnet_hk _ _) h hi
  rw [← hu.ring.len]
  unfold updateMagnetAndChildren at hf
  obtain ⟨⟨⟩, v, hv, -⟩ := bind_eq_ok.1 hf
  unfold updateMagnet at hv
  obtain ⟨p, hp, -⟩ := bindRd_eq_ok.1 hv
  unfold polynoms at hp
  obtain ⟨x, hx, -⟩ := Except.bind_eq_ok'.1 hp
  exact Ring.isSome_lt (a := "SetPointA") (by rw [Ring.getVec_eq_ok.1 hx]; rfl)

theorem updateCavities_needs {o : Option (List Nat)} {s t : SC K} (h : updateCavities o s = .ok () t) :
    ∀ i ∈ o.getD s.ORD.RF, i < s.RING.length := by
  intro i hi
  unfold updateCavities at h
  have h := bindGet_eq_ok.1 h
  obtain ⟨u, u', hu, hf⟩ := forEach_reaches (R := Keeps (K := K)) (fun x _ => by
    unfold updateCavityField
    rels; exact Keeps.setAttr) h hi
  rw [← hu.ring.len]
  rw [rfProperties, forEach_cons] at hf
  obtain ⟨⟨⟩, v, hv, -⟩ := bind_eq_ok.1 hf
  unfold updateCavityField at hv
  obtain ⟨x, -, hv⟩ := bindRd_eq_ok.1 hv
  exact (setAttr_eq_ok.1 hv).1

theorem bpmReading_needs {E : Env K} {B : BeamEnv K} {ce : Bool} {s t : SC K} {out : Reading K}
    (h : bpmReading E B none ce s = .ok out t) : ∀ i ∈ s.ORD.BPM, i < s.RING.length := by
  intro i hi
  unfold bpmReading at h
  have h := bindGet_eq_ok.1 h
  obtain ⟨ords, ho, h⟩ := bindLift_eq_ok.1 h
  cases ho
  obtain ⟨shots, u, hs, h⟩ := bind_eq_ok.1 h
  by_cases hn : s.INJ.nShots = 0
  · simp only [hn, if_true] at h; cases h
  · obtain ⟨n, hn⟩ := Nat.exists_eq_succ_of_ne_zero hn
    obtain ⟨-, st, h0, -, hk⟩ := mapEach_chain hs
    obtain ⟨y, -, hy⟩ := hk 0 0 (by rw [hn]; simp)
    rw [h0] at hy
    obtain ⟨trk, v, hv, hy⟩ := bind_eq_ok.1 hy
    have hr : v.RING = s.RING := by rw [((tracking_onlyRng E B _).ok hv).1]
    obtain ⟨b, hb, rfl⟩ := List.mem_iff_getElem.1 hi
    have key : ∀ {nt c w}, realBpmReading E B s.ORD.BPM nt trk v = .ok c w → s.ORD.BPM[b] < s.RING.length := by
      intro nt c w hc
      obtain ⟨-, e, z, he, -⟩ := realBpmReading_ok hc
      rw [← hr]
      exact Ring.isSome_lt (a := "CalError") (by rw [(he b _ (List.getElem?_eq_getElem hb)).cal]; rfl)
    split at hy
    · obtain ⟨c, w, hc, -⟩ := bind_eq_ok.1 hy
      exact key hc
    · exact key hy

/-- the first six steps of `apply_errors` -/
theorem applyErrors_steps_hk (E : Env K) (n : K) : Rel (Keeps (K := K)) (do
    applyRf E n
    applyBpm E n
    applyMagnet E n
    applyInjection E n
    applyCircumference E n
    applySupports E n) := by
  have hr : ∀ c m, Rel (Keeps (K := K)) (randnc E c m) := fun c m => hk_of_onlyRng (randnc_onlyRng _ _ _)
  refine Rels.bind ?_ (fun _ => Rels.bind ?_ (fun _ => Rels.bind ?_ (fun _ => Rels.bind ?_ (fun _ => Rels.bind ?_ (fun _ => ?_)))))
  · unfold applyRf; rels; exact drawInto_hk _ _ _ _ _
  · unfold applyBpm; rels
    · exact Keeps.setAttr
    · exact drawInto_hk _ _ _ _ _
  · unfold applyMagnet; rels; exact drawInto_hk _ _ _ _ _
  · unfold applyInjection; rels
    · exact hr _ _
    · exact Keeps.inj
  · unfold applyCircumference
    intro s
    rw [bind_apply]
    have h1 := hr n 1 s
    cases hz : randnc E n 1 s with
    | error e s1 => rw [hz] at h1; exact h1
    | ok z s1 =>
      rw [hz] at h1
      refine PreRel.trans (R := Keeps) _ _ _ h1 ?_
      change Keeps s1 ((lift (scaleCircumference s1.RING (1 + s1.SIG.Circumference * z.headD 0) "rel") >>= fun r =>
        modify (fun s => { s with RING := r })) s1).state
      cases hc : scaleCircumference s1.RING (1 + s1.SIG.Circumference * z.headD 0) "rel" with
      | error e => exact PreRel.refl s1
      | ok r => exact Keeps.ofRing (scaleCircumference_grow hc)
  · unfold applySupports
    refine Rels.bind Rels.get (fun _ => Rels.forEach (fun tp _ => ?_))
    unfold applySupport
    refine Rels.bind Rels.get (fun s => ?_)
    split
    · exact Rels.pure' _
    · refine Rels.bind (Rels.forEach (fun kv _ => ?_)) (fun _ => ?_)
      · unfold drawSupport
        refine Rels.ite (Rels.bind (drawInto_hk _ _ _ _ _) (fun _ => ?_)) (Rels.pure' _)
        split
        · exact Rels.throw _
        · exact Rels.ite (drawInto_hk _ _ _ _ _) (Rels.bind (Rels.rd _) (fun _ => Rels.setAttr (fun _ => Keeps.setAttr)))
      · rels <;> exact Keeps.setAttr

theorem applyErrors_needs {E : Env K} {n : K} {s t : SC K} (h : applyErrors E n s = .ok () t) :
    (∀ i ∈ s.ORD.BPM, i < s.RING.length) ∧ ∀ i ∈ s.ORD.Magnet, i < s.RING.length := by
  obtain ⟨s1, s2, s3, s4, s5, s6, s7, s8, h1, h2, h3, h4, h5, h6, h7, -⟩ := applyErrors_eq_ok h
  have hk : Keeps s s6 := by
    refine (applyErrors_steps_hk E n).ok (a := ()) (s := s) ?_
    simp only [bind_eq_ok]
    exact ⟨(), s1, h1, (), s2, h2, (), s3, h3, (), s4, h4, (), s5, h5, h6⟩
  obtain ⟨hb, hm⟩ := updateSupports_needs h7
  rw [hk.ord, hk.ring.len] at hb hm
  exact ⟨hb rfl, hm rfl⟩

/-- a registration that succeeds names existing elements -/
theorem registerBpms_needs {o : List Nat} {kw : Kwargs K} {s t : SC K} (h : registerBpms o kw s = .ok () t) : ∀ i ∈ o, i < s.RING.length := by
  intro i hi
  unfold registerBpms modOrd at h
  obtain ⟨-, -, h⟩ := bindLift_eq_ok.1 h
  obtain ⟨⟨⟩, s1, h1, h⟩ := bind_eq_ok.1 h
  cases h1
  obtain ⟨u, u', hu, hf⟩ := forEach_reaches (R := Grow (K := K)) (fun x _ => registerBpm1_grow kw x) h (mem_npUnique.2 hi)
  have hl : u.RING.length = s.RING.length := hu.ring.len
  rw [← hl]
  unfold registerBpm1 modSig at hf
  obtain ⟨⟨⟩, s2, h2, hf⟩ := bind_eq_ok.1 hf
  cases h2
  rw [bpmInit, forEach_cons] at hf
  obtain ⟨⟨⟩, v, hv, -⟩ := bind_eq_ok.1 hf
  exact (setAttr_eq_ok.1 hv).1

theorem registerCavities_needs {o : List Nat} {kw : Kwargs K} {s t : SC K} (h : registerCavities o kw s = .ok () t) :
    ∀ i ∈ o, i < s.RING.length := by
  intro i hi
  unfold registerCavities modOrd at h
  obtain ⟨-, -, h⟩ := bindLift_eq_ok.1 h
  obtain ⟨⟨⟩, s1, h1, h⟩ := bind_eq_ok.1 h
  cases h1
  obtain ⟨u, u', hu, hf⟩ := forEach_reaches (R := Grow (K := K)) (fun x _ => registerCavity1_grow kw x) h (mem_npUnique.2 hi)
  have hl : u.RING.length = s.RING.length := hu.ring.len
  rw [← hl]
  unfold registerCavity1 modSig at hf
  obtain ⟨⟨⟩, s2, h2, hf⟩ := bind_eq_ok.1 hf
  cases h2
  rw [rfProperties, forEach_cons] at hf
  obtain ⟨⟨⟩, v, hv, -⟩ := bind_eq_ok.1 hf
  unfold registerRfField at hv
  obtain ⟨x, hx, -⟩ := bindRd_eq_ok.1 hv
  exact Ring.getA_ok_lt hx

theorem registerMagnets_needs {o : List Nat} {kw : Kwargs K} {s t : SC K} (h : registerMagnets o kw s = .ok () t) :
    ∀ i ∈ o, i < s.RING.length := by
  intro i hi
  unfold registerMagnets modOrd at h
  obtain ⟨-, -, h⟩ := bindLift_eq_ok.1 h
  obtain ⟨⟨⟩, s1, h1, h⟩ := bind_eq_ok.1 h
  cases h1
  obtain ⟨u, u', hu, hf⟩ := forEach_reaches (R := Grow (K := K)) (fun x _ => registerMagnet1_grow o kw x) h hi
  have hl : u.RING.length = s.RING.length := hu.ring.len
  rw [← hl]
  unfold registerMagnet1 modSig at hf
  obtain ⟨⟨⟩, s2, h2, hf⟩ := bind_eq_ok.1 hf
  cases h2
  rw [forEach_cons] at hf
  obtain ⟨⟨⟩, v, hv, -⟩ := bind_eq_ok.1 hf
  obtain ⟨⟨⟩, w, hw, -⟩ := bind_eq_ok.1 hv
  unfold registerZeros at hw
  obtain ⟨x, hx, -⟩ := bindRd_eq_ok.1 hw
  exact Ring.isSome_lt (by rw [Ring.getVec_eq_ok.1 hx]; rfl)

/-- registrations with valid keywords extend the lists whatever happens then -/
theorem register_valid {kw : Kwargs K} {A : List String} (hk : ∀ k ∈ kw.keys, k ∈ A) {f : Ords → Ords} {l : List Nat} {b : Nat → Py (SC K) Unit}
    (hb : ∀ i, Rel (fun s s' : SC K => s'.ORD = s.ORD) (b i)) (s : SC K) :
    ((lift (checkKwargs kw A) >>= fun _ => modOrd f >>= fun _ => forEach l b) s).state.ORD = f s.ORD := by
  rw [show checkKwargs kw A = .ok () from checkKwargs_eq_ok.2 hk]
  exact Rels.forEach (R := fun s s' : SC K => s'.ORD = s.ORD) (fun i _ => hb i) { s with ORD := f s.ORD }

end PySC
