import Verif.Spec.Bba
import Verif.Lemmas.Tune
set_option linter.unusedSectionVars false
namespace PySC
open Py Spec
variable {K : Type} [Field K] [LinearOrder K] [FloorRing K]

/-! ### tables -/

theorem tab2_eq_ok {α : Type} {t : List (List α)} {p j : Nat} {a : α} : tab2 t p j = .ok a ↔ cellAt t p j = some a := by
  simp only [tab2, Except.bind_eq_ok', idx_eq_ok, cellAt, Option.bind_eq_some_iff]

theorem mem_cells {α : Type} {t : List (List α)} {p j : Nat} {a : α} : (p, j, a) ∈ cells t ↔ cellAt t p j = some a := by
  simp only [cells, List.mem_flatMap, List.mem_map, Prod.exists, Prod.mk.injEq, List.mem_zipIdx_iff_getElem?, cellAt,
    Option.bind_eq_some_iff]
  constructor
  · rintro ⟨row, p', hr, b, j', hb, rfl, rfl, rfl⟩
    exact ⟨row, hr, hb⟩
  · rintro ⟨row, hr, hb⟩
    exact ⟨row, p, hr, a, j, hb, rfl, rfl, rfl⟩

/-- only the row `p` contributes -/
theorem sum_zipIdx_row {α : Type} {f : α × Nat → K} {p : Nat} (hf : ∀ x k, k ≠ p → f (x, k) = 0) :
    ∀ (l : List α) (n : Nat), n ≤ p → ((l.zipIdx n).map f).sum = (match l[p - n]? with | none => 0 | some x => f (x, p)) := by
  intro l
  induction l with
  | nil => intro n _; simp
  | cons a l ih =>
    intro n hn
    rw [List.zipIdx_cons, List.map_cons, List.sum_cons]
    by_cases h : n = p
    · subst h
      have hz : ((l.zipIdx (n + 1)).map f).sum = 0 := by
        apply List.sum_eq_zero
        intro x hx
        obtain ⟨⟨y, k⟩, hy, rfl⟩ := List.mem_map.1 hx
        exact hf _ _ (by have := List.le_snd_of_mem_zipIdx hy; omega)
      rw [hz]
      simp
    · rw [hf a n h, ih (n + 1) (by omega), zero_add]
      have : p - n = (p - (n + 1)) + 1 := by omega
      rw [this]
      rfl

theorem sum_zipIdx_range {α : Type} {f : α × Nat → K} {g : Nat → K} {l : List α} (h : ∀ k x, l[k]? = some x → f (x, k) = g k) :
    (l.zipIdx.map f).sum = ((List.range l.length).map g).sum := by
  congr 1
  apply List.ext_getElem
  · simp
  · intro k h1 h2
    simp only [List.length_map, List.length_zipIdx] at h1
    simp only [List.getElem_map, List.getElem_zipIdx, List.getElem_range, Nat.zero_add]
    exact h k _ (List.getElem?_eq_getElem h1)

/-- a sum over a table of which only the row `p` contributes -/
theorem sum_cells_row {α : Type} {f : Nat × Nat × α → K} {p : Nat} (hf : ∀ p' j a, p' ≠ p → f (p', j, a) = 0) (t : List (List α))
    {g : Nat → K} (hg : ∀ j a, cellAt t p j = some a → f (p, j, a) = g j) :
    ((cells t).map f).sum = ((List.range (t.getD p []).length).map g).sum := by
  have e : ((cells t).map f).sum = (t.zipIdx.map (fun r : List α × Nat => (r.1.zipIdx.map (fun e => f (r.2, e.2, e.1))).sum)).sum := by
    simp only [cells, List.map_flatMap, List.map_map]
    rw [List.flatMap, List.sum_flatten, List.map_map]
    rfl
  rw [e, sum_zipIdx_row (p := p) (fun row k hk => ?_) t 0 (by omega)]
  · simp only [Nat.sub_zero]
    cases h : t[p]? with
    | none => simp [List.getD_eq_getElem?_getD, h]
    | some row =>
      simp only [List.getD_eq_getElem?_getD, h, Option.getD_some]
      exact sum_zipIdx_range (fun k x hk => hg k x (by simp [cellAt, h, hk]))
  · apply List.sum_eq_zero
    intro x hx
    obtain ⟨y, -, rfl⟩ := List.mem_map.1 hx
    exact hf _ _ _ hk

theorem cellAt_zip {α β : Type} {t : List (List α)} {u : List (List β)} {p j : Nat} {a : α} {b : β} :
    cellAt (List.zipWith List.zip t u) p j = some (a, b) ↔ cellAt t p j = some a ∧ cellAt u p j = some b := by
  simp only [cellAt, List.getElem?_zipWith, Option.bind_eq_some_iff]
  constructor
  · rintro ⟨row, h1, h2⟩
    cases ht : t[p]? with
    | none => rw [ht] at h1; simp at h1
    | some x =>
      cases hu : u[p]? with
      | none => rw [ht, hu] at h1; simp at h1
      | some y =>
        rw [ht, hu] at h1
        cases h1
        rw [List.getElem?_zip_eq_some] at h2
        exact ⟨⟨x, rfl, h2.1⟩, ⟨y, rfl, h2.2⟩⟩
  · rintro ⟨⟨x, hx, ha⟩, ⟨y, hy, hb⟩⟩
    rw [hx, hy]
    exact ⟨_, rfl, by rw [List.getElem?_zip_eq_some]; exact ⟨ha, hb⟩⟩

/-! ### C41 -/

theorem isBbaErrored_iff (off err : Option K) : isBbaErrored off err = true ↔ Rejected off err := by
  cases off with
  | none => simp [isBbaErrored, Rejected]
  | some o => cases err <;> simp [isBbaErrored, Rejected]

theorem changeOffset_writes (o p : Nat) (v : K → K) : Rel (Frame (fun i a => i = o ∧ a = "Offset")) (changeOffset (K := K) o p v) := by
  unfold changeOffset
  refine Rels.bind (Rels.rd _) (fun off => Rels.bind (Rels.lift _) (fun x => Rels.setAttr (fun _ => Frame.setAttr ⟨rfl, rfl⟩)))

theorem changeOffset_ok {o p : Nat} {v : K → K} {s s' : SC K} (h : changeOffset o p v s = .ok () s') (i q : Nat) :
    bpmOffset s'.RING i q = if i = o ∧ q = p then v (bpmOffset s.RING i q) else bpmOffset s.RING i q := by
  unfold changeOffset at h
  rw [bindRd_eq_ok] at h; obtain ⟨off, hoff, h⟩ := h
  rw [bindLift_eq_ok] at h; obtain ⟨x, hx, h⟩ := h
  rw [setAttr_eq_ok] at h
  obtain ⟨hlt, rfl⟩ := h
  rw [Ring.getVec_eq_ok] at hoff
  rw [idx_eq_ok] at hx
  have hp := (List.getElem?_eq_some_iff.1 hx).1
  by_cases hi : i = o
  · subst hi
    simp only [bpmOffset, vecAt, Ring.attr_setAttr_same hlt, hoff, coef_set _ _ _ _ hp, true_and]
    by_cases hq : q = p
    · subst hq
      rw [if_pos rfl, if_pos rfl]
      simp [coef, List.getD_eq_getElem?_getD, hx]
    · rw [if_neg hq, if_neg hq]
  · rw [if_neg (fun hh => hi hh.1)]
    simp only [bpmOffset, vecAt, Ring.attr_setAttr_ne' hi]

/-- which BPM offsets a table of BPMs may change -/
def offsetWrites (bpmOrds : List (List Nat)) (i : Nat) (a : String) : Prop := a = "Offset" ∧ ∃ row ∈ bpmOrds, i ∈ row

theorem cellAt_mem_row {α : Type} {t : List (List α)} {p j : Nat} {x : α} (h : cellAt t p j = some x) : ∃ row ∈ t, x ∈ row := by
  simp only [cellAt, Option.bind_eq_some_iff] at h
  obtain ⟨row, h1, h2⟩ := h
  exact ⟨row, List.mem_of_getElem? h1, List.mem_of_getElem? h2⟩

theorem applyBpmOffsets_writes (bpmOrds : List (List Nat)) (offs errs : List (List (Option K))) :
    Rel (Frame (offsetWrites bpmOrds)) (applyBpmOffsets bpmOrds offs errs) := by
  unfold applyBpmOffsets
  split
  · exact Rels.throw _
  · refine Rels.forEach (fun e _ => ?_)
    split
    · exact Rels.pure' _
    · split
      · exact Rels.pure' _
      · refine Rels.bindLift (fun o ho => Rel.mono (fun s s' hf => ?_) (changeOffset_writes _ _ _))
        rw [tab2_eq_ok] at ho
        exact Frame.mono (fun i a ⟨h1, h2⟩ => ⟨h2, by subst h1; exact cellAt_mem_row ho⟩) hf

theorem applyBpmOffsets_ok {bpmOrds : List (List Nat)} {offs errs : List (List (Option K))} {s s' : SC K}
    (h : applyBpmOffsets bpmOrds offs errs s = .ok () s') (o p : Nat) :
    bpmOffset s'.RING o p = bpmOffset s.RING o p + acceptedSum bpmOrds offs errs o p := by
  classical
  unfold applyBpmOffsets at h
  by_cases hs : shape offs ≠ shape errs
  · rw [if_pos hs] at h; cases h
  rw [if_neg hs] at h
  push Not at hs
  let c : Nat × Nat × (Option K × Option K) → K := fun e =>
    if e.1 = p ∧ cellAt bpmOrds e.1 e.2.1 = some o ∧ ¬ Rejected e.2.2.1 e.2.2.2 then e.2.2.1.getD 0 else 0
  have key : ∀ (l : List (Nat × Nat × (Option K × Option K))) (s : SC K), forEach l (fun e =>
      match e.2.2.1 with
      | none => Py.pure ()
      | some off =>
        if isBbaErrored e.2.2.1 e.2.2.2 then Py.pure ()
        else do
          let ord ← lift (tab2 bpmOrds e.1 e.2.1)
          changeOffset ord e.1 (fun x => x + off)) s = .ok () s' →
      bpmOffset s'.RING o p = bpmOffset s.RING o p + (l.map c).sum := by
    intro l
    induction l with
    | nil => intro s h; simp at h; subst h; simp
    | cons e l ih =>
      intro s h
      rw [forEach_cons, bind_eq_ok] at h
      obtain ⟨_, s1, h1, h2⟩ := h
      rw [ih s1 h2, List.map_cons, List.sum_cons, ← add_assoc]
      congr 1
      obtain ⟨p', j, off, err⟩ := e
      cases off with
      | none =>
        cases h1
        simp [c, Rejected]
      | some off =>
        simp only at h1
        by_cases hb : isBbaErrored (some off) err = true
        · rw [if_pos hb] at h1
          cases h1
          have : Rejected (some off) err := (isBbaErrored_iff _ _).1 hb
          simp [c, this]
        · rw [if_neg hb, bindLift_eq_ok] at h1
          obtain ⟨ord, ho, h1⟩ := h1
          rw [tab2_eq_ok] at ho
          rw [changeOffset_ok h1]
          have hr : ¬ Rejected (some off) err := fun hh => hb ((isBbaErrored_iff _ _).2 hh)
          simp only [c, ho, Option.some.injEq, hr, not_false_eq_true, and_true, Option.getD_some]
          by_cases hc : o = ord ∧ p = p'
          · rw [if_pos hc, if_pos ⟨hc.2.symm, hc.1.symm⟩]
          · rw [if_neg hc, if_neg (fun hh => hc ⟨hh.2.symm, hh.1.symm⟩), add_zero]
  rw [key _ _ h]
  congr 1
  rw [acceptedSum, sum_cells_row (p := p) (fun p' j a hp => ?_) _ (fun j a ha => ?_) (f := c)
    (g := fun j => if cellAt bpmOrds p j = some o ∧ ¬ Rejected ((cellAt offs p j).getD none) ((cellAt errs p j).getD none)
      then ((cellAt offs p j).getD none).getD 0 else 0)]
  · have hl : ((List.zipWith List.zip offs errs).getD p []).length = (offs.getD p []).length := by
      have h1 : (shape offs)[p]? = (shape errs)[p]? := by rw [hs]
      simp only [shape, List.getElem?_map] at h1
      simp only [List.getD_eq_getElem?_getD, List.getElem?_zipWith]
      cases ha : offs[p]? with
      | none => simp
      | some x =>
        cases hb : errs[p]? with
        | none => rw [ha, hb] at h1; simp at h1
        | some y =>
          rw [ha, hb] at h1
          simp at h1
          simp [h1]
    rw [hl]
  · simp [c, hp]
  · obtain ⟨x, y⟩ := a
    rw [cellAt_zip] at ha
    simp only [c, ha.1, ha.2, Option.getD_some, true_and]

/-! ### C42 -/

theorem fieldValues_eq_ok {r : Ring K} {ords : List Nat} {name : String} {k : Nat} {w : List K}
    (h : fieldValues r ords name k = .ok w) : w = ords.map (fun o => coef (vecAt r o name) k) := by
  refine mapM_except_map (fun o _ y hy => ?_) h
  rw [Ring.getVecAt_eq_ok] at hy
  obtain ⟨v, hv, hk⟩ := hy
  rw [vecAt_of_attr hv, coef_of_getElem? hk]

theorem bpmOffsetsFromMag_eq_ok {r : Ring K} {p : Nat} {bpms mags : List Nat} {w : List K}
    (h : bpmOffsetsFromMag r p bpms mags = .ok w) :
    bpms.length = mags.length ∧ w = (List.range bpms.length).map (fun j => relativeOffset r (bpms.getD j 0) (mags.getD j 0) p) := by
  simp only [bpmOffsetsFromMag, Except.bind_eq_ok'] at h
  obtain ⟨a, ha, b, hb, c, hc, d, hd, h⟩ := h
  by_cases hl : bpms.length ≠ mags.length
  · rw [if_pos hl] at h; cases h
  rw [if_neg hl] at h
  push Not at hl
  refine ⟨hl, ?_⟩
  cases h
  have ha := fieldValues_eq_ok ha
  have hb := fieldValues_eq_ok hb
  have hc := fieldValues_eq_ok hc
  have hd := fieldValues_eq_ok hd
  subst ha hb hc hd
  apply List.ext_getElem
  · simp [← hl]
  · intro j h1 h2
    simp only [List.length_map, List.length_range] at h2
    have h3 : j < mags.length := hl ▸ h2
    simp [relativeOffset, bpmOffset, List.getD_eq_getElem?_getD, h2, h3]

/-- what one flagged entry does -/
theorem fakeEntry_ok [IsStrictOrderedRing K] {E : Env K} {bpmOrds magOrds : List (List Nat)} {sizes : List (Option K)} {p j : Nat} {s s' : SC K}
    (h : fakeEntry E bpmOrds magOrds sizes p j s = .ok () s') :
    ∃ (mag bpm : Nat) (f : Option K) (z : K), cellAt magOrds p j = some mag ∧ cellAt bpmOrds p j = some bpm ∧ sizes[p]? = some f ∧
      |z| ≤ 2 ∧ DrawFrame (fun i a => i = bpm ∧ a = "Offset") s s' ∧
      (f = none → ∀ i q, bpmOffset s'.RING i q = bpmOffset s.RING i q) ∧
      (∀ x, f = some x → relativeOffset s'.RING bpm mag p = x * z) ∧
      ∀ i q, ¬ (i = bpm ∧ q = p) → bpmOffset s'.RING i q = bpmOffset s.RING i q := by
  unfold fakeEntry at h
  rw [bindLift_eq_ok] at h; obtain ⟨mag, hmag, h⟩ := h
  rw [bindLift_eq_ok] at h; obtain ⟨bpm, hbpm, h⟩ := h
  rw [bindRd_eq_ok] at h; obtain ⟨a, ha, h⟩ := h
  rw [bindRd_eq_ok] at h; obtain ⟨b, hb, h⟩ := h
  rw [bindRd_eq_ok] at h; obtain ⟨c, hc, h⟩ := h
  rw [bindLift_eq_ok] at h; obtain ⟨f, hf, h⟩ := h
  rw [bind_eq_ok] at h; obtain ⟨z, s1, hz, h⟩ := h
  rw [tab2_eq_ok] at hmag hbpm
  rw [idx_eq_ok] at hf
  have hdf : DrawFrame (fun i a => i = bpm ∧ a = "Offset") s s1 := OnlyRng.drawFrame (randnc_fresh hz).1
  have hring : s1.RING = s.RING := by rw [((randnc_fresh hz).1).1]
  have hz2 : |z.getD 0 0| ≤ 2 := by
    rw [randnc_eq_ok] at hz
    obtain ⟨pos, hz, -⟩ := hz
    obtain ⟨h1, h2, -⟩ := randncFrom_eq_ok hz
    have : z.getD 0 0 ∈ z := by
      rw [List.getD_eq_getElem?_getD, List.getElem?_eq_getElem (by omega)]
      exact List.getElem_mem _
    exact (h1 _ this).trans_eq (abs_of_pos (by norm_num))
  refine ⟨mag, bpm, f, z.getD 0 0, hmag, hbpm, hf, hz2, ?_⟩
  cases f with
  | none =>
    cases h
    refine ⟨hdf, fun _ i q => by rw [hring], fun x hx => (by cases hx), fun i q _ => by rw [hring]⟩
  | some f =>
    simp only at h
    have hw := (changeOffset_writes bpm p _).ok h
    have e := changeOffset_ok h
    refine ⟨DrawFrame.trans _ _ _ hdf (DrawFrame.of_frame hw), fun hh => (by cases hh), fun x hx => ?_, fun i q hne => ?_⟩
    · cases hx
      have same : ∀ i a, a ≠ "Offset" → s'.RING.attr i a = s.RING.attr i a := fun i a ha => by
        rw [hw.attr _ _ (fun hh => ha hh.2), hring]
      rw [Ring.getVecAt_eq_ok] at ha hb hc
      obtain ⟨va, ha1, ha2⟩ := ha
      obtain ⟨vb, hb1, hb2⟩ := hb
      obtain ⟨vc, hc1, hc2⟩ := hc
      rw [relativeOffset, e, if_pos ⟨rfl, rfl⟩, vecAt_of_attr ((same _ _ (by decide)).trans ha1), coef_of_getElem? ha2,
        vecAt_of_attr ((same _ _ (by decide)).trans hb1), coef_of_getElem? hb2,
        vecAt_of_attr ((same _ _ (by decide)).trans hc1), coef_of_getElem? hc2]
      ring
    · rw [e, if_neg hne, hring]

theorem relativeOffset_congr {r r' : Ring K} {bpm mag p : Nat} (h : bpmOffset r' bpm p = bpmOffset r bpm p)
    (ha : ∀ i a, a ≠ "Offset" → r'.attr i a = r.attr i a) : relativeOffset r' bpm mag p = relativeOffset r bpm mag p := by
  simp only [relativeOffset, h, vecAt, ha bpm "SupportOffset" (by decide), ha mag "SupportOffset" (by decide),
    ha mag "MagnetOffset" (by decide)]

/-- the loop of `fake_bba` -/
theorem fakeLoop_ok [IsStrictOrderedRing K] {E : Env K} {bpmOrds magOrds : List (List Nat)} {flags : List (List Bool)} {sizes : List (Option K)} {s s' : SC K}
    (hnd : ∀ row ∈ bpmOrds, row.Nodup)
    (h : forEach (cells flags) (fun e => if e.2.2 then fakeEntry E bpmOrds magOrds sizes e.1 e.2.1 else Py.pure ()) s = .ok () s') :
    DrawFrame (fun i a => a = "Offset" ∧ ∃ p j, cellAt flags p j = some true ∧ cellAt bpmOrds p j = some i) s s' ∧
    (∀ p j, cellAt flags p j = some true → ∃ (mag bpm : Nat) (f : Option K), cellAt magOrds p j = some mag ∧ cellAt bpmOrds p j = some bpm ∧
      sizes[p]? = some f ∧ ∀ x, f = some x → ∃ z, |z| ≤ 2 ∧ relativeOffset s'.RING bpm mag p = x * z) ∧
    ∀ i p, (∀ j, cellAt flags p j = some true → cellAt bpmOrds p j = some i → sizes[p]? = some none) →
      bpmOffset s'.RING i p = bpmOffset s.RING i p := by
  have hframe : ∀ e ∈ cells flags, ∀ t t', (if e.2.2 = true then fakeEntry E bpmOrds magOrds sizes e.1 e.2.1 else Py.pure ()) t = .ok () t' →
      DrawFrame (fun i a => a = "Offset" ∧ ∃ p j, cellAt flags p j = some true ∧ cellAt bpmOrds p j = some i) t t' := by
    rintro ⟨p, j, b⟩ he t t' ht
    rw [mem_cells] at he
    by_cases hb : b = true
    · rw [if_pos hb] at ht
      obtain ⟨mag, bpm, f, z, -, h2, -, -, h5, -⟩ := fakeEntry_ok ht
      refine DrawFrame.mono ?_ h5
      rintro i a ⟨rfl, rfl⟩
      exact ⟨rfl, p, j, by rw [he, hb], h2⟩
    · rw [if_neg hb] at ht
      cases ht
      exact DrawFrame.refl _
  refine ⟨?_, ?_, ?_⟩
  · exact forEach_inv (I := fun t => DrawFrame _ s t) (fun e he t t' ht h => DrawFrame.trans _ _ _ ht (hframe e he t t' h)) h
      (DrawFrame.refl s)
  · have := forEach_post (I := fun _ => True)
      (P := fun e (t : SC K) => e.2.2 = true → ∃ (mag bpm : Nat) (f : Option K), cellAt magOrds e.1 e.2.1 = some mag ∧
        cellAt bpmOrds e.1 e.2.1 = some bpm ∧
        sizes[e.1]? = some f ∧ ∀ x, f = some x → ∃ z, |z| ≤ 2 ∧ relativeOffset t.RING bpm mag e.1 = x * z)
      (fun _ _ _ _ _ => trivial) ?_ ?_ h trivial
    · intro p j hpj
      exact this (p, j, true) (mem_cells.2 hpj) rfl
    · rintro ⟨p, j, b⟩ he t t' - ht hb
      rw [if_pos hb] at ht
      obtain ⟨mag, bpm, f, z, h1, h2, h3, h4, -, -, h7, -⟩ := fakeEntry_ok ht
      exact ⟨mag, bpm, f, h1, h2, h3, fun x hx => ⟨z, h4, h7 x hx⟩⟩
    · rintro ⟨p, j, b⟩ he ⟨p', j', b'⟩ he' t t' - hne hP ht hb'
      obtain ⟨mag, bpm, f, h1, h2, h3, h4⟩ := hP hb'
      refine ⟨mag, bpm, f, h1, h2, h3, fun x hx => ?_⟩
      obtain ⟨z, hz, hr⟩ := h4 x hx
      refine ⟨z, hz, ?_⟩
      rw [← hr]
      by_cases hb : b = true
      · rw [if_pos hb] at ht
        obtain ⟨mag2, bpm2, f2, z2, -, k2, -, -, k5, -, -, k8⟩ := fakeEntry_ok ht
        refine relativeOffset_congr (k8 _ _ ?_) (fun i a ha => k5.attr _ _ (fun hh => ha hh.2))
        rintro ⟨rfl, rfl⟩
        have hjj : j = j' := by
          simp only at h2 k2
          simp only [cellAt, Option.bind_eq_some_iff] at h2 k2
          obtain ⟨row, hrow, hj'⟩ := h2
          obtain ⟨row2, hrow2, hj⟩ := k2
          rw [hrow] at hrow2
          cases hrow2
          have hnd' := hnd row (List.mem_of_getElem? hrow)
          obtain ⟨q1, q2⟩ := List.getElem?_eq_some_iff.1 hj
          obtain ⟨q3, q4⟩ := List.getElem?_eq_some_iff.1 hj'
          exact (hnd'.getElem_inj_iff (hi := q1) (hj := q3)).1 (q2.trans q4.symm)
        subst hjj
        rw [mem_cells] at he he'
        rw [he] at he'
        cases he'
        exact hne rfl
      · rw [if_neg hb] at ht
        cases ht
        rfl
  · intro i p hq
    refine forEach_inv (I := fun t : SC K => bpmOffset t.RING i p = bpmOffset s.RING i p) ?_ h rfl
    rintro ⟨p', j, b⟩ he t t' ht h
    rw [← ht]
    by_cases hb : b = true
    · rw [if_pos hb] at h
      obtain ⟨mag2, bpm2, f2, z2, -, k2, k3, -, -, k6, -, k8⟩ := fakeEntry_ok h
      by_cases hc : i = bpm2 ∧ p = p'
      · obtain ⟨rfl, rfl⟩ := hc
        rw [mem_cells, hb] at he
        have := hq j he k2
        simp only at k3
        rw [this] at k3
        cases k3
        exact k6 rfl _ _
      · exact k8 _ _ hc
    · rw [if_neg hb] at h
      cases h
      rfl

end PySC
