import Verif.Lemmas.SupportErrors
import Verif.Lemmas.Fields
import Verif.Lemmas.CavitySetpoints
import Verif.Spec.Perfect
/-
Without uncertainties `apply_errors` leaves a machine without errors (C23).
-/
namespace PySC
set_option linter.unusedSectionVars false
open Py Spec
variable {K : Type} [Field K] [LinearOrder K] [FloorRing K]

section ord
variable [IsStrictOrderedRing K]

/-! ### zero uncertainties give zero errors -/

theorem truncated_zero {n : K} {sig err : Attr K} (h : Truncated n sig err) (hz : IsZero sig) : IsZero err := by
  cases sig <;> cases err <;> simp only [Truncated, IsZero] at h hz ⊢
  · rw [hz] at h; simpa using h
  · intro k
    have := h.2 k
    rw [hz k] at this
    simpa using this

theorem errorFor_zero {n : K} {sig err : Attr K} (h : ErrorFor n sig err) (hz : IsZero sig) : IsZero err := by
  cases sig with
  | pair v c => exact truncated_zero (n := c) (by simpa [ErrorFor] using h) (by simpa [IsZero] using hz)
  | _ => exact truncated_zero (n := n) (by simpa [ErrorFor] using h) hz

theorem zeroAt_congr {r r' : Ring K} {i : Nat} {a : String} (h : r'.attr i a = r.attr i a) (hz : ZeroAt r i a) : ZeroAt r' i a := by
  unfold ZeroAt; rw [h]; exact hz

theorem zeroAt_coef {r : Ring K} {i : Nat} {a : String} (h : ZeroAt r i a) (k : Nat) : coef (vecAt r i a) k = 0 := by
  unfold vecAt
  split
  · rename_i v hv; exact h _ hv k
  · simp [coef]

theorem zeroAt_num {r : Ring K} {i : Nat} {a : String} (h : ZeroAt r i a) : numAt r i a = 0 := by
  unfold numAt
  split
  · rename_i v hv; exact h _ hv
  · rfl

theorem zeroAt_setAttr {r : Ring K} {i j : Nat} {a b : String} {v : Attr K} (h : ZeroAt r i a)
    (hv : i = j → a = b → IsZero v) : ZeroAt (r.setAttr j b v) i a := by
  intro w hw
  rw [Ring.attr_setAttr] at hw
  split at hw
  · rename_i hh
    split at hw
    · cases hw; exact hv hh.1 hh.2
    · cases hw
  · exact h w hw

/-! ### errors of BPMs, cavities and magnets -/

theorem applyErrors_zero {E : Env K} {n : K} {s s' : SC K} (hw : WellRegistered s.SIG) (hn : NoUncertainties s.SIG)
    (h : applyErrors E n s = .ok () s') {i : Nat} {a : String} (hz : ZeroAt s.RING i a)
    (ha : a ∈ bpmErrors ++ rfErrors ++ magnetErrors) : ZeroAt s'.RING i a := by
  obtain ⟨e1, e2, e3⟩ := applyErrors_stored hw h
  have hf := applyErrors_frame (E := E) (n := n) hw
  rw [h] at hf
  by_cases hd : errorAttrs s i a
  · have k : ∀ a ∈ bpmErrors ++ rfErrors ++ magnetErrors,
        a ∉ "Length" :: (supportNamesList ++ supportWrites ++ magnetWrites ++ rfProperties) := by decide +kernel
    have := k a ha
    simp only [List.mem_cons, List.mem_append, not_or] at this
    obtain ⟨k1, ⟨⟨k2, k3⟩, k4⟩, k5⟩ := this
    rcases hd with ⟨hi, m, v, hv, rfl⟩ | ⟨hi, m, v, hv, rfl⟩ | ⟨hi, m, v, hv, rfl⟩ | h | h | h | h | h
    · obtain ⟨err, g1, g2⟩ := e1 i hi _ v hv
      intro w hw'
      rw [show s'.RING.attr i a = _ from g1] at hw'
      cases hw'
      exact errorFor_zero (by simpa using g2) (hn.rf _ _ _ hv)
    · obtain ⟨err, g1, g2⟩ := e2 i hi _ v hv
      intro w hw'
      rw [show s'.RING.attr i a = _ from g1] at hw'
      cases hw'
      split at g2
      · subst g2; exact hn.bpm _ _ _ hv
      · exact errorFor_zero g2 (hn.bpm _ _ _ hv)
    · obtain ⟨err, g1, g2⟩ := e3 i hi m v hv
      intro w hw'
      rw [g1] at hw'
      cases hw'
      exact errorFor_zero (by simpa using g2) (hn.magnet _ _ _ hv)
    · exact absurd h k1
    · exact absurd (supportDrawn_name h) k2
    · exact absurd h k3
    · exact absurd h k4
    · exact absurd h k5
  · exact zeroAt_congr (hf.attr i a hd) hz

/-! ### errors of supports -/

/-- no support has an error -/
def SupportsZero (r : Ring K) : Prop := ∀ i, ∀ a ∈ supportNamesList, ZeroAt r i a

theorem drawInto_zero {E : Env K} {c : K} {i : Nat} {m : String} {sig : Attr K} (hz : IsZero sig) {s s' : SC K}
    (h : drawInto E c i m sig s = .ok () s') (hs : SupportsZero s.RING) : SupportsZero s'.RING := by
  obtain ⟨err, g1, g2⟩ := drawInto_ok h
  have hfr := (drawInto_rel (W := fun j a => j = i ∧ a = m) ⟨rfl, rfl⟩).ok h
  intro j a ha
  by_cases hj : j = i ∧ a = m
  · obtain ⟨rfl, rfl⟩ := hj
    intro w hw
    rw [g1] at hw
    cases hw
    exact errorFor_zero g2 hz
  · exact zeroAt_congr (hfr.attr _ _ hj) (hs j a ha)

theorem drawSupport_zero {E : Env K} {n : K} {t : String} {p : Nat × Nat} {sig1 : Option (Kwargs K)} {kv : String × Attr K}
    (hk : kv.1 ∈ supportNamesList) (hz : IsZero kv.2) {s s' : SC K} (h : drawSupport E n t p sig1 kv s = .ok () s')
    (hs : SupportsZero s.RING) : SupportsZero s'.RING := by
  unfold drawSupport at h
  split at h
  · rw [bind_eq_ok] at h
    obtain ⟨⟨⟩, s1, h1, h2⟩ := h
    have z1 := drawInto_zero hz h1 hs
    cases sig1 with
    | none => cases h2
    | some e =>
      simp only at h2
      split at h2
      · exact drawInto_zero hz h2 z1
      · simp only [bind_eq_ok, rd_eq_ok, Ring.getA_eq_ok, setAttr_eq_ok] at h2
        obtain ⟨v, s2, ⟨hv, hs2⟩, hlt, rfl⟩ := h2
        subst hs2
        exact fun i a ha => zeroAt_setAttr (z1 i a ha) (fun _ _ => z1 _ _ hk v hv)
  · cases h; exact hs

theorem tilt_zero {tilt o0 o1 len x a b : K} {both : Except Err Bool} (h : tiltAndOffsets tilt o0 o1 len both = .ok (x, a, b))
    (h1 : tilt = 0) (h2 : o0 = 0) (h3 : o1 = 0) : x = 0 ∧ a = 0 ∧ b = 0 := by
  rcases tiltAndOffsets_eq_ok h with ⟨hne, -⟩ | ⟨-, -, rfl, rfl, rfl⟩
  · exact absurd h1 hne
  · subst h2; subst h3; simp

theorem newErrors_zero {r : Ring K} {t : String} (ht : t ∈ supportTypes) {p : Nat × Nat} {len : K} {sig1 : Option (Kwargs K)}
    {R O0 O1 rolls off0 off1 : List K} (h : NewErrors r t p len sig1 R O0 O1 rolls off0 off1) (hs : SupportsZero r) :
    (∀ k, coef R k = 0) ∧ (∀ k, coef O0 k = 0) ∧ ∀ k, coef O1 k = 0 := by
  have names : ∀ t ∈ supportTypes, t ++ "Offset" ∈ supportNamesList ∧ t ++ "Roll" ∈ supportNamesList := by decide +kernel
  obtain ⟨n1, n2⟩ := names t ht
  have zr : ∀ k, coef rolls k = 0 := hs _ _ n2 _ h.rollsAt
  have z0 : ∀ k, coef off0 k = 0 := hs _ _ n1 _ h.off0At
  have z1 : ∀ k, coef off1 k = 0 := hs _ _ n1 _ h.off1At
  obtain ⟨x, a, b, hx, e1, e2, e3⟩ := h.pitch
  obtain ⟨rfl, rfl, rfl⟩ := tilt_zero hx (zr 1) (z0 1) (z1 1)
  obtain ⟨x, a, b, hx, e4, e5, e6⟩ := h.yaw
  obtain ⟨rfl, rfl, rfl⟩ := tilt_zero hx (zr 2) (z0 0) (z1 0)
  refine ⟨fun k => ?_, fun k => ?_, fun k => ?_⟩
  · match k with
    | 0 => rw [h.roll]; exact zr 0
    | 1 => exact e1
    | 2 => exact e4
    | k + 3 => rw [h.restR _ (by omega)]; exact zr _
  · match k with
    | 0 => exact e5
    | 1 => exact e2
    | k + 2 => rw [h.rest0 _ (by omega)]; exact z0 _
  · match k with
    | 0 => exact e6
    | 1 => exact e3
    | k + 2 => rw [h.rest1 _ (by omega)]; exact z1 _

theorem applySupport_zero {E : Env K} {n : K} {sp : List K} {t : String} (ht : t ∈ supportTypes) {p : Nat × Nat}
    {s s' : SC K} (hw : WellRegistered s.SIG) (hn : NoUncertainties s.SIG)
    (h : applySupport E n sp t p s = .ok () s') (hs : SupportsZero s.RING) : SupportsZero s'.RING := by
  unfold applySupport at h
  rw [bind_eq_ok] at h
  obtain ⟨s0, s0', h0, h⟩ := h
  cases h0
  cases hsig : s.SIG.Support.get? p.1 with
  | none => rw [hsig] at h; cases h; exact hs
  | some sig0 =>
    rw [hsig] at h
    simp only [bind_eq_ok, rd_eq_ok, setAttr_eq_ok] at h
    obtain ⟨⟨⟩, s1, h1, ⟨R, O0, O1⟩, s2, ⟨h2, hs2⟩, ⟨⟩, s3, ⟨l3, rfl⟩, ⟨⟩, s4, ⟨l4, rfl⟩, l5, rfl⟩ := h
    subst hs2
    have z1 : SupportsZero s2.RING := by
      refine forEach_inv (I := fun u => SupportsZero u.RING) (fun kv hkv u u' hu hf => ?_) h1 hs
      have hsg : sigma s.SIG.Support p.1 kv.1 = some kv.2 := (entries_mem hw.supportSingle).1 (by
        unfold entries; rw [hsig]; exact hkv)
      exact drawSupport_zero (hw.supportNames p.1 kv.1 kv.2 hsg) (hn.support _ _ _ hsg) hf hu
    obtain ⟨-, -, len, -, -, -, rolls, off0, off1, hne⟩ := newSupportErrors_eq_ok h2
    obtain ⟨r1, r2, r3⟩ := newErrors_zero ht hne z1
    exact fun i a ha => zeroAt_setAttr (zeroAt_setAttr (zeroAt_setAttr (z1 i a ha) (fun _ _ => r1)) (fun _ _ => r2)) (fun _ _ => r3)

theorem applySupports_zero {E : Env K} {n : K} {s s' : SC K} (hw : WellRegistered s.SIG) (hn : NoUncertainties s.SIG)
    (h : applySupports E n s = .ok () s') (hs : SupportsZero s.RING) : SupportsZero s'.RING := by
  unfold applySupports at h
  rw [bind_eq_ok] at h
  obtain ⟨s0, s0', h0, h⟩ := h
  cases h0
  refine (forEach_inv (I := fun u => u.SIG = s.SIG ∧ SupportsZero u.RING) (fun tp htp u u' hu hf => ?_) h ⟨rfl, hs⟩).2
  have ht := (typedPairs_type htp).1
  have hfr := applySupport_frame (E := E) (n := n) (sp := findspos s.RING) (p := tp.2) ht (s := u) (hu.1 ▸ hw)
  rw [hf] at hfr
  exact ⟨hfr.sig.trans hu.1, applySupport_zero ht (hu.1 ▸ hw) (hu.1 ▸ hn) hf hu.2⟩

/-! ### elements on supports without errors -/

/-- every entry is zero -/
def AllZero (v : List K) : Prop := ∀ x ∈ v, x = 0

theorem allZero_of_coef {v : List K} (h : ∀ k < v.length, coef v k = 0) : AllZero v := by
  intro x hx
  obtain ⟨k, hk, rfl⟩ := List.mem_iff_getElem.1 hx
  have := h k hk
  simpa [coef, List.getD_eq_getElem?_getD, hk] using this

theorem AllZero.coef {v : List K} (h : AllZero v) (k : Nat) : coef v k = 0 := by
  unfold Spec.coef
  rw [List.getD_eq_getElem?_getD]
  cases hv : v[k]? with
  | none => rfl
  | some x => exact h x (List.mem_of_getElem? hv)

theorem lineInterp_zero {x0 x1 x : K} : lineInterp x0 0 x1 0 x = 0 := by
  unfold lineInterp; simp

theorem allZero_assignWhere {off s : List K} {P : Nat → Bool} {g : K → K} (h : AllZero off) (hg : ∀ x, g x = 0) :
    AllZero (assignWhere off s P g) := by
  intro x hx
  unfold assignWhere at hx
  rw [List.mem_mapIdx] at hx
  obtain ⟨k, hk, rfl⟩ := hx
  split
  · exact hg _
  · exact h _ (List.of_mem_zip (List.getElem_mem hk)).1

theorem sInterpolation1_zero {s off off' : List K} {C : K} {a b : Nat} (h : AllZero off)
    (hi : sInterpolation1 s C off a b 0 0 = .ok off') : AllZero off' := by
  unfold sInterpolation1 at hi
  simp only [Except.bind_eq_ok'] at hi
  obtain ⟨s1, -, s2, -, hi⟩ := hi
  split at hi
  · split at hi
    · cases hi
    · cases hi; exact allZero_assignWhere h (fun _ => rfl)
  · split at hi
    · cases hi; exact allZero_assignWhere h (fun _ => lineInterp_zero)
    · cases hi
      exact allZero_assignWhere (allZero_assignWhere h (fun _ => lineInterp_zero)) (fun _ => lineInterp_zero)

theorem foldlM_inv {α β : Type} {P : β → Prop} {f : β → α → Except Err β} {l : List α}
    (hf : ∀ x ∈ l, ∀ b b', P b → f b x = .ok b' → P b') : ∀ {b b' : β}, P b → l.foldlM f b = .ok b' → P b' := by
  induction l with
  | nil => intro b b' hb h; cases h; exact hb
  | cons x l ih =>
    intro b b' hb h
    rw [List.foldlM_cons, Except.bind_eq_ok'] at h
    obtain ⟨c, h1, h2⟩ := h
    exact ih (fun y hy => hf y (List.mem_cons_of_mem _ hy)) (hf x List.mem_cons_self b c hb h1) h2

theorem getVecAt_zero {r : Ring K} {i : Nat} {a : String} {d : Nat} {x : K} (h : r.getVecAt i a d = .ok x) (hz : ZeroAt r i a) :
    x = 0 := by
  rw [Ring.getVecAt_eq_ok] at h
  obtain ⟨v, h1, h2⟩ := h
  have := hz _ h1 d
  simpa [coef, List.getD_eq_getElem?_getD, h2] using this

theorem offsetRow_zero {r : Ring K} {o : Ords} {dim : Nat} {row : List K} (hs : SupportsZero r)
    (h : offsetRow r o dim = .ok row) : AllZero row := by
  unfold offsetRow at h
  refine foldlM_inv (P := AllZero) (fun t ht off off' hz hf => ?_) (allZero_of_coef (fun k _ => coef_zeros _ k)) h
  have names : ∀ t ∈ supportTypes, t ++ "Offset" ∈ supportNamesList := by decide +kernel
  unfold applySupportType at hf
  rw [Except.bind_eq_ok'] at hf
  obtain ⟨ends, h1, h2⟩ := hf
  have he : ends = (o.pairs t).map (fun p => (p, (0 : K), (0 : K))) := mapM_except_map (fun p hp y hy => by
    simp only [Except.bind_eq_ok', idx_eq_ok, supportValue] at hy
    obtain ⟨oa, ha, xa, hxa, ob, hb, xb, hxb, hy⟩ := hy
    cases hy
    rw [getVecAt_zero hxa (hs _ _ (names t ht)), getVecAt_zero hxb (hs _ _ (names t ht)),
      hz _ (List.mem_of_getElem? ha), hz _ (List.mem_of_getElem? hb), add_zero]) h1
  subst he
  refine foldlM_inv (P := AllZero) (fun e hmem off1 off2 hz1 hf1 => ?_) hz h2
  rw [List.mem_map] at hmem
  obtain ⟨p, -, rfl⟩ := hmem
  exact sInterpolation1_zero hz1 hf1

theorem rollRows_zero {r : Ring K} {o : Ords} {x y : List K} {rows : List (List K)} (hs : SupportsZero r) (hx : AllZero x)
    (hy : AllZero y) (h : rollRows r o x y = .ok rows) : ∃ a b c, rows = [a, b, c] ∧ AllZero a ∧ AllZero b ∧ AllZero c := by
  unfold rollRows at h
  simp only [Except.bind_eq_ok', Except.ok.injEq] at h
  obtain ⟨a, ha, b, hb, c, hc, rfl⟩ := h
  have names : ∀ t ∈ supportTypes, t ++ "Roll" ∈ supportNamesList := by decide +kernel
  obtain ⟨la, va⟩ := addRolls_eq ha
  obtain ⟨lb, vb⟩ := setTilts_eq hb
  obtain ⟨lc, vc⟩ := setTilts_eq hc
  refine ⟨a, b, c, rfl, allZero_of_coef (fun k hk => ?_), allZero_of_coef (fun k hk => ?_), allZero_of_coef (fun k hk => ?_)⟩
  · rw [va k (la ▸ hk), coef_zeros, zero_add]
    apply List.sum_eq_zero
    intro z hz
    rw [List.mem_map] at hz
    obtain ⟨tp, htp, rfl⟩ := hz
    exact zeroAt_coef (hs _ _ (names _ (typedPairs_type (List.mem_of_mem_filter htp)).1)) 0
  · rw [vb k (lb ▸ hk)]
    split
    · exact coef_zeros _ _
    · rw [hy.coef, hy.coef]; simp
  · rw [vc k (lc ▸ hk)]
    split
    · exact coef_zeros _ _
    · rw [hx.coef, hx.coef]; simp

theorem npInterp_zero {pts : List (K × K)} (hz : ∀ p ∈ pts, p.2 = 0) {x y : K} (h : npInterp pts x = .ok y) : y = 0 := by
  induction pts with
  | nil => cases h
  | cons p pts ih =>
    cases pts with
    | nil => cases h; exact hz _ (by simp)
    | cons q pts =>
      obtain ⟨x0, f0⟩ := p
      obtain ⟨x1, f1⟩ := q
      have e0 : f0 = 0 := hz (x0, f0) (by simp)
      have e1 : f1 = 0 := hz (x1, f1) (by simp)
      unfold npInterp at h
      split at h
      · cases h; exact e0
      · split at h
        · cases h; simp [e0, e1]
        · exact ih (fun p hp => hz p (List.mem_cons_of_mem _ hp)) h

theorem interpRow_zero {s row locs v : List K} (hz : AllZero row) (h : interpRow s row locs = .ok v) : AllZero v := by
  unfold interpRow at h
  rw [Except.bind_eq_ok'] at h
  obtain ⟨pts, h1, h2⟩ := h
  have hp : pts = (uniquePos s).map (fun p => (p.1, (0 : K))) := mapM_except_map (fun p hp y hy => by
    simp only [Except.bind_eq_ok', idx_eq_ok] at hy
    obtain ⟨f, hf, hy⟩ := hy
    cases hy
    rw [hz _ (List.mem_of_getElem? hf)]) h1
  have hv : v = locs.map (fun _ => (0 : K)) := mapM_except_map (fun x hx y hy => npInterp_zero (by
    subst hp; intro p hp; rw [List.mem_map] at hp; obtain ⟨q, -, rfl⟩ := hp; rfl) hy) h2
  subst hv
  intro x hx
  rw [List.mem_map] at hx
  obtain ⟨_, _, rfl⟩ := hx
  rfl

theorem supportAt_zero {r : Ring K} {o : Ords} {ords : List Nat} (hs : SupportsZero r) {offs rolls : List (List K)}
    (h : supportAt r o ords = .ok (offs, rolls)) :
    ∃ x y z a b c : List K, offs = [x, y, z] ∧ rolls = [a, b, c] ∧ AllZero x ∧ AllZero y ∧ AllZero z ∧
      AllZero a ∧ AllZero b ∧ AllZero c := by
  unfold supportAt supportOffsetAndRoll at h
  simp only [Except.bind_eq_ok'] at h
  obtain ⟨locs, -, x, hx, y, hy, z, hz, rows, hr, h⟩ := h
  have zx := offsetRow_zero hs hx
  have zy := offsetRow_zero hs hy
  have zz := offsetRow_zero hs hz
  obtain ⟨a, b, c, rfl, za, zb, zc⟩ := rollRows_zero hs zx zy hr
  split at h
  · simp only [Except.bind_eq_ok', Except.ok.injEq, Prod.mk.injEq] at h
    obtain ⟨off, hoff, rl, hrl, rfl, rfl⟩ := h
    simp only [List.mapM_cons, List.mapM_nil, Except.bind_eq_ok', pure, Except.pure, Except.ok.injEq] at hoff hrl
    obtain ⟨x', hx', _, ⟨y', hy', _, ⟨z', hz', _, rfl, rfl⟩, rfl⟩, rfl⟩ := hoff
    obtain ⟨a', ha', _, ⟨b', hb', _, ⟨c', hc', _, rfl, rfl⟩, rfl⟩, rfl⟩ := hrl
    exact ⟨x', y', z', a', b', c', rfl, rfl, interpRow_zero zx hx', interpRow_zero zy hy', interpRow_zero zz hz',
      interpRow_zero za ha', interpRow_zero zb hb', interpRow_zero zc hc'⟩
  · cases h
    exact ⟨x, y, z, a, b, c, rfl, rfl, zx, zy, zz, za, zb, zc⟩

theorem updateSupports_zero {E : Env K} {s s' : SC K} (ht : Tidy s.ORD) (hs : SupportsZero s.RING)
    (h : updateSupports E true true s = .ok () s') :
    (∀ i ∈ s.ORD.Magnet, i ∉ s.ORD.BPM → s'.RING.attr i "SupportOffset" = some (.vec [0, 0, 0]) ∧
      s'.RING.attr i "SupportRoll" = some (.vec [0, 0, 0])) ∧
    (∀ i ∈ s.ORD.BPM, s'.RING.attr i "SupportOffset" = some (.vec [0, 0]) ∧ s'.RING.attr i "SupportRoll" = some (.num 0)) ∧
    (∀ i ∈ s.ORD.Magnet, i ∉ s.ORD.BPM → (∀ i' ∈ s.ORD.Magnet, i' ≠ i → ¬ ChildOf s.RING i' i) → Placed E s'.RING i) := by
  unfold updateSupports at h
  simp only [bind_eq_ok] at h
  obtain ⟨s0, s0', h0, ⟨⟩, s1, h1, h2⟩ := h
  cases h0
  have mag : Frame (fun _ a => a ∈ supportWrites) s s1 ∧ ∀ i ∈ s.ORD.Magnet,
      s1.RING.attr i "SupportOffset" = some (.vec [0, 0, 0]) ∧ s1.RING.attr i "SupportRoll" = some (.vec [0, 0, 0]) ∧
      ((∀ i' ∈ s.ORD.Magnet, i' ≠ i → ¬ ChildOf s.RING i' i) → Placed E s1.RING i) := by
    by_cases he : s.ORD.Magnet = []
    · rw [he] at h1
      simp [Py.when, Py.pure] at h1
      subst h1
      exact ⟨Frame.refl s, fun i hm => by rw [he] at hm; simp at hm⟩
    · have hc : (true && !s.ORD.Magnet.isEmpty) = true := by simp [he]
      rw [hc] at h1
      simp only [Py.when, if_true, bind_eq_ok, rd_eq_ok] at h1
      obtain ⟨⟨offs, rolls⟩, s', ⟨hor, rfl⟩, h1⟩ := h1
      obtain ⟨x, y, z, ro, pi, ya, rfl, rfl, zx, zy, zz, z1, z2, z3⟩ := supportAt_zero hs hor
      refine ⟨(Rels.forEach (fun p _ => updateMagnetSupport_frame E _ _ p)).ok h1, fun i hi => ?_⟩
      obtain ⟨m, hm⟩ := List.mem_iff_getElem?.1 hi
      obtain ⟨⟨a, b, c, ha, hb, hc, h3⟩, ⟨a', b', c', ha', hb', hc', h4⟩, h5⟩ :=
        magnetLoop_ok ht.Magnet h1 (i, m) (by rw [List.mem_zipIdx_iff_getElem?]; exact hm)
      rw [zx _ (List.mem_of_getElem? ha), zy _ (List.mem_of_getElem? hb), zz _ (List.mem_of_getElem? hc)] at h3
      rw [z1 _ (List.mem_of_getElem? ha'), z2 _ (List.mem_of_getElem? hb'), z3 _ (List.mem_of_getElem? hc')] at h4
      exact ⟨h3, h4, fun hno => (h5 hno).1⟩
  obtain ⟨fm, mag⟩ := mag
  have hs1 : SupportsZero s1.RING := fun i a ha => zeroAt_congr (fm.attr i a (by
    have : ∀ a ∈ supportNamesList, a ∉ supportWrites := by decide
    exact this a ha)) (hs i a ha)
  have bpm : Frame (fun j a => j ∈ s.ORD.BPM ∧ a ∈ ["SupportOffset", "SupportRoll"]) s1 s' ∧ ∀ i ∈ s.ORD.BPM,
      s'.RING.attr i "SupportOffset" = some (.vec [0, 0]) ∧ s'.RING.attr i "SupportRoll" = some (.num 0) := by
    by_cases he : s.ORD.BPM = []
    · rw [he] at h2
      simp [Py.when, Py.pure] at h2
      subst h2
      exact ⟨Frame.refl _, fun i hm => by rw [he] at hm; simp at hm⟩
    · have hc : (true && !s.ORD.BPM.isEmpty) = true := by simp [he]
      rw [hc] at h2
      simp only [Py.when, if_true, bind_eq_ok, rd_eq_ok] at h2
      obtain ⟨⟨offs, rolls⟩, s2, ⟨hor, hs2⟩, h2⟩ := h2
      subst hs2
      obtain ⟨x, y, z, ro, pi, ya, rfl, rfl, zx, zy, zz, z1, z2, z3⟩ := supportAt_zero hs1 hor
      obtain ⟨hv, hfr⟩ := bpmLoop_ok ht.BPM h2
      refine ⟨hfr, fun i hi => ?_⟩
      obtain ⟨m, hm⟩ := List.mem_iff_getElem?.1 hi
      obtain ⟨⟨a, b, ha, hb, h3⟩, ⟨c, hc, h4⟩⟩ := hv (i, m) (by rw [List.mem_zipIdx_iff_getElem?]; exact hm)
      rw [zx _ (List.mem_of_getElem? ha), zy _ (List.mem_of_getElem? hb)] at h3
      rw [z1 _ (List.mem_of_getElem? hc)] at h4
      exact ⟨h3, h4⟩
  obtain ⟨fb, bpm⟩ := bpm
  have keep : ∀ i, i ∉ s.ORD.BPM → ∀ a, s'.RING.attr i a = s1.RING.attr i a := fun i hi a => fb.attr _ _ (fun hh => hi hh.1)
  refine ⟨fun i hi hb => ?_, bpm, fun i hi hb hno => ?_⟩
  · rw [keep i hb, keep i hb]; exact ⟨(mag i hi).1, (mag i hi).2.1⟩
  · exact placed_congr (keep i hb) ((mag i hi).2.2 hno)

/-! ### the whole -/

/-- names of the attributes into which errors of BPMs, cavities and magnets are drawn -/
def drawnNames : List String := rfNamesList ++ bpmNamesList ++ magnetErrors

theorem applyErrors_stages {E : Env K} {n : K} {s s' : SC K} (hw : WellRegistered s.SIG)
    (h : applyErrors E n s = .ok () s') :
    ∃ s3 s4 s5 s6 s7 s8, DrawFrame (fun _ a => a ∈ drawnNames) s s3 ∧ applyInjection E n s3 = .ok () s4 ∧
      applyCircumference E n s4 = .ok () s5 ∧ applySupports E n s5 = .ok () s6 ∧ updateSupports E true true s6 = .ok () s7 ∧
      when (!s7.ORD.Magnet.isEmpty) (updateMagnets none) s7 = .ok () s8 ∧
      when (!s7.ORD.RF.isEmpty && !s7.SIG.RF.isEmpty) (updateCavities none) s8 = .ok () s' := by
  obtain ⟨s1, s2, s3, s4, s5, s6, s7, s8, h1, h2, h3, h4, h5, h6, h7, h8, h9⟩ := applyErrors_eq_ok h
  have f1 := applyRf_frame (E := E) (n := n) hw
  rw [h1] at f1
  have w1 : WellRegistered s1.SIG := f1.sig ▸ hw
  have f2 := applyBpm_frame (E := E) (n := n) w1
  rw [h2] at f2
  have w2 : WellRegistered s2.SIG := f2.sig ▸ w1
  have f3 := applyMagnet_frame (E := E) (n := n) w2
  rw [h3] at f3
  have k1 : ∀ a ∈ rfNamesList.map id, a ∈ drawnNames := by decide +kernel
  have k2 : ∀ a ∈ bpmNamesList.map id, a ∈ drawnNames := by decide +kernel
  have k3 : ∀ a ∈ magnetNamesList.map magnetAttrOf, a ∈ drawnNames := by decide +kernel
  exact ⟨s3, s4, s5, s6, s7, s8, DrawFrame.trans _ _ _ (DrawFrame.trans _ _ _
    (f1.mono (fun i a hd => k1 a (drawn_name hw.rfNames hd))) (f2.mono (fun i a hd => k2 a (drawn_name w1.bpmNames hd))))
    (f3.mono (fun i a hd => k3 a (drawn_name w2.magnetNames hd))), h4, h5, h6, h7, h8, h9⟩

theorem scaleCircumference_one {r r' : Ring K} (h : scaleCircumference r 1 "rel" = .ok r') (i : Nat) :
    numAt r' i "Length" = numAt r i "Length" := by
  unfold scaleCircumference at h
  rw [if_neg (by decide)] at h
  simp only at h
  split at h
  · cases h; rfl
  · rw [Except.bind_eq_ok'] at h
    obtain ⟨q, hq, h⟩ := h
    rw [divE_eq_ok] at hq
    have hq0 : q = 0 := by rw [hq.2]; simp
    subst hq0
    cases h
    by_cases hi : i < r.length
    · unfold numAt Ring.attr
      simp only [List.getElem?_map, List.getElem?_eq_getElem hi, Option.map_some, Option.bind_some]
      split_ifs with hd
      · simp only [Elem.set, if_true, sub_zero, mul_one]
        unfold elemLength
        cases hv : r[i] "Length" with
        | none => rfl
        | some v => cases v <;> rfl
      · rfl
    · unfold numAt Ring.attr
      simp [List.getElem?_eq_none (not_lt.1 hi)]

theorem applyErrors_perfect {E : Env K} {n : K} {s s' : SC K} (hw : WellRegistered s.SIG) (ht : Tidy s.ORD)
    (h6 : s.SIG.staticInjectionZ.length = 6) (hn : NoUncertainties s.SIG) (he : ErrorFree s)
    (h : applyErrors E n s = .ok () s') : PerfectMachine E s s' := by
  have zero : ∀ i a, a ∈ bpmErrors ++ rfErrors ++ magnetErrors → ZeroAt s.RING i a → ZeroAt s'.RING i a :=
    fun i a ha hz => applyErrors_zero hw hn h hz ha
  obtain ⟨z0, hinj, -, hz0⟩ := applyErrors_injection hw h6 h
  obtain ⟨s3, s4, s5, s6, s7, s8, f3, h4, h5, h6', h7, h8, h9⟩ := applyErrors_stages hw h
  have w3 : WellRegistered s3.SIG := f3.sig ▸ hw
  have f4 := (applyInjection_frame E n).ok h4
  have f5 := (applyCircumference_frame E n).ok h5
  have g5 : s5.SIG = s.SIG := by rw [f5.sig, f4.sig, f3.sig]
  have f6 := applySupports_frame (E := E) (n := n) (s := s5) (by rw [g5]; exact hw)
  rw [h6'] at f6
  simp only [Res.state] at f6
  have f7 := (updateSupports_frame E true true).ok h7
  have f8 := (Rels.when (updateMagnets_modifies none)).ok h8
  have f9 := (Rels.when (updateCavities_frame none)).ok h9
  have o6 : s6.ORD = s.ORD := by rw [f6.ord, f5.ord, f4.ord, f3.ord]
  have o7 : s7.ORD = s.ORD := by rw [f7.ord, o6]
  have g7 : s7.SIG = s.SIG := by rw [f7.sig, f6.sig, g5]
  -- attributes which are not touched at all
  have early : ∀ i a, a ∉ "Length" :: (drawnNames ++ supportNamesList) → s6.RING.attr i a = s.RING.attr i a := by
    intro i a ha
    simp only [List.mem_cons, List.mem_append, not_or] at ha
    rw [f6.attr _ _ (fun hh => ha.2.2 (supportDrawn_name hh)), f5.attr _ _ (fun hh => ha.1 hh), f4.attr _ _ (fun hh => hh),
      f3.attr _ _ (fun hh => ha.2.1 hh)]
  have late : ∀ i a, a ∉ magnetWrites ++ rfProperties → s'.RING.attr i a = s7.RING.attr i a := by
    intro i a ha
    simp only [List.mem_append, not_or] at ha
    rw [f9.attr _ _ (fun hh => ha.2 hh), f8.attr _ _ (fun hh => ha.1 hh)]
  have same : ∀ i a, a ∉ "Length" :: (drawnNames ++ supportNamesList) → a ∉ magnetWrites ++ rfProperties → a ∉ supportWrites →
      s'.RING.attr i a = s.RING.attr i a := fun i a h1 h2 h3 => by rw [late i a h2, f7.attr _ _ h3, early i a h1]
  -- supports
  have zs5 : SupportsZero s5.RING := fun i a ha => zeroAt_congr (by
    have k : ∀ a ∈ supportNamesList, a ≠ "Length" ∧ a ∉ drawnNames := by decide +kernel
    rw [f5.attr _ _ (fun hh => (k a ha).1 hh), f4.attr _ _ (fun hh => hh), f3.attr _ _ (fun hh => (k a ha).2 hh)]) (he.support i a ha)
  have zs6 := applySupports_zero (g5 ▸ hw) (g5 ▸ hn) h6' zs5
  have hmo : ∀ i, s6.RING.attr i "MasterOf" = s.RING.attr i "MasterOf" := fun i => early i _ (by decide +kernel)
  have hmo7 : ∀ i, s7.RING.attr i "MasterOf" = s.RING.attr i "MasterOf" := fun i => by rw [f7.attr _ _ (by decide), hmo]
  obtain ⟨u1, u2, u3⟩ := updateSupports_zero (E := E) (o6 ▸ ht) zs6 h7
  rw [o6] at u1 u2 u3
  refine ⟨fun i hi halone hfit => ?_, fun i hi hb hno => ?_, fun hne i hi f hf => ?_, fun hnil i f hf => ?_, fun i hi a ha => ?_,
    fun i a ha => ?_, fun i => ?_, fun k => ?_, fun i a ha => ?_⟩
  · -- fields of magnets
    have hMne : s7.ORD.Magnet.isEmpty = false := by
      rw [o7]; cases hM : s.ORD.Magnet with
      | nil => rw [hM] at hi; simp at hi
      | cons => rfl
    rw [hMne] at h8
    simp only [Bool.not_false, Py.when, if_true] at h8
    rw [updateMagnets_none] at h8
    have l7 : ∀ a, a ∉ magnetWrites ++ rfProperties → s7.RING.attr i a = s'.RING.attr i a := fun a ha => (late i a ha).symm
    have hfit7 : CalFits s7.RING i := by
      intro ab hab
      have k : ∀ ab ∈ ["A", "B"], "CalError" ++ ab ∉ magnetWrites ++ rfProperties ∧ "SetPoint" ++ ab ∉ magnetWrites ++ rfProperties := by
        decide +kernel
      rw [vecAt_congr (l7 _ (k ab hab).1), vecAt_congr (l7 _ (k ab hab).2)]
      exact hfit ab hab
    have hF := updateMagnets_hasField h8 (src := i) (tgt := i) (by rw [o7]; exact hi) (Or.inl rfl) (fun j hj haf => by
      rw [o7] at hj
      refine halone j hj ?_
      unfold Affects at haf ⊢
      rwa [hmo7] at haf) hfit7
    have zc : ∀ ab ∈ ["A", "B"], ∀ k, coef (vecAt s7.RING i ("CalError" ++ ab)) k = 0 := by
      intro ab hab k
      have k1 : ∀ ab ∈ ["A", "B"], "CalError" ++ ab ∉ magnetWrites ++ rfProperties ∧ "CalError" ++ ab ∈ magnetErrors := by decide +kernel
      rw [vecAt_congr (l7 _ (k1 ab hab).1)]
      exact zeroAt_coef (zero i _ (by simp [(k1 ab hab).2]) (he.magnet i hi _ (k1 ab hab).2)) k
    have zo : ∀ ab ∈ ["A", "B"], ∀ k, coef (vecAt s7.RING i ("Polynom" ++ ab ++ "Offset")) k = 0 := by
      intro ab hab k
      have k1 : ∀ ab ∈ ["A", "B"], "Polynom" ++ ab ++ "Offset" ∉ "Length" :: (drawnNames ++ supportNamesList) ∧
        "Polynom" ++ ab ++ "Offset" ∉ supportWrites ∧ "Polynom" ++ ab ++ "Offset" ∈ ["PolynomAOffset", "PolynomBOffset"] := by decide +kernel
      obtain ⟨g1, g2, g3⟩ := k1 ab hab
      rw [vecAt_congr ((f7.attr i _ g2).trans (early i _ g1))]
      exact zeroAt_coef (he.multipoles i hi _ g3) k
    have zt : ∀ ab ∈ ["A", "B"], ∀ src ∈ ["A", "B"], ∀ k, systematicFrom s7.RING i i ab src k = 0 := by
      intro ab hab src hsrc k
      have k1 : ∀ ab ∈ ["A", "B"], ∀ src ∈ ["A", "B"], "SysPol" ++ ab ++ "From" ++ src ∉ "Length" :: (drawnNames ++ supportNamesList) ∧
        "SysPol" ++ ab ++ "From" ++ src ∉ supportWrites ∧
        "SysPol" ++ ab ++ "From" ++ src ∈ ["SysPolAFromA", "SysPolAFromB", "SysPolBFromA", "SysPolBFromB"] := by decide +kernel
      obtain ⟨g1, g2, g3⟩ := k1 ab hab src hsrc
      unfold systematicFrom tableAt
      rw [f7.attr i _ g2, early i _ g1, he.systematic i hi _ g3]
      rfl
    have zm : ∀ ab ∈ ["A", "B"], ∀ k, multipole s7.RING i i ab k = coef (vecAt s'.RING i ("SetPoint" ++ ab)) k := by
      intro ab hab k
      have k1 : ∀ ab ∈ ["A", "B"], "SetPoint" ++ ab ∉ magnetWrites ++ rfProperties := by decide +kernel
      unfold multipole mainField
      rw [zc ab hab, zo ab hab, zt ab hab "A" (by simp), zt ab hab "B" (by simp), vecAt_congr (l7 _ (k1 ab hab))]
      ring
    have zb : bendTerm s7.RING i i = 0 := by
      unfold bendTerm
      rw [zeroAt_num (zeroAt_congr (l7 "BendingAngleError" (by decide)) (zero i _ (by decide) (he.magnet i hi _ (by decide))))]
      simp
    have zcf : combinedTerm s7.RING i i = 0 := by
      unfold combinedTerm
      have e1 : ∀ a ∈ ["CombinedFunction", "SetPointB", "NomPolynomB"], s7.RING.attr i a = s.RING.attr i a := by
        intro a ha
        have k1 : ∀ a ∈ ["CombinedFunction", "SetPointB", "NomPolynomB"], a ∉ "Length" :: (drawnNames ++ supportNamesList) ∧ a ∉ supportWrites := by
          decide +kernel
        rw [f7.attr i _ (k1 a ha).2, early i _ (k1 a ha).1]
      split_ifs with hc
      · have hcf : flagAt s.RING i "CombinedFunction" = true := by
          rw [Bool.and_eq_true] at hc
          unfold flagAt at hc ⊢
          rw [← e1 "CombinedFunction" (by simp)]
          exact hc.2
        obtain ⟨c1, c2⟩ := he.combined i hi hcf
        unfold mainField
        rw [zc "B" (by simp), show "SetPoint" ++ "B" = "SetPointB" from by decide +kernel, vecAt_congr (e1 "SetPointB" (by simp)),
          vecAt_congr (e1 "NomPolynomB" (by simp)), c1, add_zero, mul_one, div_self c2, sub_self]
        simp
      · rfl
    obtain ⟨va, a1, a2⟩ := hF.polynomA
    obtain ⟨vb, b1, b2, -⟩ := hF.polynomB
    refine ⟨va, vb, ?_, ?_, fun k => ?_, fun k => ?_⟩
    · rw [f9.attr _ _ (by decide)]; exact a1
    · rw [f9.attr _ _ (by decide)]; exact b1
    · rw [a2, zm "A" (by simp)]; rfl
    · rw [b2, zm "B" (by simp), zb, zcf]; simp
  · -- placement of magnets
    have hp := u3 i hi hb (fun j hj hne hc => hno j hj hne (by unfold ChildOf at hc ⊢; rwa [hmo] at hc))
    obtain ⟨v1, v2⟩ := u1 i hi hb
    obtain ⟨ox, oy, oz, mx, my, mz, ro, pi, ya, mro, mpi, mya, t, p1, p2, p3, p4, p5, p6, p7, p8, p9⟩ := hp
    rw [v1] at p1
    rw [v2] at p3
    cases p1
    cases p3
    have hz1 := zero i "MagnetOffset" (by decide) (he.magnet i hi _ (by decide)) _ ((late i _ (by decide)).trans p2)
    have hz2 := zero i "MagnetRoll" (by decide) (he.magnet i hi _ (by decide)) _ ((late i _ (by decide)).trans p4)
    have q0 : mx = 0 := hz1 0
    have q1 : my = 0 := hz1 1
    have q2 : mz = 0 := hz1 2
    have q3 : mro = 0 := hz2 0
    have q4 : mpi = 0 := hz2 1
    have q5 : mya = 0 := hz2 2
    subst q0 q1 q2 q3 q4 q5
    simp only [add_zero] at p5
    refine ⟨t, ?_, ?_, ?_, ?_, ?_⟩
    · rw [numAt_congr (late i "Length" (by decide)), numAt_congr (late i "BendingAngle" (by decide))]; exact p5
    · rw [late i _ (by decide)]; exact p6
    · rw [late i _ (by decide)]; exact p7
    · rw [late i _ (by decide)]; exact p8
    · rw [late i _ (by decide)]; exact p9
  · -- cavities
    have hRne : (!s7.ORD.RF.isEmpty && !s7.SIG.RF.isEmpty) = true := by
      rw [o7, g7]
      cases hM : s.ORD.RF with
      | nil => rw [hM] at hi; simp at hi
      | cons => cases hS : s.SIG.RF with
        | nil => exact absurd hS hne
        | cons => rfl
    rw [hRne] at h9
    simp only [Py.when, if_true] at h9
    have o8 : s8.ORD = s.ORD := by rw [f8.ord, o7]
    have h9' : updateCavities (some s8.ORD.RF) s8 = .ok () s' := h9
    obtain ⟨x, hx, hx'⟩ := updateCavities_field h9' (i := i) (by rw [o8]; exact hi) (f := f) (by simpa [rfProperties] using hf)
    unfold cavityField at hx
    simp only [Except.bind_eq_ok', Ring.getNum_eq_ok, Except.ok.injEq] at hx
    obtain ⟨sp, hsp, cal, hcal, off, hoff, rfl⟩ := hx
    have k : ∀ f ∈ ["Voltage", "Frequency", "TimeLag"], f ++ "CalError" ∈ rfErrors ∧ f ++ "Offset" ∈ rfErrors ∧
        f ++ "CalError" ∉ rfProperties ∧ f ++ "Offset" ∉ rfProperties ∧ f ++ "SetPoint" ∉ rfProperties := by decide +kernel
    obtain ⟨k1, k2, k3, k4, k5⟩ := k f hf
    have zcal : cal = 0 := zero i _ (by simp [k1]) (he.rf i hi _ k1) _ ((f9.attr i _ k3).trans hcal)
    have zoff : off = 0 := zero i _ (by simp [k2]) (he.rf i hi _ k2) _ ((f9.attr i _ k4).trans hoff)
    subst zcal zoff
    refine ⟨sp, by rw [hx']; simp, ?_⟩
    rw [f9.attr i _ k5]; exact hsp
  · -- no uncertainties of cavities
    have : (!s7.ORD.RF.isEmpty && !s7.SIG.RF.isEmpty) = false := by rw [g7, hnil]; simp
    rw [this] at h9
    simp only [Py.when] at h9
    cases h9
    have k : ∀ f ∈ ["Voltage", "Frequency", "TimeLag"], f ∉ magnetWrites ∧ f ∉ supportWrites ∧ f ∉ "Length" :: (drawnNames ++ supportNamesList) := by
      decide +kernel
    obtain ⟨k1, k2, k3⟩ := k f hf
    rw [f8.attr _ _ (fun hh => k1 hh), f7.attr _ _ k2, early i f k3]
  · -- BPMs
    rw [List.mem_append] at ha
    rcases ha with ha | ha
    · exact zero i a (by simp [ha]) (he.bpm i hi a ha)
    · obtain ⟨v1, v2⟩ := u2 i hi
      simp only [List.mem_cons, List.not_mem_nil, or_false] at ha
      intro v hv
      rcases ha with rfl | rfl
      · rw [late i _ (by decide), v1] at hv
        cases hv
        intro k
        match k with
        | 0 => rfl
        | 1 => rfl
        | k + 2 => rfl
      · rw [late i _ (by decide), v2] at hv
        cases hv
        rfl
  · have k : ∀ a ∈ supportErrors, a ∉ magnetWrites ++ rfProperties ∧ a ∉ supportWrites ∧ a ∈ supportNamesList := by decide +kernel
    obtain ⟨k1, k2, k3⟩ := k a ha
    exact zeroAt_congr ((late i a k1).trans (f7.attr i a k2)) (zs6 i a k3)
  · -- lengths
    obtain ⟨q, -, -, hsc⟩ := applyCircumference_ok h5
    have g4 : s4.SIG = s.SIG := by rw [f4.sig, f3.sig]
    rw [g4, hn.circumference, zero_mul, add_zero] at hsc
    rw [numAt_congr (late i "Length" (by decide)), numAt_congr (f7.attr i "Length" (by decide)),
      numAt_congr (f6.attr i "Length" (fun hh => absurd (supportDrawn_name hh) (by decide))), scaleCircumference_one hsc,
      numAt_congr (f4.attr i "Length" (fun hh => hh)), numAt_congr (f3.attr i "Length" (by decide +kernel))]
  · have := hz0 k
    rw [hn.injection k, abs_zero, mul_zero] at this
    rw [hinj]
    exact sub_eq_zero.1 (abs_nonpos_iff.1 this)
  · have k : ∀ a ∈ ["SetPointA", "SetPointB", "VoltageSetPoint", "FrequencySetPoint", "TimeLagSetPoint"],
        a ∉ "Length" :: (drawnNames ++ supportNamesList) ∧ a ∉ magnetWrites ++ rfProperties ∧ a ∉ supportWrites := by decide +kernel
    obtain ⟨k1, k2, k3⟩ := k a ha
    exact same i a k1 k2 k3

end ord
end PySC
