import Verif.Lemmas.RegistrableBuilt
/-
The invariant of registrations in order (C88).
-/
namespace PySC
set_option linter.unusedSectionVars false
open Py Spec
variable {K : Type} [Field K] [LinearOrder K] [FloorRing K]

/-- everything registrations write -/
def regAttrs : List String := bpmAttrs ++ cavityAttrs ++ magnetAttrs ++ supportErrors

/-- a registered magnet -/
structure BuiltMagnet (r q : Ring K) (i : Nat) : Prop where
  raw : RawMagnet r i
  length : NumberOrNothing r i "Length"
  poly : ∀ ab ∈ ["A", "B"], ∃ p, r.attr i ("Polynom" ++ ab) = some (.vec p) ∧ q.attr i ("NomPolynom" ++ ab) = some (.vec p) ∧
    q.attr i ("SetPoint" ++ ab) = some (.vec p) ∧ q.attr i ("CalError" ++ ab) = some (.vec (zeros p.length))
  place : ∀ a ∈ ["MagnetOffset", "MagnetRoll"], q.attr i a = some (.vec (zeros 3))

/-- options of a magnet -/
structure BuiltOptions (r q : Ring K) (i : Nat) : Prop where
  flag : q.attr i "CombinedFunction" = none ∨ q.attr i "CombinedFunction" = some (.flag true)
  master : q.attr i "MasterOf" = none ∨ ∃ l, q.attr i "MasterOf" = some (.ords l) ∧ ∀ c ∈ l, PossibleChild r i c
  limits : TwoLimits q i
  skew : q.attr i "SkewQuadLimit" = none ∨ (∃ l, q.attr i "SkewQuadLimit" = some (.lim l)) ∨ ∃ x, q.attr i "SkewQuadLimit" = some (.num x)

/-- a registered support -/
structure BuiltSupport (s : SC K) (t : String) (p : Nat × Nat) : Prop where
  zero : ∀ i ∈ [p.1, p.2], ∀ a ∈ ["Offset", "Roll"], s.RING.attr i (t ++ a) = some (.vec (zeros 3))
  keys : ∀ i ∈ [p.1, p.2], i ∈ s.SIG.Support.keys
  uncertainty : ∀ a ∈ ["Offset", "Roll"], ∀ sig, sigma s.SIG.Support p.1 (t ++ a) = some sig → Drawable sig ∧ (uncertainties sig).length = 3
  tilt : (sigma s.SIG.Support p.2 (t ++ "Offset")).isSome → ∀ sig, sigma s.SIG.Support p.1 (t ++ "Roll") = some sig →
    ∀ k ∈ [1, 2], coef (uncertainties sig) k = 0

/-- a machine built from the lattice `r` by registrations in order, with supports as in `P` -/
structure Built (r : Ring K) (P : String → Nat × Nat → Prop) (s : SC K) : Prop where
  len : s.RING.length = r.length
  kept : ∀ i a, a ∉ regAttrs → s.RING.attr i a = r.attr i a
  inj : s.INJ = Inj.default
  well : WellRegistered s.SIG
  bpms : ∀ i ∈ s.ORD.BPM, i < r.length
  bpmSig : ∀ i n v, sigma s.SIG.BPM i n = some v → n ∉ ["Noise", "NoiseCO"] → Drawable v
  cavities : ∀ i ∈ s.ORD.RF, CavityReady s.RING i
  rfSig : ∀ i n v, sigma s.SIG.RF i n = some v → NumberDrawable v
  magnets : ∀ i ∈ s.ORD.Magnet, BuiltMagnet r s.RING i
  magSig : ∀ i n v, sigma s.SIG.Magnet i n = some v → MagnetUncertainty r i n v
  options : ∀ i, RawMagnet r i → BuiltOptions r s.RING i
  sorted : ∀ t ∈ supportTypes, SortedPairs (s.ORD.pairs t)
  supports : ∀ t ∈ supportTypes, ∀ p ∈ s.ORD.pairs t, P t p ∧ BuiltSupport s t p

/-! ### parts which are left alone -/

theorem BuiltMagnet.same {r q q' : Ring K} {i : Nat} (h : BuiltMagnet r q i)
    (he : ∀ a ∈ ["NomPolynomA", "NomPolynomB", "SetPointA", "SetPointB", "CalErrorA", "CalErrorB", "MagnetOffset", "MagnetRoll"],
      q'.attr i a = q.attr i a) : BuiltMagnet r q' i := by
  refine ⟨h.raw, h.length, fun ab hab => ?_, fun a ha => ?_⟩
  · obtain ⟨p, h1, h2, h3, h4⟩ := h.poly ab hab
    have hm : ∀ f ∈ ["NomPolynom", "SetPoint", "CalError"], f ++ ab ∈ ["NomPolynomA", "NomPolynomB", "SetPointA", "SetPointB", "CalErrorA", "CalErrorB",
      "MagnetOffset", "MagnetRoll"] := by clear h1 h2 h3 h4; revert ab; decide +kernel
    refine ⟨p, h1, ?_, ?_, ?_⟩
    · rw [he _ (hm _ (by simp))]; exact h2
    · rw [he _ (hm _ (by simp))]; exact h3
    · rw [he _ (hm _ (by simp))]; exact h4
  · rw [he a (by revert a; decide +kernel)]; exact h.place a ha

theorem BuiltOptions.same {r q q' : Ring K} {i : Nat} (h : BuiltOptions r q i)
    (he : ∀ a ∈ ["CombinedFunction", "MasterOf", "CMlimit", "SkewQuadLimit"], q'.attr i a = q.attr i a) : BuiltOptions r q' i := by
  refine ⟨?_, ?_, ?_, ?_⟩
  · rw [he _ (by simp)]; exact h.flag
  · rw [he _ (by simp)]; exact h.master
  · unfold TwoLimits; rw [he _ (by simp)]; exact h.limits
  · rw [he _ (by simp)]; exact h.skew

theorem BuiltSupport.same {s s' : SC K} {t : String} {p : Nat × Nat} (h : BuiltSupport s t p) (hS : s'.SIG.Support = s.SIG.Support)
    (he : ∀ i, ∀ a ∈ ["Offset", "Roll"], s'.RING.attr i (t ++ a) = s.RING.attr i (t ++ a)) : BuiltSupport s' t p := by
  refine ⟨fun i hi a ha => ?_, ?_, ?_, ?_⟩
  · rw [he i a ha]; exact h.zero i hi a ha
  · rw [hS]; exact h.keys
  · rw [hS]; exact h.uncertainty
  · rw [hS]; exact h.tilt

theorem cavityReady_same {q q' : Ring K} {i : Nat} (h : CavityReady q i) (he : ∀ a ∈ cavityNames, q'.attr i a = q.attr i a) :
    CavityReady q' i := by
  rw [cavityReady_iff] at h ⊢
  intro a ha
  rw [he a ha]; exact h a ha

theorem support_names : ∀ t ∈ supportTypes, ∀ a ∈ ["Offset", "Roll"], (t ++ a) ∉ bpmAttrs ++ cavityAttrs ++ magnetAttrs := by decide +kernel

theorem raw_kept {r q : Ring K} {i : Nat} (hk : ∀ a, a ∉ regAttrs → q.attr i a = r.attr i a) (h : Bends r i) : Bends q i := by
  unfold Bends HasLength at *
  rw [hk "BendingAngle" (by decide +kernel), hk "Length" (by decide +kernel), hk "PassMethod" (by decide +kernel)]
  exact h

/-! ### single calls -/

section steps
variable {r : Ring K} {P : String → Nat × Nat → Prop}

theorem Built.bpmCall {s : SC K} (h : Built r P s) {ords : List Nat} {kw : Kwargs K} (hg : GoodBpms r ords kw) :
    ∃ s', registerBpms ords kw s = .ok () s' ∧ Built r P s' := by
  obtain ⟨s', h'⟩ := registerBpms_total (s := s) hg.known (by decide +kernel) (fun i hi => by rw [h.len]; exact hg.inRing i hi)
  refine ⟨s', h', ?_⟩
  have hfr := (registerBpms_frame ords kw).ok h'
  have hsig := (registerBpms_sig h').2
  have hmer := foldl_merged (d := s.SIG.BPM) (l := npUnique ords) hg.known.1
  have hord : s'.ORD = { s.ORD with BPM := npUnique (s.ORD.BPM ++ ords) } := by
    rcases registerBpms_ord ords kw s with ⟨e, he⟩ | he
    · rw [h'] at he; cases he
    · rw [h'] at he; exact he
  have hw : WellRegistered s'.SIG := by
    have := WR.call (.bpms ords kw) s h.well
    show WR s'
    have e : (RegCall.bpms ords kw).run s = .ok () s' := h'
    rw [e] at this; exact this
  have same : ∀ i a, a ∉ bpmAttrs → s'.RING.attr i a = s.RING.attr i a := fun i a ha => hfr.attr i a (fun hh => ha hh.2)
  refine ⟨hfr.len.trans h.len, fun i a ha => ?_, hfr.inj.trans h.inj, hw, fun i hi => ?_, fun i n v hv hn => ?_, fun i hi => ?_, ?_, fun i hi => ?_, ?_,
    fun i hi => ?_, fun t ht => ?_, fun t ht p hp => ?_⟩
  · rw [same i a (fun hh => ha (by simp [regAttrs, hh]))]; exact h.kept i a ha
  · rw [hord] at hi
    rcases List.mem_append.1 (mem_npUnique.1 hi) with hi | hi
    · exact h.bpms i hi
    · exact hg.inRing i hi
  · rw [hsig] at hv
    rw [show sigma _ i n = _ from hmer.2 i n] at hv
    beta_reduce at hv
    split at hv
    · cases hk : kw.get? n with
      | none => rw [hk] at hv; exact h.bpmSig i n v hv hn
      | some w => rw [hk] at hv; cases hv; exact hg.values n v hk hn
    · exact h.bpmSig i n v hv hn
  · rw [hord] at hi
    exact cavityReady_same (h.cavities i hi) (fun a ha => same i a (by revert a; decide +kernel))
  · rw [hsig]; exact h.rfSig
  · rw [hord] at hi
    exact (h.magnets i hi).same (fun a ha => same i a (by revert a; decide +kernel))
  · rw [hsig]; exact h.magSig
  · exact (h.options i hi).same (fun a ha => same i a (by revert a; decide +kernel))
  · rw [hord]; exact h.sorted t ht
  · rw [hord] at hp
    refine ⟨(h.supports t ht p hp).1, (h.supports t ht p hp).2.same (by rw [hsig]) (fun i a ha => same i _ (fun hh => ?_))⟩
    exact support_names t ht a ha (by simp [hh])

theorem Built.cavityCall {s : SC K} (h : Built r P s) {ords : List Nat} {kw : Kwargs K} (hg : GoodCavities r ords kw) :
    ∃ s', registerCavities ords kw s = .ok () s' ∧ Built r P s' := by
  have hfields : ∀ i ∈ ords, ∀ f ∈ rfProperties, ∃ x, s.RING.attr i f = some (.num x) := by
    intro i hi f hf
    rw [h.kept i f (by clear hi; revert f; decide +kernel)]
    exact hg.fields i hi f (by revert f; decide +kernel)
  obtain ⟨s', h'⟩ := registerCavities_total (s := s) hg.known (by decide +kernel) (fun i hi f hf => by
    obtain ⟨x, hx⟩ := hfields i hi f hf
    rw [hx]; rfl)
  refine ⟨s', h', ?_⟩
  have hfr := (registerCavities_frame ords kw).ok h'
  have hsig := (registerCavities_sig h').2
  have hmer := foldl_merged (d := s.SIG.RF) (l := npUnique ords) hg.known.1
  have hord : s'.ORD = { s.ORD with RF := npUnique (s.ORD.RF ++ ords) } := by
    rcases registerCavities_ord ords kw s with ⟨e, he⟩ | he
    · rw [h'] at he; cases he
    · rw [h'] at he; exact he
  have hw : WellRegistered s'.SIG := by
    have := WR.call (.cavities ords kw) s h.well
    show WR s'
    have e : (RegCall.cavities ords kw).run s = .ok () s' := h'
    rw [e] at this; exact this
  have same : ∀ i a, a ∉ cavityAttrs → s'.RING.attr i a = s.RING.attr i a := fun i a ha => hfr.attr i a (fun hh => ha hh.2)
  refine ⟨hfr.len.trans h.len, fun i a ha => ?_, hfr.inj.trans h.inj, hw, fun i hi => ?_, ?_, fun i hi => ?_, fun i n v hv => ?_, fun i hi => ?_, ?_,
    fun i hi => ?_, fun t ht => ?_, fun t ht p hp => ?_⟩
  · rw [same i a (fun hh => ha (by simp [regAttrs, hh]))]; exact h.kept i a ha
  · rw [hord] at hi; exact h.bpms i hi
  · rw [hsig]; exact h.bpmSig
  · rw [hord] at hi
    by_cases ho : i ∈ ords
    · exact registered_cavity h' ho (fun f hf => hfields i ho f (by clear hi ho; revert f; decide +kernel))
    · rcases List.mem_append.1 (mem_npUnique.1 hi) with hi | hi
      · exact cavityReady_same (h.cavities i hi) (fun a ha => hfr.attr i a (fun hh => ho hh.1))
      · exact absurd hi ho
  · rw [hsig] at hv
    rw [show sigma _ i n = _ from hmer.2 i n] at hv
    beta_reduce at hv
    split at hv
    · cases hk : kw.get? n with
      | none => rw [hk] at hv; exact h.rfSig i n v hv
      | some w => rw [hk] at hv; cases hv; exact hg.values n v hk
    · exact h.rfSig i n v hv
  · rw [hord] at hi
    exact (h.magnets i hi).same (fun a ha => same i a (by revert a; decide +kernel))
  · rw [hsig]; exact h.magSig
  · exact (h.options i hi).same (fun a ha => same i a (by revert a; decide +kernel))
  · rw [hord]; exact h.sorted t ht
  · rw [hord] at hp
    refine ⟨(h.supports t ht p hp).1, (h.supports t ht p hp).2.same (by rw [hsig]) (fun i a ha => same i _ (fun hh => ?_))⟩
    exact support_names t ht a ha (by simp [hh])

theorem Built.magnetCall {s : SC K} (h : Built r P s) {ords : List Nat} {kw : Kwargs K} (hg : GoodMagnets r ords kw) :
    ∃ s', registerMagnets ords kw s = .ok () s' ∧ Built r P s' := by
  have poly : ∀ i, ∀ ab ∈ ["A", "B"], s.RING.attr i ("Polynom" ++ ab) = r.attr i ("Polynom" ++ ab) := fun i ab hab =>
    h.kept i _ (by revert ab; decide +kernel)
  obtain ⟨s', h'⟩ := registerMagnets_total (s := s) (ords := ords) hg.known (by decide +kernel) (fun i hi => by
    refine ⟨fun ab hab => ?_, (h.options i (hg.magnets i hi).1).limits⟩
    rw [poly i ab hab]
    obtain ⟨p, hp, -⟩ := (hg.magnets i hi).1.poly ab hab
    exact ⟨p, hp⟩) hg.limits (fun v hv => by
      obtain ⟨h1, m, h2, h3⟩ := hg.children v hv
      exact ⟨h1, m, h2, fun row hr => (h3 row hr).1⟩)
  refine ⟨s', h', ?_⟩
  have hfr := (registerMagnets_frame ords kw).ok h'
  have hsig := (registerMagnets_sig h').2
  have hnd : (kw.filter (fun p => p.1 ∉ magnetTypeFields)).map Prod.fst |>.Nodup :=
    (List.filter_sublist.map Prod.fst).nodup hg.known.1
  have hmer := foldl_merged (d := s.SIG.Magnet) (l := ords) (kw := kw.filter (fun p => p.1 ∉ magnetTypeFields)) hnd
  have hord : s'.ORD = magnetOrds s.ORD ords kw := by
    rcases registerMagnets_ord ords kw s with ⟨e, he⟩ | he
    · rw [h'] at he; cases he
    · rw [h'] at he; exact he
  have hw : WellRegistered s'.SIG := by
    have := WR.call (.magnets ords kw) s h.well
    show WR s'
    have e : (RegCall.magnets ords kw).run s = .ok () s' := h'
    rw [e] at this; exact this
  have same : ∀ i a, a ∉ magnetAttrs → s'.RING.attr i a = s.RING.attr i a := fun i a ha => hfr.attr i a (fun hh => ha hh.2)
  refine ⟨hfr.len.trans h.len, fun i a ha => ?_, hfr.inj.trans h.inj, hw, fun i hi => ?_, ?_, fun i hi => ?_, ?_, fun i hi => ?_, fun i n v hv => ?_,
    fun i hi => ?_, fun t ht => ?_, fun t ht p hp => ?_⟩
  · rw [same i a (fun hh => ha (by simp [regAttrs, hh]))]; exact h.kept i a ha
  · rw [hord] at hi; exact h.bpms i hi
  · rw [hsig]; exact h.bpmSig
  · rw [hord] at hi
    exact cavityReady_same (h.cavities i hi) (fun a ha => same i a (by revert a; decide +kernel))
  · rw [hsig]; exact h.rfSig
  · rw [hord] at hi
    by_cases ho : i ∈ ords
    · have fresh := registerMagnets_fresh h' i ho
      refine ⟨(hg.magnets i ho).1, (hg.magnets i ho).2, fun ab hab => ?_, fun a ha => ?_⟩
      · obtain ⟨p, h1, h2, h3, h4⟩ := fresh.poly ab hab
        exact ⟨p, by rw [← poly i ab hab]; exact h1, h2, h3, h4⟩
      · simp only [List.mem_cons, List.not_mem_nil, or_false] at ha
        rcases ha with rfl | rfl
        · exact fresh.init ("MagnetOffset", .vec (zeros 3)) (by simp [magnetInit])
        · exact fresh.init ("MagnetRoll", .vec (zeros 3)) (by simp [magnetInit])
    · rcases List.mem_append.1 (mem_npUnique.1 hi) with hi | hi
      · exact (h.magnets i hi).same (fun a ha => hfr.attr i a (fun hh => ho hh.1))
      · exact absurd hi ho
  · rw [hsig] at hv
    rw [show sigma _ i n = _ from hmer.2 i n] at hv
    beta_reduce at hv
    split at hv
    · rename_i ho
      rw [Dict.get?_filter (p := fun k => decide (k ∉ magnetTypeFields))] at hv
      split at hv
      · rename_i hn
        cases hk : kw.get? n with
        | none => rw [hk] at hv; exact h.magSig i n v hv
        | some w =>
          rw [hk] at hv; cases hv
          refine hg.values n ?_ v hk i ho
          have hkn := hg.known.2 n (Dict.get?_isSome_iff.1 (by rw [hk]; rfl))
          have hn' : n ∉ magnetTypeFields := by simpa using hn
          clear hk hn
          revert n; decide +kernel
      · exact h.magSig i n v hv
    · exact h.magSig i n v hv
  · have ho := h.options i hi
    refine ⟨?_, ?_, registerMagnets_twoLimits h' i ho.limits, ?_⟩
    · rcases (registerMagnets_options h' i).2 with e | e
      · rw [e]; exact ho.flag
      · exact Or.inr e
    · rcases registerMagnets_master h' i with e | ⟨v, l, h1, h2, h3⟩
      · rw [e]; exact ho.master
      · obtain ⟨hn, m, rfl, hm⟩ := hg.children v h1
        by_cases hio : i ∈ ords
        · obtain ⟨l', h4, h5⟩ := masterOf_total (K := K) hio hn (fun row hr => (hm row hr).1)
          rw [h4] at h2; cases h2
          refine Or.inr ⟨_, h3, fun c hc => ?_⟩
          obtain ⟨row, hr, hz⟩ := h5 c hc
          exact (hm row hr).2 _ hz
        · have : s'.RING.attr i "MasterOf" = s.RING.attr i "MasterOf" := hfr.attr i _ (fun hh => hio hh.1)
          rw [this]; exact ho.master
    · rcases registerMagnets_skew h' i with e | ⟨-, v, h1, h2⟩
      · rw [e]; exact ho.skew
      · have := hg.limits "SkewQuad" (by simp) v h1
        rw [h2]
        cases v with
        | num x => exact Or.inr (Or.inr ⟨x, rfl⟩)
        | lim l => exact Or.inr (Or.inl ⟨l, rfl⟩)
        | _ => exact absurd this id
  · rw [hord]; exact h.sorted t ht
  · rw [hord] at hp
    refine ⟨(h.supports t ht p hp).1, (h.supports t ht p hp).2.same (by rw [hsig]) (fun i a ha => same i _ (fun hh => ?_))⟩
    exact support_names t ht a ha (by simp [hh])

theorem typed_names : ∀ t ∈ supportTypes, ∀ t' ∈ supportTypes, t ≠ t' → ∀ a ∈ ["Offset", "Roll"], ∀ b ∈ ["Offset", "Roll"], t ++ a ≠ t' ++ b := by
  decide +kernel

theorem append_cancel {t a b : String} (h : t ++ a = t ++ b) : a = b := by
  by_contra hne
  exact append_ne hne h

theorem Built.supportCall {s : SC K} (h : Built r P s) {rows : List (List Nat)} {t : String} {kw : Kwargs K} (hg : GoodSupports r rows t kw)
    (hP : ∀ p ∈ (rows.getD 0 []).zip (rows.getD 1 []), P t p) (hPP : ∀ t p q, P t p → P t q → p = q ∨ EndsApart p q) :
    ∃ s', registerSupports rows t kw s = .ok () s' ∧ Built r P s' := by
  obtain ⟨starts, ends, rfl, hlen, hne, hpos⟩ := hg.columns
  have ht : t ∈ supportTypes := by
    have := hg.type
    clear * - this
    revert t; decide +kernel
  have hfl : ∀ i ∈ [starts, ends].flatten, ∃ p ∈ starts.zip ends, i = p.1 ∨ i = p.2 := by
    intro i hi
    simp only [List.flatten_cons, List.flatten_nil, List.append_nil, List.mem_append] at hi
    rcases hi with hi | hi
    · obtain ⟨k, hk, rfl⟩ := List.mem_iff_getElem.1 hi
      exact ⟨(starts[k], ends[k]), List.mem_iff_getElem.2 ⟨k, by simp; omega, by simp⟩, Or.inl rfl⟩
    · obtain ⟨k, hk, rfl⟩ := List.mem_iff_getElem.1 hi
      exact ⟨(starts[k], ends[k]), List.mem_iff_getElem.2 ⟨k, by simp; omega, by simp⟩, Or.inr rfl⟩
  obtain ⟨new, s', hnew, h', hloops⟩ := registerSupports_total (s := s) (starts := starts) (ends := ends) ht hg.known hne hlen (fun i hi => by
    rw [h.len]
    obtain ⟨p, hp, rfl | rfl⟩ := hfl i (by simpa using hi)
    · exact (hpos p hp).start
    · exact (hpos p hp).end_) (fun kv hkv => hg.values kv.1 kv.2 (Dict.get?_of_mem hg.known.1 hkv))
  refine ⟨s', h', ?_⟩
  have hfr := (registerSupports_frame [starts, ends] t kw).ok h'
  have hsf := (registerSupports_sigFrame [starts, ends] t kw).ok h'
  have hord : s'.ORD = s.ORD.setPairs t new := (supportLoops_ord [starts, ends] t kw).ok hloops
  obtain ⟨hends, hkeys⟩ := supportLoops_sigs hloops
  have hother := Ords.setPairs_other (o := s.ORD) (t := t) (v := new)
  have hw : WellRegistered s'.SIG := by
    have := WR.call (.supports [starts, ends] t kw) s h.well
    show WR s'
    have e : (RegCall.supports [starts, ends] t kw).run s = .ok () s' := h'
    rw [e] at this; exact this
  have same : ∀ i a, a ∉ supportErrors → s'.RING.attr i a = s.RING.attr i a := fun i a ha => hfr.attr i a (fun hh => by
    apply ha
    have h2 := hh.2
    have : ∀ t ∈ supportTypes, ∀ a ∈ [t ++ "Offset", t ++ "Roll"], a ∈ supportErrors := by decide +kernel
    exact this t ht a h2)
  -- uncertainties of other types at the ends are gone
  have gone : ∀ t' ∈ supportTypes, t' ≠ t → ∀ i, ∀ a ∈ ["Offset", "Roll"], sigma s'.SIG.Support i (t' ++ a) = sigma s.SIG.Support i (t' ++ a) ∨
      sigma s'.SIG.Support i (t' ++ a) = none := by
    intro t' ht' hne' i a ha
    by_cases hi : i ∈ [starts, ends].flatten
    · right
      cases hv : sigma s'.SIG.Support i (t' ++ a) with
      | none => rfl
      | some v =>
        obtain ⟨p, hp, kv, hkv, hn, -⟩ := (hends i hi).2.2.2 _ _ hv
        exact absurd hn (typed_names t' ht' t ht hne' a ha kv.1 (hg.known.2 kv.1 (List.mem_map_of_mem hkv)))
    · exact Or.inl (hsf.support i _ hi)
  have hkold : ∀ i, i ∈ s.SIG.Support.keys → i ∈ s'.SIG.Support.keys := hkeys
  -- the pair at hand and the new ones
  have hnewp : ∀ p ∈ starts.zip ends, BuiltSupport s' t p := by
    intro p hp
    have hps := hpos p hp
    have hpe : p.1 ≠ p.2 := by
      obtain ⟨k, h1, h2, -⟩ := hps.inside
      intro e; rw [e] at h1 h2; simp at h1 h2; omega
    have m1 := hends p.1 (zip_mem_flatten rfl hp).1
    have m2 := hends p.2 (zip_mem_flatten rfl hp).2
    have uniq : ∀ q ∈ starts.zip ends, (p.1 = q.1 ∨ p.1 = q.2 ∨ p.2 = q.1 ∨ p.2 = q.2) → q = p := by
      intro q hq hh
      rcases hPP t p q (hP p hp) (hP q hq) with e | ⟨e1, e2, e3, e4⟩
      · exact e.symm
      · rcases hh with hh | hh | hh | hh
        · exact absurd hh e1
        · exact absurd hh e2
        · exact absurd hh e3
        · exact absurd hh e4
    have start : ∀ a v, sigma s'.SIG.Support p.1 (t ++ a) = some v → ∃ w, kw.get? a = some w ∧ v = startSig w := by
      intro a v hv
      obtain ⟨q, hq, kv, hkv, hn, h1⟩ := m1.2.2.2 _ _ hv
      have hqp : q = p := uniq q hq (by rcases h1 with ⟨e, -⟩ | ⟨e, -⟩ <;> simp [e])
      subst hqp
      rcases h1 with ⟨-, e⟩ | ⟨e, -⟩
      · refine ⟨kv.2, ?_, e⟩
        rw [append_cancel hn]
        exact Dict.get?_of_mem hg.known.1 hkv
      · exact absurd e hpe
    refine ⟨fun i hi a ha => ?_, fun i hi => ?_, fun a ha v hv => ?_, fun hS v hv k hk => ?_⟩
    · simp only [List.mem_cons, List.not_mem_nil, or_false] at hi ha
      rcases hi with rfl | rfl <;> rcases ha with rfl | rfl
      · exact m1.2.1
      · exact m1.2.2.1
      · exact m2.2.1
      · exact m2.2.2.1
    · simp only [List.mem_cons, List.not_mem_nil, or_false] at hi
      rcases hi with rfl | rfl
      · exact m1.1
      · exact m2.1
    · obtain ⟨w, hw1, rfl⟩ := start a v hv
      have := startSig_good (hg.values a w hw1)
      exact ⟨this.1, this.2.1⟩
    · obtain ⟨w, hw1, rfl⟩ := start "Roll" v hv
      rw [(startSig_good (hg.values "Roll" w hw1)).2.2]
      obtain ⟨v2, hv2⟩ := Option.isSome_iff_exists.1 hS
      obtain ⟨q, hq, kv, hkv, hn, h1⟩ := m2.2.2.2 _ _ hv2
      have hqp : q = p := uniq q hq (by rcases h1 with ⟨e, -⟩ | ⟨e, -⟩ <;> simp [e])
      subst hqp
      rcases h1 with ⟨e, -⟩ | ⟨-, hb⟩
      · exact absurd e.symm hpe
      · refine hg.tilt kv.2 ?_ hb w hw1 k hk
        rw [append_cancel hn]
        exact Dict.get?_of_mem hg.known.1 hkv
  refine ⟨hfr.len.trans h.len, fun i a ha => ?_, hfr.inj.trans h.inj, hw, fun i hi => ?_, ?_, fun i hi => ?_, ?_, fun i hi => ?_, ?_,
    fun i hi => ?_, fun t' ht' => ?_, fun t' ht' p hp => ?_⟩
  · rw [same i a (fun hh => ha (by simp [regAttrs, hh]))]; exact h.kept i a ha
  · rw [hord, hother.1] at hi; exact h.bpms i hi
  · rw [hsf.bpm]; exact h.bpmSig
  · rw [hord, hother.2.1] at hi
    exact cavityReady_same (h.cavities i hi) (fun a ha => same i a (by revert a; decide +kernel))
  · rw [hsf.rf]; exact h.rfSig
  · rw [hord, hother.2.2.1] at hi
    exact (h.magnets i hi).same (fun a ha => same i a (by revert a; decide +kernel))
  · rw [hsf.magnet]; exact h.magSig
  · exact (h.options i hi).same (fun a ha => same i a (by revert a; decide +kernel))
  · rw [hord, Ords.pairs_setPairs ht ht']
    split
    · exact (updateDoubleOrdinates_eq_ok hnew).1
    · exact h.sorted t' ht'
  · rw [hord, Ords.pairs_setPairs ht ht'] at hp
    split at hp
    · rename_i e; subst e
      rcases (updateDoubleOrdinates_eq_ok hnew).2 p |>.1 hp with hp | hp
      · obtain ⟨hp1, hp2⟩ := h.supports t' ht' p hp
        refine ⟨hp1, ?_⟩
        by_cases hin : p ∈ starts.zip ends
        · exact hnewp p hin
        · have hnot : ∀ i ∈ [p.1, p.2], i ∉ [starts, ends].flatten := by
            intro i hi hf
            obtain ⟨q, hq, hiq⟩ := hfl i hf
            rcases hPP t' p q hp1 (hP q hq) with e | ⟨e1, e2, e3, e4⟩
            · exact hin (e ▸ hq)
            · simp only [List.mem_cons, List.not_mem_nil, or_false] at hi
              rcases hi with rfl | rfl <;> rcases hiq with e | e
              · exact e1 e
              · exact e2 e
              · exact e3 e
              · exact e4 e
          refine ⟨fun i hi a ha => ?_, fun i hi => hkold i (hp2.keys i hi), fun a ha v hv => ?_, fun hS v hv => ?_⟩
          · rw [hfr.attr i _ (fun hh => hnot i hi hh.1)]; exact hp2.zero i hi a ha
          · rw [hsf.support _ _ (hnot p.1 (by simp))] at hv
            exact hp2.uncertainty a ha v hv
          · rw [hsf.support _ _ (hnot p.1 (by simp))] at hv
            rw [hsf.support _ _ (hnot p.2 (by simp))] at hS
            exact hp2.tilt hS v hv
      · exact ⟨hP p hp, hnewp p hp⟩
    · rename_i hne'
      obtain ⟨hp1, hp2⟩ := h.supports t' ht' p hp
      refine ⟨hp1, fun i hi a ha => ?_, fun i hi => hkold i (hp2.keys i hi), fun a ha v hv => ?_, fun hS v hv => ?_⟩
      · rw [hfr.attr i _ (fun hh => ?_)]
        · exact hp2.zero i hi a ha
        · have h2 := hh.2
          simp only [List.mem_cons, List.not_mem_nil, or_false] at h2
          rcases h2 with e | e
          · exact typed_names t' ht' t ht hne' a ha "Offset" (by simp) e
          · exact typed_names t' ht' t ht hne' a ha "Roll" (by simp) e
      · rcases gone t' ht' hne' p.1 a ha with e | e
        · rw [e] at hv; exact hp2.uncertainty a ha v hv
        · rw [e] at hv; cases hv
      · rcases gone t' ht' hne' p.1 "Roll" (by simp) with e | e
        · rw [e] at hv
          rcases gone t' ht' hne' p.2 "Offset" (by simp) with e' | e'
          · rw [e'] at hS; exact hp2.tilt hS v hv
          · rw [e'] at hS; cases hS
        · rw [e] at hv; cases hv

theorem Built.call {s : SC K} (h : Built r P s) {c : RegCall K} (hg : Good r c) (hP : ∀ t, ∀ p ∈ supportsIn t c, P t p)
    (hPP : ∀ t p q, P t p → P t q → p = q ∨ EndsApart p q) : ∃ s', c.run s = .ok () s' ∧ Built r P s' := by
  cases c with
  | bpms ords kw => exact h.bpmCall hg
  | cavities ords kw => exact h.cavityCall hg
  | magnets ords kw => exact h.magnetCall hg
  | supports rows t kw =>
    refine h.supportCall hg (fun p hp => hP t p ?_) hPP
    show p ∈ if t = t then (rows.getD 0 []).zip (rows.getD 1 []) else []
    rw [if_pos rfl]; exact hp

theorem Built.calls {calls : List (RegCall K)} {s : SC K} (h : Built r P s) (hg : ∀ c ∈ calls, Good r c)
    (hP : ∀ c ∈ calls, ∀ t, ∀ p ∈ supportsIn t c, P t p) (hPP : ∀ t p q, P t p → P t q → p = q ∨ EndsApart p q) :
    ∃ s', registerAll calls s = .ok () s' ∧ Built r P s' :=
  forEach_progress (f := RegCall.run) (l := calls) (I := Built r P) (fun c hc _ ht => ht.call (hg c hc) (hP c hc) hPP) h

/-! ### the machine at the end -/

theorem Built.magnetReady {s : SC K} (h : Built r P s) {i : Nat} (hi : i ∈ s.ORD.Magnet) : MagnetReady s.RING i := by
  have hm := h.magnets i hi
  have hr := hm.raw
  have ho := h.options i hr
  have clean : ∀ n ∈ ["PolynomAOffset", "PolynomBOffset", "SysPolAFromA", "SysPolAFromB", "SysPolBFromA", "SysPolBFromB",
      "BendingAngleError"], s.RING.attr i n = none := by
    intro n hn
    rw [h.kept i n (by revert n; decide +kernel)]
    exact hr.clean n (by revert n; decide +kernel)
  have poly : ∀ ab ∈ ["A", "B"], ∃ p, r.attr i ("Polynom" ++ ab) = some (.vec p) ∧ p ≠ [] ∧
      s.RING.attr i ("NomPolynom" ++ ab) = some (.vec p) ∧ s.RING.attr i ("SetPoint" ++ ab) = some (.vec p) ∧
      s.RING.attr i ("CalError" ++ ab) = some (.vec (zeros p.length)) := by
    intro ab hab
    obtain ⟨p, h1, h2, h3, h4⟩ := hm.poly ab hab
    obtain ⟨q, h5, h6⟩ := hr.poly ab hab
    rw [h1] at h5; cases h5
    exact ⟨p, h1, h6, h2, h3, h4⟩
  have al : ∀ {a : String} {v : List K}, s.RING.attr i a = some (.vec v) → arrLen s.RING i a = v.length := by
    intro a v h; unfold arrLen; rw [h]
  have hlt : i < s.RING.length := by
    obtain ⟨p, -, -, h1, -⟩ := poly "A" (by simp)
    exact Ring.attr_some_lt h1
  have hba : s.RING.attr i "BendingAngle" = r.attr i "BendingAngle" := h.kept _ _ (by decide +kernel)
  refine ⟨fun ab hab => ?_, fun ab hab => ?_, fun ab hab => ?_, ?_, ?_, ?_, fun hc => ?_, ⟨hlt, fun ab hab => ?_, fun t ht ab hab => ?_, fun hb => ?_⟩, ?_⟩
  · obtain ⟨p, -, h0, -, h2, -⟩ := poly ab hab
    exact ⟨⟨p, h2⟩, by rw [al h2]; exact List.length_pos_iff.2 h0⟩
  · obtain ⟨p, -, h0, -, h2, h3⟩ := poly ab hab
    exact ⟨⟨_, h3⟩, by rw [al h2, al h3]; simp [zeros]⟩
  · obtain ⟨p, -, h0, h1, h2, h3⟩ := poly ab hab
    exact ⟨⟨_, h1⟩, by rw [al h2, al h1]⟩
  · rw [h.kept _ _ (by decide +kernel)]; exact hr.pass
  · exact Or.inl (clean _ (by simp))
  · rcases ho.flag with h' | h'
    · exact Or.inl h'
    · exact Or.inr ⟨true, h'⟩
  · obtain ⟨-, v, x, hv, hx, hx0⟩ := hr.bend (by rw [← hba]; exact hc.1)
    obtain ⟨p, h0, -, h1, h2, h3⟩ := poly "B" (by simp)
    simp only [String.reduceAppend] at h0 h1 h2 h3
    rw [hv] at h0; cases h0
    refine ⟨?_, v, x, h1, hx, hx0⟩
    rw [al h3]
    have := (List.getElem?_eq_some_iff.1 hx).1
    simp [zeros]; omega
  · refine Or.inl (clean _ ?_)
    revert ab; decide +kernel
  · refine Or.inl (clean _ ?_)
    revert t ab; decide +kernel
  · rcases hb with hb | hb
    · rw [clean _ (by simp)] at hb; cases hb
    · exact raw_kept (h.kept i) (hr.bend (by rw [← hba]; exact hb.1)).1
  · rcases ho.master with h' | ⟨l, h1, h2⟩
    · exact Or.inl h'
    · refine Or.inr ⟨l, h1, fun c hc => ?_⟩
      have hp := h2 c hc
      have cleanc : ∀ n ∈ ["PolynomAOffset", "PolynomBOffset", "SysPolAFromA", "SysPolAFromB", "SysPolBFromA", "SysPolBFromB"],
          s.RING.attr c n = none := by
        intro n hn
        rw [h.kept c n (by clear h2 h1; revert n; decide +kernel)]
        exact hp.clean n hn
      refine ⟨by rw [h.len]; exact hp.inRing, fun ab hab => ?_, fun t ht ab hab => ?_, fun hb => ?_⟩
      · refine Or.inl (cleanc _ ?_)
        revert ab; decide +kernel
      · refine Or.inl (cleanc _ ?_)
        revert t ab; decide +kernel
      · rcases hb with hb | hb
        · rw [clean _ (by simp)] at hb; cases hb
        · exact raw_kept (h.kept c) (hp.bends (by rw [← hba]; exact hb.1))

theorem Built.corrector {s : SC K} (h : Built r P s) {i : Nat} (hi : i ∈ s.ORD.Magnet)
    (hl : r.attr i "PassMethod" = some (.str "CorrectorPass") ∨ HasLength r i) (sk : Bool) : CorrectorReady s.RING i sk := by
  refine ⟨h.magnetReady hi, ?_, ?_⟩
  · unfold HasLength at *
    rw [h.kept i "PassMethod" (by decide +kernel), h.kept i "Length" (by decide +kernel)]; exact hl
  · rcases (h.options i (h.magnets i hi).raw).limits with h' | ⟨l, h1, h2⟩
    · exact Or.inl h'
    · exact Or.inr ⟨l, h1, by rw [h2]; cases sk <;> decide⟩

theorem Built.component {s : SC K} (h : Built r P s) {i : Nat} (hi : i ∈ s.ORD.Magnet) {sk : Bool} {k : Nat}
    (hk : k < arrLen r i ("Polynom" ++ if sk then "A" else "B")) (d : Bool) : ComponentReady s i sk k d := by
  have hba : s.RING.attr i "BendingAngle" = r.attr i "BendingAngle" := h.kept _ _ (by decide +kernel)
  have hm := h.magnets i hi
  have hr := hm.raw
  obtain ⟨p, h1, h2, h3, h4⟩ := hm.poly (if sk then "A" else "B") (by cases sk <;> simp)
  obtain ⟨q, g1, g2, g3, g4⟩ := hm.poly "B" (by simp)
  refine ⟨h.magnetReady hi, ?_, (h.options i hr).skew, fun hd ho => ?_, fun hd ho hh hb => ?_⟩
  · unfold arrLen at hk ⊢
    rw [h1] at hk; rw [h3]; exact hk
  · cases hb : s.RING.attr i "BendingAngle" with
    | none => exact Or.inl rfl
    | some a =>
      right
      obtain ⟨⟨⟨x, hx⟩, -⟩, -⟩ := hr.bend (by rw [← hba, hb]; rfl)
      rw [← hba, hb] at hx
      exact ⟨x, hx⟩
  · obtain ⟨hbe, v, x, hv, hx, hx0⟩ := hr.bend (by rw [← hba]; exact hb)
    simp only [String.reduceAppend] at g1 g2 g3
    rw [hv] at g1; cases g1
    refine ⟨h.corrector hi (Or.inr hbe.2) false, ?_, _, x, g2, hx, hx0⟩
    unfold arrLen
    rw [g3]
    exact (List.getElem?_eq_some_iff.1 hx).1

theorem numberDrawable {v : Attr K} (h : NumberDrawable v) : Drawable v ∧ ∃ x, v = .num x ∨ ∃ c, v = .pair (.num x) c := by
  cases v with
  | num x => exact ⟨trivial, x, Or.inl rfl⟩
  | pair a c =>
    cases a with
    | num x => exact ⟨h, x, Or.inr ⟨c, rfl⟩⟩
    | _ => exact absurd h id
  | _ => exact absurd h id

theorem arrayDrawable {v : Attr K} (h : ArrayDrawable v) : ∃ w, (v = .vec w ∨ ∃ c, v = .pair (.vec w) c) ∧ uncertainties v = w := by
  cases v with
  | vec w => exact ⟨w, Or.inl rfl, rfl⟩
  | pair a c =>
    cases a with
    | vec w => exact ⟨w, Or.inr ⟨c, rfl⟩, rfl⟩
    | _ => exact absurd h id
  | _ => exact absurd h id

theorem Built.fitting {s : SC K} (h : Built r P s) : FittingErrors s := by
  refine ⟨fun i hi ab hab v hv => ?_, fun i hi v hv => ?_, fun i hi n v hv => (numberDrawable (h.rfSig i n v hv)).2⟩
  · obtain ⟨h1, h2, h3⟩ := (h.magSig i _ v hv).calibration ab hab rfl
    obtain ⟨w, h4, h5⟩ := arrayDrawable h1
    rw [h5] at h2 h3
    refine ⟨w, h4, ?_, fun hc => h3 (by rw [← h.kept i _ (by decide +kernel)]; exact hc.1)⟩
    obtain ⟨p, g1, -, g3, -⟩ := (h.magnets i hi).poly ab hab
    unfold arrLen at h2 ⊢
    rw [g1] at h2; rw [g3]; exact h2
  · obtain ⟨h1, h2⟩ := (h.magSig i _ v hv).angle rfl
    refine ⟨(numberDrawable h1).2, ?_⟩
    have hm := (h.magnets i hi).raw
    rintro t (rfl | ⟨l, hl, ht⟩)
    · exact raw_kept (h.kept t) (hm.bend h2).1
    · rcases (h.options i hm).master with e | ⟨l', e, hc⟩
      · rw [e] at hl; cases hl
      · rw [e] at hl; cases hl
        exact raw_kept (h.kept t) ((hc t ht).bends h2)

theorem zeros_three : zeros 3 = ([0, 0, 0] : List K) := rfl

theorem Built.placeable {s : SC K} (h : Built r P s) {i : Nat} (hi : i ∈ s.ORD.Magnet) : Placeable s.RING i := by
  have hm := h.magnets i hi
  refine ⟨⟨0, 0, 0, hm.place _ (by simp)⟩, ⟨0, 0, 0, hm.place _ (by simp)⟩, ?_, ?_⟩
  · unfold NumberOrNothing
    rw [h.kept i "Length" (by decide +kernel)]; exact hm.length
  · unfold NumberOrNothing
    rw [h.kept i "BendingAngle" (by decide +kernel)]
    cases hb : r.attr i "BendingAngle" with
    | none => exact Or.inl rfl
    | some a =>
      right
      obtain ⟨⟨⟨x, hx⟩, -⟩, -⟩ := hm.raw.bend (by rw [hb]; rfl)
      rw [hb] at hx; exact ⟨x, hx⟩

theorem Built.supportInOrder {s : SC K} (h : Built r P s) (hpos : ∀ t p, P t p → PossibleSupport r p) {t : String} (ht : t ∈ supportTypes)
    {p : Nat × Nat} (hp : p ∈ s.ORD.pairs t) : SupportInOrder s t p := by
  obtain ⟨h1, h2⟩ := h.supports t ht p hp
  have h3 := hpos t p h1
  have num : ∀ k, numAt s.RING k "Length" = numAt r k "Length" := fun k => by
    unfold numAt; rw [h.kept k "Length" (by decide +kernel)]
  refine ⟨by rw [h.len]; exact h3.start, by rw [h.len]; exact h3.end_, ⟨0, 0, 0, h2.zero p.1 (by simp) _ (by simp)⟩,
    ⟨0, 0, 0, h2.zero p.2 (by simp) _ (by simp)⟩, ⟨0, 0, 0, h2.zero p.1 (by simp) _ (by simp)⟩, fun _ => h2.keys p.2 (by simp), h2.uncertainty,
    fun hS k hk => ?_, by simp only [num]; exact h3.inside, by simp only [num, h.len]; exact h3.outside⟩
  cases hv : sigma s.SIG.Support p.1 (t ++ "Roll") with
  | some sig => exact h2.tilt hS sig hv k hk
  | none =>
    show coef (vecAt s.RING p.1 (t ++ "Roll")) k = 0
    rw [vecAt_of_attr (h2.zero p.1 (by simp) "Roll" (by simp))]
    simp only [List.mem_cons, List.not_mem_nil, or_false] at hk
    rcases hk with rfl | rfl <;> simp [zeros, coef]
end steps

theorem Built.applicable {r : Ring K} {P : String → Nat × Nat → Prop} {s : SC K} (h : Built r P s) (hpos : ∀ t p, P t p → PossibleSupport r p)
    (hPP : ∀ t p q, P t p → P t q → p = q ∨ EndsApart p q) {n : K} (hn : n ≠ 0) (hf : Forward r) {z : List K} (hz : z.length = 6) {c : K}
    (hc : (∀ i < r.length, ¬ DriftAt r i) ∨ |c| * |n| * circumference r < driftLength r) : Applicable n (withInjection s z c) := by
  have num : ∀ k, numAt s.RING k "Length" = numAt r k "Length" := fun k => by
    unfold numAt; rw [h.kept k "Length" (by decide +kernel)]
  have drift : ∀ k, DriftAt s.RING k ↔ DriftAt r k := fun k => by
    unfold DriftAt; rw [h.kept k "PassMethod" (by decide +kernel)]
  have hw := h.well
  refine ⟨hn, ⟨hw.1, hw.2, hw.3, hw.4, hw.5, hw.6, hw.7, hw.8⟩, ⟨h.fitting.1, h.fitting.2, h.fitting.3⟩,
    fun i hi => by rw [show (withInjection s z c).RING.length = _ from h.len]; exact h.bpms i hi, fun i _ name sig hv hN => h.bpmSig i name sig hv hN,
    fun i hi => ⟨?_, h.cavities i hi⟩, fun i _ name sig hv => (numberDrawable (h.rfSig i name sig hv)).1, fun i hi => ⟨h.magnetReady hi, h.placeable hi⟩,
    fun i _ name sig hv => ⟨(h.magSig i name sig hv).drawable, (h.magSig i name sig hv).placing⟩, ⟨hz, ?_⟩, ?_, ?_, fun t ht p hp => ?_, fun t ht => ?_⟩
  · obtain ⟨x, hx⟩ := h.cavities i hi "Voltage" (by simp) "SetPoint" (by simp)
    exact Ring.attr_some_lt hx
  · show s.INJ.Z0ideal.length = 6
    rw [h.inj]; rfl
  · intro i
    show 0 ≤ numAt s.RING i "Length"
    rw [num]; exact hf i
  · show (∀ i < s.RING.length, ¬ DriftAt s.RING i) ∨ |c| * |n| * circumference s.RING < driftLength s.RING
    have e1 : circumference s.RING = circumference r := by
      unfold circumference sPos
      rw [h.len]; simp only [num]
    have e2 : driftLength s.RING = driftLength r := by
      unfold driftLength
      rw [h.len]; simp only [num, drift]
    rw [e1, e2, h.len]
    simp only [drift]; exact hc
  · have := h.supportInOrder hpos ht hp
    exact ⟨this.1, this.2, this.3, this.4, this.5, this.6, this.7, this.8, this.9, this.10⟩
  · show (s.ORD.pairs t).Pairwise EndsApart
    refine List.Pairwise.imp_of_mem ?_ (h.sorted t ht)
    intro p q hp hq hlt
    rcases hPP t p q (h.supports t ht p hp).1 (h.supports t ht q hq).1 with rfl | e
    · rcases hlt with hl | ⟨-, hl⟩ <;> exact absurd hl (lt_irrefl _)
    · exact e

end PySC
