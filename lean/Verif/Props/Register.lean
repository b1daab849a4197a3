import Verif.Lemmas.Register
import Verif.Props.Correctors
/-
C01 (index lists), C02 (rejected registrations), C03 (uncertainties), C04 (a fresh registration does not change the
machine), C05 (support pairs), C06 (support uncertainties).
-/
namespace PySC
open Py Spec
set_option linter.unusedSectionVars false
variable {K : Type _} [Field K] [LinearOrder K]

/-! ### C01 -/

/-- **C01**: the index lists stay strictly increasing whatever is registered, in whatever order, successfully or not. -/
theorem C01_lists_stay_sorted (calls : List (RegCall K)) (s : SC K) (h : Tidy s.ORD) :
    Tidy (registrations calls s).ORD := by
  unfold registrations
  induction calls generalizing s with
  | nil => exact h
  | cons c cs ih =>
    refine ih _ ?_
    cases c with
    | bpms o kw =>
      rcases registerBpms_ord o kw s with ⟨e, he⟩ | he
      · simp only [RegCall.run, he]; exact h
      · simp only [RegCall.run, he]; exact { h with BPM := npUnique_increasing _ }
    | cavities o kw =>
      rcases registerCavities_ord o kw s with ⟨e, he⟩ | he
      · simp only [RegCall.run, he]; exact h
      · simp only [RegCall.run, he]; exact { h with RF := npUnique_increasing _ }
    | magnets o kw =>
      rcases registerMagnets_ord o kw s with ⟨e, he⟩ | he
      · simp only [RegCall.run, he]; exact h
      · simp only [RegCall.run, he, magnetOrds]
        constructor <;> simp only
        · exact h.BPM
        · exact h.RF
        · exact npUnique_increasing _
        · split
          · exact npUnique_increasing _
          · exact h.SkewQuad
        · split
          · exact npUnique_increasing _
          · exact h.HCM
        · split
          · exact npUnique_increasing _
          · exact h.VCM
    | supports r t kw =>
      simp only [RegCall.run]
      rcases registerSupports_shape r t kw s with ⟨e, he⟩ | ⟨-, -, -, new, -, he⟩
      · simp only [he]; exact h
      · have hl := supportLoops_ord r t kw { s with ORD := s.ORD.setPairs t new }
        rw [← he] at hl
        rw [hl]
        obtain ⟨h1, h2, h3, h4, h5, h6⟩ := Ords.setPairs_other (o := s.ORD) (t := t) (v := new)
        exact ⟨h1 ▸ h.BPM, h2 ▸ h.RF, h3 ▸ h.Magnet, h4 ▸ h.SkewQuad, h5 ▸ h.HCM, h6 ▸ h.VCM⟩

/-- **C01**: in particular for everything registered on a newly created object. -/
theorem C01_lists_of_new_object (ring : Ring K) (rng : Nat) (calls : List (RegCall K)) :
    Tidy (registrations calls (SC.init ring rng)).ORD :=
  C01_lists_stay_sorted _ _ (by constructor <;> exact List.Pairwise.nil)

/-- **C01**, BPMs: the list of BPMs is the union of the old list and the ordinates given, the other lists stay. -/
theorem C01_bpms_union (ords : List Nat) (kw : Kwargs K) (s s' : SC K) (h : registerBpms ords kw s = .ok () s') :
    IsUnion s'.ORD.BPM s.ORD.BPM ords ∧ s'.ORD = { s.ORD with BPM := s'.ORD.BPM } := by
  rcases registerBpms_ord ords kw s with ⟨e, he⟩ | he
  · rw [he] at h; cases h
  · rw [h] at he; rw [show s'.ORD = _ from he]; exact ⟨isUnion_npUnique _ _, rfl⟩

/-- **C01**, cavities. -/
theorem C01_cavities_union (ords : List Nat) (kw : Kwargs K) (s s' : SC K)
    (h : registerCavities ords kw s = .ok () s') :
    IsUnion s'.ORD.RF s.ORD.RF ords ∧ s'.ORD = { s.ORD with RF := s'.ORD.RF } := by
  rcases registerCavities_ord ords kw s with ⟨e, he⟩ | he
  · rw [he] at h; cases h
  · rw [h] at he; rw [show s'.ORD = _ from he]; exact ⟨isUnion_npUnique _ _, rfl⟩

/-- **C01**, magnets: every ordinate given is listed as magnet, and as corrector or skew quadrupole exactly if a limit
for that role is given in the call. -/
theorem C01_magnets_union (ords : List Nat) (kw : Kwargs K) (s s' : SC K)
    (h : registerMagnets ords kw s = .ok () s') :
    IsUnion s'.ORD.Magnet s.ORD.Magnet ords ∧
    IsUnion s'.ORD.HCM s.ORD.HCM (if "HCM" ∈ kw.keys then ords else []) ∧
    IsUnion s'.ORD.VCM s.ORD.VCM (if "VCM" ∈ kw.keys then ords else []) ∧
    IsUnion s'.ORD.SkewQuad s.ORD.SkewQuad (if "SkewQuad" ∈ kw.keys then ords else []) ∧
    s'.ORD = { s.ORD with Magnet := s'.ORD.Magnet, HCM := s'.ORD.HCM, VCM := s'.ORD.VCM, SkewQuad := s'.ORD.SkewQuad } := by
  rcases registerMagnets_ord ords kw s with ⟨e, he⟩ | he
  · rw [he] at h; cases h
  · rw [h] at he; rw [show s'.ORD = _ from he]
    have key : ∀ (n : String) (l : List Nat), IsUnion (if kw.has n then npUnique (l ++ ords) else l) l
        (if n ∈ kw.keys then ords else []) := by
      intro n l
      by_cases hn : n ∈ kw.keys
      · rw [if_pos (Dict.has_iff.2 hn), if_pos hn]; exact isUnion_npUnique _ _
      · rw [if_neg (fun hh => hn (Dict.has_iff.1 hh)), if_neg hn]; intro x; simp
    exact ⟨isUnion_npUnique _ _, key _ _, key _ _, key _ _, rfl⟩

def Example.raw : SC ℚ := SC.init Example.rawRing 0

/-- registration calls on a new object: overlapping, repeated and unordered ordinates, and one call that fails -/
def Example.calls : List (RegCall ℚ) :=
  [.magnets [3, 1, 1] [("HCM", .num (1/1000)), ("CalErrorB", .vec [1/10])], .bpms [0] [], .magnets [2] [("Nonsense", .num 0)],
   .magnets [2, 1] [("VCM", .num 1), ("SkewQuad", .num (1/10)), ("CF", .num 1)], .cavities [4] [("VoltageOffset", .num 5)],
   .supports [[5, 0], [7, 4]] "Girder" [("Offset", .mat [[1, 2, 3], [4, 5, 6]]), ("Roll", .vec [1, 0, 0])]]

example : (registrations Example.calls Example.raw).ORD =
    ⟨[0], [4], [1, 2, 3], [1, 2], [1, 3], [1, 2], [(0, 4), (5, 7)], [], []⟩ := by decide +kernel
example : (registerMagnets [2, 1] [("VCM", .num 1)] Example.raw).isOk = true := by decide +kernel
example : (registerBpms [0] [("Noise", .vec [1, 1])] Example.raw).isOk = true := by decide +kernel
example : (registerCavities [4] [("VoltageOffset", .num 5)] Example.raw).isOk = true := by decide +kernel

/-! ### C02 -/

/-- **C02**, BPMs -/
theorem C02_bpms_rejected (ords : List Nat) (kw : Kwargs K) (s : SC K)
    (h : ∃ k ∈ kw.keys, k ∉ ["Noise", "NoiseCO", "Offset", "Roll", "CalError", "SumError"]) :
    registerBpms ords kw s = .error .valueError s := by
  unfold registerBpms
  rw [checkKwargs_error (A := bpmErrorFields) h]; rfl

/-- **C02**, cavities -/
theorem C02_cavities_rejected (ords : List Nat) (kw : Kwargs K) (s : SC K)
    (h : ∃ k ∈ kw.keys, k ∉ ["FrequencySetpoint", "FrequencyOffset", "FrequencyCalError", "VoltageSetpoint",
      "VoltageOffset", "VoltageCalError", "TimeLagSetpoint", "TimeLagOffset", "TimeLagCalError"]) :
    registerCavities ords kw s = .error .valueError s := by
  unfold registerCavities
  rw [checkKwargs_error (A := rfErrorFields)]; · rfl
  obtain ⟨k, hk, hn⟩ := h
  refine ⟨k, hk, fun hm => hn ?_⟩
  have he : rfErrorFields.Perm ["FrequencySetpoint", "FrequencyOffset", "FrequencyCalError", "VoltageSetpoint",
      "VoltageOffset", "VoltageCalError", "TimeLagSetpoint", "TimeLagOffset", "TimeLagCalError"] := by decide +kernel
  exact he.mem_iff.1 hm

/-- **C02**, magnets -/
theorem C02_magnets_rejected (ords : List Nat) (kw : Kwargs K) (s : SC K)
    (h : ∃ k ∈ kw.keys, k ∉ ["HCM", "VCM", "CF", "SkewQuad", "MasterOf", "MagnetOffset", "MagnetRoll", "CalErrorA",
      "CalErrorB", "BendingAngle"]) :
    registerMagnets ords kw s = .error .valueError s := by
  unfold registerMagnets
  rw [checkKwargs_error (A := magnetTypeFields ++ magnetErrorFields) h]; rfl

/-- **C02**, supports: unknown type, unknown name, or ordinates which are not two rows -/
theorem C02_supports_rejected (rows : List (List Nat)) (support_type : String) (kw : Kwargs K) (s : SC K)
    (h : support_type ∉ ["Girder", "Plinth", "Section"] ∨ (∃ k ∈ kw.keys, k ∉ ["Offset", "Roll"]) ∨ rows.length ≠ 2) :
    registerSupports rows support_type kw s = .error .valueError s := by
  unfold registerSupports
  by_cases ht : support_type ∈ supportTypes
  · rw [if_neg (by simpa using ht)]
    by_cases hk : ∃ k ∈ kw.keys, k ∉ supportErrorFields
    · rw [checkKwargs_error hk]; rfl
    · rw [checkKwargs_eq_ok (u := ()).2 (by push Not at hk; exact hk)]
      rcases h with h | h | h
      · exact absurd ht (by simpa [supportTypes, and_left_comm, or_left_comm, and_comm] using h)
      · exact absurd h hk
      · change (if rows.length ≠ 2 then Py.throw .valueError else _) s = _
        rw [if_pos h]; rfl
  · rw [if_pos ht]; rfl

example : registerMagnets [1, 2] [("HCM", .num 1), ("Offset", .num 0)] Example.raw = .error .valueError Example.raw :=
  C02_magnets_rejected _ _ _ ⟨"Offset", by decide +kernel, by decide +kernel⟩

/-! ### C03 -/

/-- **C03**, BPMs: the values given now win, names not given now keep their values, other BPMs keep theirs; the
uncertainties of everything else stay. -/
theorem C03_bpms (ords : List Nat) (kw : Kwargs K) (hkw : kw.keys.Nodup) (s s' : SC K)
    (h : registerBpms ords kw s = .ok () s') :
    Merged s'.SIG.BPM s.SIG.BPM ords (fun name => kw.get? name) ∧ s'.SIG = { s.SIG with BPM := s'.SIG.BPM } ∧
    (SingleEntries s.SIG.BPM → SingleEntries s'.SIG.BPM) := by
  obtain ⟨-, hs⟩ := registerBpms_sig h
  rw [hs]
  have := foldl_merged (d := s.SIG.BPM) (l := npUnique ords) hkw
  refine ⟨?_, rfl, fun hse => foldl_single hse⟩
  simpa only [Merged, mem_npUnique] using this

/-- **C03**, cavities -/
theorem C03_cavities (ords : List Nat) (kw : Kwargs K) (hkw : kw.keys.Nodup) (s s' : SC K)
    (h : registerCavities ords kw s = .ok () s') :
    Merged s'.SIG.RF s.SIG.RF ords (fun name => kw.get? name) ∧ s'.SIG = { s.SIG with RF := s'.SIG.RF } ∧
    (SingleEntries s.SIG.RF → SingleEntries s'.SIG.RF) := by
  obtain ⟨-, hs⟩ := registerCavities_sig h
  rw [hs]
  have := foldl_merged (d := s.SIG.RF) (l := npUnique ords) hkw
  refine ⟨?_, rfl, fun hse => foldl_single hse⟩
  simpa only [Merged, mem_npUnique] using this

/-- **C03**, magnets: the options naming the type of a magnet are not stored. -/
theorem C03_magnets (ords : List Nat) (kw : Kwargs K) (hkw : kw.keys.Nodup) (s s' : SC K)
    (h : registerMagnets ords kw s = .ok () s') :
    Merged s'.SIG.Magnet s.SIG.Magnet ords
      (fun name => if name ∈ ["HCM", "VCM", "CF", "SkewQuad", "MasterOf"] then none else kw.get? name) ∧
    s'.SIG = { s.SIG with Magnet := s'.SIG.Magnet } ∧
    (SingleEntries s.SIG.Magnet → SingleEntries s'.SIG.Magnet) := by
  obtain ⟨-, hs⟩ := registerMagnets_sig h
  rw [hs]
  have hnd : Dict.keys (kw.filter (fun p => decide (p.1 ∉ magnetTypeFields))) |>.Nodup := by
    unfold Dict.keys at hkw ⊢
    exact (List.filter_sublist.map _).nodup hkw
  have hm := foldl_merged (d := s.SIG.Magnet) (l := ords) hnd
  refine ⟨?_, rfl, fun hse => foldl_single hse⟩
  obtain ⟨h1, h2⟩ := hm
  refine ⟨h1, fun i name => ?_⟩
  rw [h2 i name]
  have hf := Dict.get?_filter (d := kw) (p := fun k => decide (k ∉ magnetTypeFields)) name
  simp only at hf ⊢
  rw [hf]
  congr 2
  by_cases hn : name ∈ ["HCM", "VCM", "CF", "SkewQuad", "MasterOf"]
  · rw [if_pos hn, if_neg (by rw [decide_eq_true_eq, not_not]; exact hn)]
  · rw [if_neg hn, if_pos (by simpa [magnetTypeFields] using hn)]

/-- **C03**: whatever is registered, in whatever order, successfully or not, every element has one entry with one value
per name, and only names of uncertainties are stored. -/
theorem C03_only_uncertainties_stored (ring : Ring K) (rng : Nat) (calls : List (RegCall K)) :
    WellRegistered (registrations calls (SC.init ring rng)).SIG :=
  wellRegistered_registrations calls _ (wellRegistered_init ring rng)

example : (registrations (Example.calls ++ [.magnets [1] [("CalErrorB", .vec [7]), ("MagnetRoll", .vec [1, 1, 1])],
    .magnets [3] [("CalErrorA", .vec [2])]]) Example.raw).SIG.Magnet =
    [(3, [("CalErrorB", .vec [1/10]), ("CalErrorA", .vec [2])]), (1, [("CalErrorB", .vec [7]), ("MagnetRoll", .vec [1, 1, 1])]),
     (2, [])] := by decide +kernel

/-! ### C04 -/

/-- **C04**, BPMs: nothing but the reading errors of the BPMs given is touched. -/
theorem C04_bpms_leave_lattice (ords : List Nat) (kw : Kwargs K) (s : SC K) (i : Nat) (a : String)
    (h : i ∉ ords ∨ a ∉ ["Noise", "NoiseCO", "Offset", "SupportOffset", "Roll", "SupportRoll", "CalError", "SumError"]) :
    (registerBpms ords kw s).state.RING.attr i a = s.RING.attr i a :=
  (registerBpms_frame ords kw s).attr i a (fun hw => h.elim (fun h => h hw.1) (fun h => h hw.2))

/-- **C04**, cavities: in particular `Voltage`, `Frequency` and `TimeLag` stay. -/
theorem C04_cavities_leave_lattice (ords : List Nat) (kw : Kwargs K) (s : SC K) (i : Nat) (a : String)
    (h : i ∉ ords ∨ a ∉ ["VoltageSetPoint", "VoltageOffset", "VoltageCalError", "FrequencySetPoint", "FrequencyOffset",
      "FrequencyCalError", "TimeLagSetPoint", "TimeLagOffset", "TimeLagCalError"]) :
    (registerCavities ords kw s).state.RING.attr i a = s.RING.attr i a :=
  (registerCavities_frame ords kw s).attr i a (fun hw => h.elim (fun h => h hw.1) (fun h => h hw.2))

/-- **C04**, magnets: in particular `PolynomA` and `PolynomB` stay. -/
theorem C04_magnets_leave_lattice (ords : List Nat) (kw : Kwargs K) (s : SC K) (i : Nat) (a : String)
    (h : i ∉ ords ∨ a ∉ ["NomPolynomA", "SetPointA", "CalErrorA", "NomPolynomB", "SetPointB", "CalErrorB", "MagnetOffset",
      "SupportOffset", "MagnetRoll", "SupportRoll", "T1", "T2", "CombinedFunction", "CMlimit", "SkewQuadLimit",
      "MasterOf"]) :
    (registerMagnets ords kw s).state.RING.attr i a = s.RING.attr i a :=
  (registerMagnets_frame ords kw s).attr i a (fun hw => h.elim (fun h => h hw.1) (fun h => h hw.2))

/-- a magnet straight from the user's lattice file: it has a polynomial in each plane and a pass method, and no field
errors or child magnets are attached to it; a bending magnet has a length and a gradient (needed if it is registered as
combined function magnet), a thin corrector has a dipole coefficient in each plane -/
structure PlainMagnet (r : Ring K) (i : Nat) (a b : List K) : Prop where
  polyA : r.attr i "PolynomA" = some (.vec a)
  polyB : r.attr i "PolynomB" = some (.vec b)
  pass : ∃ p, r.attr i "PassMethod" = some (.str p)
  corrector : r.attr i "PassMethod" = some (.str "CorrectorPass") → a ≠ [] ∧ b ≠ []
  bend : (r.attr i "BendingAngle").isSome → (∃ x, r.attr i "BendingAngle" = some (.num x)) ∧
    (∃ x, r.attr i "Length" = some (.num x) ∧ x ≠ 0) ∧ coef b 1 ≠ 0
  cf : r.attr i "CombinedFunction" = none
  clean : ∀ n ∈ ["PolynomAOffset", "PolynomBOffset", "SysPolAFromA", "SysPolAFromB", "SysPolBFromA", "SysPolBFromB",
    "BendingAngleError", "MasterOf"], r.attr i n = none

/-- **C04**: registering plain magnets and then updating them gives back exactly their multipoles. -/
theorem C04_update_magnets_reproduces (ords : List Nat) (kw : Kwargs K) (s s' : SC K) (a b : Nat → List K)
    (hplain : ∀ i ∈ ords, PlainMagnet s.RING i (a i) (b i)) (hmaster : "MasterOf" ∉ kw.keys)
    (h : registerMagnets ords kw s = .ok () s') :
    ∃ s'', updateMagnets (some ords) s' = .ok () s'' ∧
      ∀ i ∈ ords, s''.RING.attr i "PolynomA" = some (.vec (a i)) ∧ s''.RING.attr i "PolynomB" = some (.vec (b i)) := by
  have hfr := (registerMagnets_frame ords kw).ok h
  have hfresh := registerMagnets_fresh h
  have hopt := registerMagnets_options h
  refine updateMagnets_perfect (pA := a) (pB := b) (fun i hi => ?_) (fun i hi => ?_)
  · have hp := hplain i hi
    obtain ⟨pa, ha, -, hsa, hca⟩ := (hfresh i hi).poly "A" (by simp)
    obtain ⟨pb, hb, hnb, hsb, hcb⟩ := (hfresh i hi).poly "B" (by simp)
    simp only [String.reduceAppend] at ha hsa hca hb hnb hsb hcb
    rw [hp.polyA] at ha; cases ha
    rw [hp.polyB] at hb; cases hb
    refine ⟨hnb, hsa, hsb, hca, hcb, fun n hn => ?_⟩
    by_cases hm : n = "MasterOf"
    · subst hm
      rw [(hopt i).1 hmaster]
      exact hp.clean _ (by simp)
    · rw [hfr.attr]
      · exact hp.clean n hn
      · rintro ⟨-, hw⟩
        revert hn hm hw
        simp only [fieldErrorAttrs, magnetAttrs, List.mem_cons, List.not_mem_nil, or_false]
        rintro (rfl | rfl | rfl | rfl | rfl | rfl | rfl | rfl) <;> simp
  · have hp := hplain i hi
    have same : ∀ n ∈ ["PassMethod", "BendingAngle", "Length"], s'.RING.attr i n = s.RING.attr i n := by
      intro n hn
      refine hfr.attr i n ?_
      rintro ⟨-, hw⟩
      simp only [List.mem_cons, List.not_mem_nil, or_false] at hn
      rcases hn with rfl | rfl | rfl <;> simp [magnetAttrs] at hw
    obtain ⟨pa, ha, -, hsa, -⟩ := (hfresh i hi).poly "A" (by simp)
    obtain ⟨pb, hb, hnb, hsb, -⟩ := (hfresh i hi).poly "B" (by simp)
    simp only [String.reduceAppend] at ha hsa hb hnb hsb
    rw [hp.polyA] at ha; cases ha
    rw [hp.polyB] at hb; cases hb
    refine ⟨?_, ?_, ?_, ?_⟩
    · rw [same _ (by simp)]; exact hp.pass
    · rw [same _ (by simp)]; intro hc
      simpa only [vecAt, hsa, hsb] using hp.corrector hc
    · rcases (hopt i).2 with h | h
      · exact Or.inl (h.trans hp.cf)
      · exact Or.inr ⟨true, h⟩
    · rw [same _ (by simp), same _ (by simp)]
      intro hb _
      simpa only [vecAt, hnb] using hp.bend hb

/-- **C04**: registering cavities and then updating them gives back exactly their fields. -/
theorem C04_update_cavities_reproduces (ords : List Nat) (kw : Kwargs K) (s s' : SC K) (x : Nat → String → K)
    (hnum : ∀ i ∈ ords, ∀ f ∈ ["Frequency", "Voltage", "TimeLag"], s.RING.attr i f = some (.num (x i f)))
    (h : registerCavities ords kw s = .ok () s') :
    ∃ s'', updateCavities (some ords) s' = .ok () s'' ∧
      ∀ i ∈ ords, ∀ f ∈ ["Frequency", "Voltage", "TimeLag"], s''.RING.attr i f = some (.num (x i f)) := by
  have hfresh := registerCavities_fresh h
  have hp : ∀ f, f ∈ ["Frequency", "Voltage", "TimeLag"] ↔ f ∈ rfProperties := by
    intro f; simp [rfProperties, or_comm, or_left_comm]
  simp only [hp] at hnum ⊢
  refine updateCavities_perfect (fun i hi f hf => ?_)
  obtain ⟨v, h0, h1, h2, h3⟩ := hfresh i hi f hf
  rw [hnum i hi f hf] at h0; cases h0
  exact ⟨h1, h2, h3⟩

example : (registerMagnets [1, 2, 3] [("CF", .num 1), ("CalErrorB", .vec [1/10])] Example.raw).isOk = true ∧
    PlainMagnet Example.raw.RING 3 [0, 0] [0, -1] ∧ PlainMagnet Example.raw.RING 1 [0] [0] := by
  refine ⟨by decide +kernel, ⟨by decide +kernel, by decide +kernel, ⟨"BndMPoleSymplectic4Pass", by decide +kernel⟩, fun _ => ⟨by simp, by simp⟩,
    fun _ => ⟨⟨1/10, by decide +kernel⟩, ⟨2, by decide +kernel, by decide +kernel⟩, by decide +kernel⟩, by decide +kernel,
    by decide +kernel⟩, ⟨by decide +kernel, by decide +kernel, ⟨"CorrectorPass", by decide +kernel⟩, fun _ => ⟨by simp, by simp⟩,
    fun h => absurd h (by decide +kernel), by decide +kernel, by decide +kernel⟩⟩

/-! ### C05 -/

/-- **C05**: the columns form a sorted set, the union of the old and the new ones; all other lists stay. -/
theorem C05_support_pairs (starts ends : List Nat) (support_type : String) (kw : Kwargs K) (s s' : SC K)
    (h : registerSupports [starts, ends] support_type kw s = .ok () s') :
    SortedPairs (s'.ORD.pairs support_type) ∧
    (∀ p, p ∈ s'.ORD.pairs support_type ↔ p ∈ s.ORD.pairs support_type ∨ p ∈ starts.zip ends) ∧
    (∀ other ∈ ["Girder", "Plinth", "Section"], other ≠ support_type → s'.ORD.pairs other = s.ORD.pairs other) ∧
    s'.ORD.BPM = s.ORD.BPM ∧ s'.ORD.RF = s.ORD.RF ∧ s'.ORD.Magnet = s.ORD.Magnet ∧ s'.ORD.SkewQuad = s.ORD.SkewQuad ∧
    s'.ORD.HCM = s.ORD.HCM ∧ s'.ORD.VCM = s.ORD.VCM := by
  rcases registerSupports_shape [starts, ends] support_type kw s with ⟨e, he⟩ | ⟨ht, -, -, new, hn, he⟩
  · rw [he] at h; cases h
  · have ho := supportLoops_ord [starts, ends] support_type kw { s with ORD := s.ORD.setPairs support_type new }
    rw [← he, h] at ho
    simp only [Res.state] at ho
    obtain ⟨h1, h2⟩ := updateDoubleOrdinates_eq_ok hn
    rw [ho]
    have hp : (s.ORD.setPairs support_type new).pairs support_type = new := by
      rw [Ords.pairs_setPairs ht ht, if_pos rfl]
    rw [hp]
    refine ⟨h1, fun p => by simpa using h2 p, fun o ho hne => ?_, Ords.setPairs_other⟩
    rw [Ords.pairs_setPairs ht, if_neg hne]
    simpa [supportTypes, or_comm, or_left_comm] using ho

/-- **C05**: the uncertainty of every support is stored at its ends (two rows) or at its start (one row), provided no
element is an end of two supports in the call. -/
theorem C05_support_uncertainties_stored (starts ends : List Nat) (support_type : String) (kw : Kwargs K) (s s' : SC K)
    (hnd : (starts ++ ends).Nodup) (hkw : kw.keys.Nodup)
    (h : registerSupports [starts, ends] support_type kw s = .ok () s') :
    ∀ p ∈ starts.zip ends, ∀ kv ∈ kw, StoredAt s'.SIG.Support p.1 p.2 (support_type ++ kv.1) kv.2 := by
  rcases registerSupports_shape [starts, ends] support_type kw s with ⟨e, he⟩ | ⟨ht, -, -, new, hn, he⟩
  · rw [he] at h; cases h
  · rw [he] at h
    exact supportLoops_stored hnd hkw h

example : (registerSupports [[5, 0, 5], [7, 4, 7]] "Plinth" [("Roll", .pair (.vec [1, 0, 0]) 2)]
    (registrations Example.calls Example.raw)).isOk = true ∧
    (registerSupports [[5, 0, 5], [7, 4, 7]] "Plinth" [("Roll", .pair (.vec [1, 0, 0]) 2)]
    (registrations Example.calls Example.raw)).state.ORD.Plinth = [(0, 4), (5, 7)] := by decide +kernel

/-! ### C06 -/

/-- **C06 is violated**: registering a plinth which starts at the same element as a girder erases the uncertainty
registered for the girder. -/
theorem C06_violated : ∃ (s s1 s2 : SC ℚ),
    registerSupports [[5], [7]] "Girder" [("Offset", .vec [1, 1, 1])] s = .ok () s1 ∧
    registerSupports [[5], [6]] "Plinth" [("Roll", .vec [1, 0, 0])] s1 = .ok () s2 ∧
    sigma s1.SIG.Support 5 "GirderOffset" = some (.vec [1, 1, 1]) ∧
    sigma s2.SIG.Support 5 "GirderOffset" = none := by
  refine ⟨Example.raw, _, _, ok_of_isOk (by decide +kernel), ok_of_isOk (by decide +kernel), ?_, ?_⟩ <;> decide +kernel

/-- **C06**, what holds: uncertainties at elements which are not an end of the newly registered supports are kept,
whatever the outcome of the call. -/
theorem C06_support_uncertainties_partial (rows : List (List Nat)) (support_type : String) (kw : Kwargs K) (s : SC K)
    (i : Nat) (hi : i ∉ rows.flatten) (name : String) :
    sigma (registerSupports rows support_type kw s).state.SIG.Support i name = sigma s.SIG.Support i name :=
  (registerSupports_sigFrame rows support_type kw s).support i name hi

example : (registerSupports [[0], [4]] "Plinth" [] (registrations Example.calls Example.raw)).isOk = true ∧
    sigma (registrations Example.calls Example.raw).SIG.Support 7 "GirderOffset" = some (.vec [4, 5, 6]) := by
  decide +kernel

end PySC
