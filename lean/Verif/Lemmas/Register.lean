import Verif.Model.Register
import Verif.Spec.Register
import Verif.Lemmas.Rels
import Verif.Lemmas.Fields
import Verif.Lemmas.CavitySetpoints
/-
Lemmas about the registration functions.
-/
namespace PySC
set_option linter.unusedSectionVars false
open Py Spec

/-! ### np.unique -/
theorem mem_insertU {x y : Nat} {l : List Nat} : y ∈ insertU x l ↔ y = x ∨ y ∈ l := by
  induction l with
  | nil => simp [insertU]
  | cons z zs ih =>
    unfold insertU
    split
    · simp
    · split
      · rename_i h; subst h; simp
      · simp [ih]; tauto

theorem mem_npUnique {l : List Nat} {y : Nat} : y ∈ npUnique l ↔ y ∈ l := by
  induction l with
  | nil => simp [npUnique]
  | cons x xs ih => simp only [npUnique, List.foldr_cons] at ih ⊢; rw [mem_insertU, ih]; simp

theorem insertU_increasing {x : Nat} {l : List Nat} (h : Increasing l) : Increasing (insertU x l) := by
  unfold Increasing at h ⊢
  induction l with
  | nil => simp [insertU]
  | cons z zs ih =>
    rw [List.pairwise_cons] at h
    unfold insertU
    split
    · rename_i hxz
      rw [List.pairwise_cons, List.pairwise_cons]
      refine ⟨fun a ha => ?_, h⟩
      rcases List.mem_cons.1 ha with rfl | ha
      · exact hxz
      · exact hxz.trans (h.1 a ha)
    · split
      · rw [List.pairwise_cons]; exact h
      · rw [List.pairwise_cons]
        refine ⟨fun a ha => ?_, ih h.2⟩
        rcases mem_insertU.1 ha with rfl | ha
        · omega
        · exact h.1 a ha

theorem npUnique_increasing (l : List Nat) : Increasing (npUnique l) := by
  induction l with
  | nil => simp [npUnique, Increasing]
  | cons x xs ih => simp only [npUnique, List.foldr_cons] at ih ⊢; exact insertU_increasing ih

theorem isUnion_npUnique (o l : List Nat) : IsUnion (npUnique (o ++ l)) o l := by
  intro x; rw [mem_npUnique, List.mem_append]

/-! ### dictionaries -/
namespace Dict
variable {κ v : Type _} [DecidableEq κ]

theorem get?_set (d : Dict κ v) (k : κ) (x : v) (k' : κ) :
    (d.set k x).get? k' = if k' = k then some x else d.get? k' := by
  induction d with
  | nil => simp only [set, get?]; by_cases h : k = k' <;> simp [h, eq_comm]
  | cons p r ih =>
    obtain ⟨k0, y⟩ := p
    simp only [set]
    by_cases h : k0 = k
    · subst h; rw [if_pos rfl]; simp only [get?]; by_cases h' : k0 = k'
      · simp [h']
      · simp [h', Ne.symm h']
    · rw [if_neg h]; simp only [get?, ih]
      by_cases h' : k0 = k'
      · subst h'; simp [h]
      · simp [h']

theorem keys_set (d : Dict κ v) (k : κ) (x : v) :
    (d.set k x).keys = if k ∈ d.keys then d.keys else d.keys ++ [k] := by
  induction d with
  | nil => simp [set, keys]
  | cons p r ih =>
    obtain ⟨k0, y⟩ := p
    simp only [set]
    split
    · rename_i h; subst h; simp [keys]
    · rename_i h
      have h' : k ≠ k0 := fun e => h e.symm
      simp only [keys, List.map_cons, List.mem_cons, h', false_or] at ih ⊢
      rw [ih]; by_cases hk : k ∈ List.map Prod.fst r <;> simp [hk]

theorem keys_nodup_set {d : Dict κ v} (h : d.keys.Nodup) (k : κ) (x : v) : (d.set k x).keys.Nodup := by
  rw [keys_set]; split
  · exact h
  · rename_i hk; exact List.nodup_append.2 ⟨h, by simp, by
      intro a ha b hb; simp at hb; subst hb; rintro rfl; exact hk ha⟩

theorem mem_keys_set {d : Dict κ v} {k k' : κ} {x : v} : k' ∈ (d.set k x).keys ↔ k' ∈ d.keys ∨ k' = k := by
  rw [keys_set]; split
  · constructor
    · exact Or.inl
    · rintro (h | rfl) <;> assumption
  · simp

theorem get?_isSome_iff {d : Dict κ v} {k : κ} : (d.get? k).isSome ↔ k ∈ d.keys := by
  induction d with
  | nil => simp [get?, keys]
  | cons p r ih =>
    obtain ⟨k0, y⟩ := p
    simp only [get?, keys, List.map_cons, List.mem_cons] at ih ⊢
    split
    · rename_i h; simp [h]
    · rename_i h; rw [ih]; simp [Ne.symm h]

theorem get?_eq_none_iff {d : Dict κ v} {k : κ} : d.get? k = none ↔ k ∉ d.keys := by
  rw [← get?_isSome_iff]; simp

theorem has_iff {d : Dict κ v} {k : κ} : d.has k = true ↔ k ∈ d.keys := by simp [has]

theorem update_cons (d : Dict κ v) (p : κ × v) (e : Dict κ v) : d.update (p :: e) = (d.set p.1 p.2).update e := rfl

theorem mem_keys_update {d e : Dict κ v} {k : κ} : k ∈ (d.update e).keys ↔ k ∈ d.keys ∨ k ∈ e.keys := by
  induction e generalizing d with
  | nil => simp [update, keys]
  | cons p r ih => rw [update_cons, ih, mem_keys_set]; simp [keys]; tauto

theorem keys_nodup_update {d e : Dict κ v} (h : d.keys.Nodup) : (d.update e).keys.Nodup := by
  induction e generalizing d with
  | nil => exact h
  | cons p r ih => rw [update_cons]; exact ih (keys_nodup_set h _ _)

theorem get?_update {d e : Dict κ v} (he : e.keys.Nodup) (k : κ) :
    (d.update e).get? k = (e.get? k).or (d.get? k) := by
  induction e generalizing d with
  | nil => simp [update, get?]
  | cons p r ih =>
    obtain ⟨k0, y⟩ := p
    simp only [keys, List.map_cons, List.nodup_cons] at he ih
    rw [update_cons, ih he.2, get?_set, get?]
    by_cases hk : k = k0
    · subst hk
      have : Dict.get? r k = none := get?_eq_none_iff.2 he.1
      simp [this]
    · simp [hk, Ne.symm hk]

theorem get?_filter {d : Dict κ v} {p : κ → Bool} (k : κ) :
    Dict.get? (d.filter (fun q => p q.1)) k = if p k then d.get? k else none := by
  induction d with
  | nil => simp [get?]
  | cons q r ih =>
    obtain ⟨k0, y⟩ := q
    by_cases hp : p k0
    · rw [List.filter_cons_of_pos (by simpa using hp)]
      simp only [get?, ih]
      split
      · rename_i h; subst h; simp [hp]
      · rfl
    · rw [List.filter_cons_of_neg (by simpa using hp), ih]
      simp only [get?]
      by_cases h1 : p k
      · have : k0 ≠ k := fun e => hp (e ▸ h1)
        simp [h1, this]
      · simp [h1]
end Dict

variable {K : Type _} [Field K] [LinearOrder K]

theorem checkKwargs_eq_ok {kw : Kwargs K} {A : List String} {u : Unit} :
    checkKwargs kw A = .ok u ↔ ∀ k ∈ kw.keys, k ∈ A := by
  unfold checkKwargs; split
  · rename_i h
    simp only [reduceCtorEq, false_iff]
    intro hall; apply h
    rw [List.length_eq_zero_iff, List.filter_eq_nil_iff]
    intro k hk; simp [hall k hk]
  · rename_i h
    simp only [ne_eq, not_not, List.length_eq_zero_iff, List.filter_eq_nil_iff, decide_eq_true_eq] at h
    simpa using h

theorem checkKwargs_error {kw : Kwargs K} {A : List String} (h : ∃ k ∈ kw.keys, k ∉ A) :
    checkKwargs kw A = .error .valueError := by
  cases hc : checkKwargs kw A with
  | ok u => obtain ⟨k, hk, hn⟩ := h; exact absurd (checkKwargs_eq_ok.1 hc k hk) hn
  | error e =>
    unfold checkKwargs at hc; split at hc <;> simp at hc; rw [hc]

/-! ### what registrations leave alone -/

/-- changes at most the ring attributes in `W` and the registration records -/
structure RegFrame (W : Nat → String → Prop) (s s' : SC K) : Prop where
  ideal : s'.IDEALRING = s.IDEALRING
  inj : s'.INJ = s.INJ
  rng : s'.rng = s.rng
  len : s'.RING.length = s.RING.length
  attr : ∀ i a, ¬ W i a → s'.RING.attr i a = s.RING.attr i a

instance (W : Nat → String → Prop) : PreRel (RegFrame (K := K) W) :=
  ⟨fun _ => ⟨rfl, rfl, rfl, rfl, fun _ _ _ => rfl⟩,
   fun _ _ _ h1 h2 => ⟨h2.ideal.trans h1.ideal, h2.inj.trans h1.inj, h2.rng.trans h1.rng, h2.len.trans h1.len,
    fun i a h => (h2.attr i a h).trans (h1.attr i a h)⟩⟩

theorem RegFrame.set {W : Nat → String → Prop} {s : SC K} {i a v} (h : W i a) :
    RegFrame W s { s with RING := s.RING.setAttr i a v } := by
  refine ⟨rfl, rfl, rfl, by simp, fun j b hn => ?_⟩
  rw [Ring.attr_setAttr, if_neg]
  rintro ⟨rfl, rfl⟩; exact hn h
theorem RegFrame.recs {W : Nat → String → Prop} {s : SC K} {o g} :
    RegFrame W s { s with ORD := o, SIG := g } := ⟨rfl, rfl, rfl, rfl, fun _ _ _ => rfl⟩

/-- attributes a BPM registration writes -/
def bpmAttrs : List String :=
  ["Noise", "NoiseCO", "Offset", "SupportOffset", "Roll", "SupportRoll", "CalError", "SumError"]
/-- attributes a cavity registration writes -/
def cavityAttrs : List String :=
  ["VoltageSetPoint", "VoltageOffset", "VoltageCalError", "FrequencySetPoint", "FrequencyOffset", "FrequencyCalError",
   "TimeLagSetPoint", "TimeLagOffset", "TimeLagCalError"]
/-- attributes a magnet registration writes -/
def magnetAttrs : List String :=
  ["NomPolynomA", "SetPointA", "CalErrorA", "NomPolynomB", "SetPointB", "CalErrorB", "MagnetOffset", "SupportOffset",
   "MagnetRoll", "SupportRoll", "T1", "T2", "CombinedFunction", "CMlimit", "SkewQuadLimit", "MasterOf"]

theorem registerBpm1_frame (kw : Kwargs K) (ind : Nat) :
    Rel (RegFrame (fun i a => i = ind ∧ a ∈ bpmAttrs)) (registerBpm1 kw ind) := by
  unfold registerBpm1 modSig
  rels
  · exact RegFrame.recs
  · rename_i p hp s
    refine RegFrame.set ⟨rfl, ?_⟩
    simp only [bpmInit, List.mem_cons, List.not_mem_nil, or_false] at hp
    rcases hp with rfl | rfl | rfl | rfl | rfl | rfl | rfl | rfl <;> simp [bpmAttrs]

theorem registerBpms_frame (ords : List Nat) (kw : Kwargs K) :
    Rel (RegFrame (fun i a => i ∈ ords ∧ a ∈ bpmAttrs)) (registerBpms ords kw) := by
  unfold registerBpms modOrd
  rels
  · exact RegFrame.recs
  · rename_i x hx
    refine Rel.mono (fun s s' h => ⟨h.ideal, h.inj, h.rng, h.len, fun i a hn => h.attr i a ?_⟩) (registerBpm1_frame kw x)
    rintro ⟨rfl, ha⟩; exact hn ⟨mem_npUnique.1 hx, ha⟩

theorem registerRfField_frame (ind : Nat) {f : String} (hf : f ∈ rfProperties) :
    Rel (RegFrame (K := K) (fun i a => i = ind ∧ a ∈ cavityAttrs)) (registerRfField ind f) := by
  unfold registerRfField
  simp only [rfProperties, List.mem_cons, List.not_mem_nil, or_false] at hf
  rels
  all_goals
    refine RegFrame.set ⟨rfl, ?_⟩
    rcases hf with rfl | rfl | rfl <;> simp [cavityAttrs]

theorem registerCavity1_frame (kw : Kwargs K) (ind : Nat) :
    Rel (RegFrame (fun i a => i = ind ∧ a ∈ cavityAttrs)) (registerCavity1 kw ind) := by
  unfold registerCavity1 modSig
  rels
  · exact RegFrame.recs
  · exact registerRfField_frame ind ‹_›

theorem registerCavities_frame (ords : List Nat) (kw : Kwargs K) :
    Rel (RegFrame (fun i a => i ∈ ords ∧ a ∈ cavityAttrs)) (registerCavities ords kw) := by
  unfold registerCavities modOrd
  rels
  · exact RegFrame.recs
  · rename_i x hx
    refine Rel.mono (fun s s' h => ⟨h.ideal, h.inj, h.rng, h.len, fun i a hn => h.attr i a ?_⟩)
      (registerCavity1_frame kw x)
    rintro ⟨rfl, ha⟩; exact hn ⟨mem_npUnique.1 hx, ha⟩

theorem Rels.withKey {R : SC K → SC K → Prop} [PreRel R] {kw : Kwargs K} {k : String} {b : Attr K → Py (SC K) Unit}
    (h : ∀ v, Rel R (b v)) : Rel R (withKey kw k b) := by
  unfold PySC.withKey; split
  · exact h _
  · exact Rels.pure' _

/-- attributes the optional keywords of a magnet registration write -/
def optionalAttrs : List String := ["CombinedFunction", "CMlimit", "SkewQuadLimit", "MasterOf"]

theorem optionalMagnetFields_frame (ind : Nat) (ords : List Nat) (kw : Kwargs K) :
    Rel (Frame (fun i a => i = ind ∧ a ∈ optionalAttrs)) (optionalMagnetFields ind ords kw) := by
  unfold optionalMagnetFields ensureCMlimit setCMlimit
  refine Rels.bind (Rels.withKey (fun _ => ?_)) (fun _ => Rels.bind ?_ (fun _ => Rels.bind (Rels.withKey (fun _ => ?_))
    (fun _ => Rels.bind (Rels.withKey (fun _ => ?_)) (fun _ => Rels.bind (Rels.withKey (fun _ => ?_))
    (fun _ => Rels.withKey (fun _ => ?_))))))
  all_goals rels
  all_goals exact Frame.setAttr ⟨rfl, by simp [optionalAttrs]⟩

theorem Frame.toReg {W W' : Nat → String → Prop} (hW : ∀ i a, W i a → W' i a) {s s' : SC K} (h : Frame W s s') :
    RegFrame W' s s' := ⟨h.ideal, h.inj, h.rng, h.len, fun i a hn => h.attr i a (fun hw => hn (hW i a hw))⟩

theorem registerZeros_frame (ind : Nat) {ab : String} (hab : ab ∈ ["A", "B"]) :
    Rel (Frame (K := K) (fun i a => i = ind ∧ a ∈ magnetAttrs)) (registerZeros ind ab) := by
  unfold registerZeros
  rels
  rename_i f hf _
  refine Frame.setAttr ⟨rfl, ?_⟩
  simp at hab hf
  rcases hab with rfl | rfl <;> rcases hf with rfl | rfl | rfl <;> simp [magnetAttrs]

theorem addPolynom_frame (ind : Nat) {f ab : String} (hab : ab ∈ ["A", "B"]) (hf : f ∈ ["NomPolynom", "SetPoint"]) :
    Rel (Frame (K := K) (fun i a => i = ind ∧ a ∈ magnetAttrs)) (addPolynom ind f ab) := by
  unfold addPolynom
  rels
  refine Frame.setAttr ⟨rfl, ?_⟩
  simp at hab hf
  rcases hab with rfl | rfl <;> rcases hf with rfl | rfl <;> simp [magnetAttrs]

/-- the part of a magnet registration that acts on the element -/
def registerMagnetElem (ords : List Nat) (kw : Kwargs K) (ind : Nat) : Py (SC K) Unit := do
  forEach ["A", "B"] (registerZeros ind)
  addPolynom ind "NomPolynom" "B"
  addPolynom ind "NomPolynom" "A"
  addPolynom ind "SetPoint" "B"
  addPolynom ind "SetPoint" "A"
  forEach magnetInit (fun p => setAttr ind p.1 p.2)
  optionalMagnetFields ind ords kw

theorem registerMagnet1_eq (ords : List Nat) (kw : Kwargs K) (ind : Nat) : registerMagnet1 ords kw ind =
    (modSig (fun g => { g with Magnet := sigUpdate g.Magnet ind (kw.filter (fun p => p.1 ∉ magnetTypeFields)) })
      >>= fun _ => registerMagnetElem ords kw ind) := rfl

theorem registerMagnetElem_frame (ords : List Nat) (kw : Kwargs K) (ind : Nat) :
    Rel (Frame (fun i a => i = ind ∧ a ∈ magnetAttrs)) (registerMagnetElem ords kw ind) := by
  unfold registerMagnetElem
  refine Rels.bind (Rels.forEach (fun ab hab => registerZeros_frame ind hab)) (fun _ => ?_)
  refine Rels.bind (addPolynom_frame ind (by simp) (by simp)) (fun _ => ?_)
  refine Rels.bind (addPolynom_frame ind (by simp) (by simp)) (fun _ => ?_)
  refine Rels.bind (addPolynom_frame ind (by simp) (by simp)) (fun _ => ?_)
  refine Rels.bind (addPolynom_frame ind (by simp) (by simp)) (fun _ => ?_)
  refine Rels.bind (Rels.forEach (fun p hp => Rels.setAttr (fun s => Frame.setAttr ⟨rfl, ?_⟩))) (fun _ => ?_)
  · simp only [magnetInit, List.mem_cons, List.not_mem_nil, or_false] at hp
    rcases hp with rfl | rfl | rfl | rfl | rfl | rfl <;> simp [magnetAttrs]
  · refine Rel.mono (fun s s' h => Frame.mono ?_ h) (optionalMagnetFields_frame ind ords kw)
    rintro i a ⟨rfl, ha⟩
    refine ⟨rfl, ?_⟩
    simp only [optionalAttrs, List.mem_cons, List.not_mem_nil, or_false] at ha
    rcases ha with rfl | rfl | rfl | rfl <;> simp [magnetAttrs]

theorem registerMagnet1_frame (ords : List Nat) (kw : Kwargs K) (ind : Nat) :
    Rel (RegFrame (fun i a => i = ind ∧ a ∈ magnetAttrs)) (registerMagnet1 ords kw ind) := by
  rw [registerMagnet1_eq]; unfold modSig
  rels
  · exact RegFrame.recs
  · exact Rel.mono (fun s s' h => h.toReg (fun _ _ h => h)) (registerMagnetElem_frame ords kw ind)

theorem registerMagnets_frame (ords : List Nat) (kw : Kwargs K) :
    Rel (RegFrame (fun i a => i ∈ ords ∧ a ∈ magnetAttrs)) (registerMagnets ords kw) := by
  unfold registerMagnets modOrd
  rels
  · exact RegFrame.recs
  · rename_i x hx
    refine Rel.mono (fun s s' h => ⟨h.ideal, h.inj, h.rng, h.len, fun i a hn => h.attr i a ?_⟩)
      (registerMagnet1_frame ords kw x)
    rintro ⟨rfl, ha⟩; exact hn ⟨hx, ha⟩

/-! ### index lists and uncertainties -/

theorem registerBpm1_ord (kw : Kwargs K) (ind : Nat) : Rel (fun s s' : SC K => s'.ORD = s.ORD) (registerBpm1 kw ind) := by
  unfold registerBpm1 modSig; rels <;> rfl
theorem registerCavity1_ord (kw : Kwargs K) (ind : Nat) :
    Rel (fun s s' : SC K => s'.ORD = s.ORD) (registerCavity1 kw ind) := by
  unfold registerCavity1 registerRfField modSig; rels <;> rfl
theorem registerMagnet1_ord (ords : List Nat) (kw : Kwargs K) (ind : Nat) :
    Rel (fun s s' : SC K => s'.ORD = s.ORD) (registerMagnet1 ords kw ind) := by
  rw [registerMagnet1_eq]; unfold modSig; rels
  · rfl
  · exact Rel.mono (fun s s' h => h.ord) (registerMagnetElem_frame ords kw ind)

/-- shape of the three element registrations: check, extend the index lists, loop -/
theorem register_shape {kw : Kwargs K} {A : List String} {f : Ords → Ords} {l : List Nat} {b : Nat → Py (SC K) Unit}
    (hb : ∀ i, Rel (fun s s' : SC K => s'.ORD = s.ORD) (b i)) (s : SC K) :
    (∃ e, (lift (checkKwargs kw A) >>= fun _ => modOrd f >>= fun _ => forEach l b) s = .error e s) ∨
    ((∀ k ∈ kw.keys, k ∈ A) ∧
      (lift (checkKwargs kw A) >>= fun _ => modOrd f >>= fun _ => forEach l b) s =
        forEach l b { s with ORD := f s.ORD } ∧ (forEach l b { s with ORD := f s.ORD }).state.ORD = f s.ORD) := by
  cases hc : checkKwargs kw A with
  | error e => left; exact ⟨e, rfl⟩
  | ok u =>
    right
    refine ⟨checkKwargs_eq_ok.1 hc, rfl, ?_⟩
    exact Rels.forEach (R := fun s s' : SC K => s'.ORD = s.ORD) (fun i _ => hb i) _

theorem registerBpms_ord (ords : List Nat) (kw : Kwargs K) (s : SC K) :
    (∃ e, registerBpms ords kw s = .error e s) ∨
      (registerBpms ords kw s).state.ORD = { s.ORD with BPM := npUnique (s.ORD.BPM ++ ords) } := by
  rcases register_shape (kw := kw) (A := bpmErrorFields) (f := fun o => { o with BPM := npUnique (o.BPM ++ ords) })
    (l := npUnique ords) (b := registerBpm1 kw) (registerBpm1_ord kw) s with h | ⟨-, h1, h2⟩
  · exact Or.inl h
  · right; rw [← h1] at h2; exact h2

theorem registerCavities_ord (ords : List Nat) (kw : Kwargs K) (s : SC K) :
    (∃ e, registerCavities ords kw s = .error e s) ∨
      (registerCavities ords kw s).state.ORD = { s.ORD with RF := npUnique (s.ORD.RF ++ ords) } := by
  rcases register_shape (kw := kw) (A := rfErrorFields) (f := fun o => { o with RF := npUnique (o.RF ++ ords) })
    (l := npUnique ords) (b := registerCavity1 kw) (registerCavity1_ord kw) s with h | ⟨-, h1, h2⟩
  · exact Or.inl h
  · right; rw [← h1] at h2; exact h2

theorem registerMagnets_ord (ords : List Nat) (kw : Kwargs K) (s : SC K) :
    (∃ e, registerMagnets ords kw s = .error e s) ∨
      (registerMagnets ords kw s).state.ORD = magnetOrds s.ORD ords kw := by
  rcases register_shape (kw := kw) (A := magnetTypeFields ++ magnetErrorFields) (f := fun o => magnetOrds o ords kw)
    (l := ords) (b := registerMagnet1 ords kw) (registerMagnet1_ord ords kw) s with h | ⟨-, h1, h2⟩
  · exact Or.inl h
  · right; rw [← h1] at h2; exact h2

/-! uncertainties -/

theorem sigUpdate_merged {d : Dict Nat (Kwargs K)} {i : Nat} {kw : Kwargs K} (hkw : kw.keys.Nodup) :
    Merged (sigUpdate d i kw) d [i] (fun n => kw.get? n) := by
  refine ⟨fun j => ?_, fun j n => ?_⟩
  · unfold sigUpdate; rw [Dict.mem_keys_set]; simp
  · unfold sigUpdate sigma
    rw [Dict.get?_set]
    by_cases h : j = i
    · subst h
      simp only [if_true, Option.bind_some, List.mem_singleton]
      rw [Dict.get?_update hkw]
      cases d.get? j <;> simp [Dict.get?]
    · simp [h]

theorem foldl_merged {d : Dict Nat (Kwargs K)} {l : List Nat} {kw : Kwargs K} (hkw : kw.keys.Nodup) :
    Merged (l.foldl (fun d i => sigUpdate d i kw) d) d l (fun n => kw.get? n) := by
  induction l generalizing d with
  | nil => exact ⟨fun i => by simp, fun i n => by simp⟩
  | cons x xs ih =>
    obtain ⟨h1, h2⟩ := ih (d := sigUpdate d x kw)
    obtain ⟨g1, g2⟩ := sigUpdate_merged (d := d) (i := x) hkw
    refine ⟨fun i => ?_, fun i n => ?_⟩
    · rw [List.foldl_cons, h1, g1]; simp; tauto
    · rw [List.foldl_cons, h2, g2]
      by_cases h : i ∈ xs <;> by_cases h' : i = x <;>
        simp only [h, h', List.mem_cons, List.not_mem_nil, or_false, or_true, true_or, if_true, if_false, or_self]
      · cases Dict.get? kw n <;> simp
      · rw [h'] at h; simp [h]

theorem sigUpdate_single {d : Dict Nat (Kwargs K)} {i : Nat} {kw : Kwargs K} (h : SingleEntries d) :
    SingleEntries (sigUpdate d i kw) := by
  refine ⟨Dict.keys_nodup_set h.1 _ _, fun j e he => ?_⟩
  unfold sigUpdate at he
  rw [Dict.get?_set] at he
  split at he
  · simp at he; subst he
    apply Dict.keys_nodup_update
    cases hg : d.get? i with
    | none => simp [Dict.keys]
    | some e => exact h.2 i e hg
  · exact h.2 j e he

theorem foldl_single {d : Dict Nat (Kwargs K)} {l : List Nat} {kw : Kwargs K} (h : SingleEntries d) :
    SingleEntries (l.foldl (fun d i => sigUpdate d i kw) d) := by
  induction l generalizing d with
  | nil => exact h
  | cons x xs ih => exact ih (sigUpdate_single h)

/-- loops whose passes apply a function to a part of the state -/
theorem forEach_part {σ τ α : Type _} {part : σ → τ} {g : α → τ → τ} {f : α → Py σ Unit}
    (hf : ∀ x s s', f x s = .ok () s' → part s' = g x (part s)) {l : List α} {s s' : σ}
    (h : forEach l f s = .ok () s') : part s' = l.foldl (fun t x => g x t) (part s) := by
  induction l generalizing s with
  | nil => simp at h; subst h; rfl
  | cons x xs ih =>
    rw [forEach_cons, bind_eq_ok] at h
    obtain ⟨⟨⟩, s1, h1, h2⟩ := h
    rw [ih h2, hf x s s1 h1]; rfl

theorem foldl_part {α β γ : Type _} (f : γ → β) (upd : α → β → β) (put : γ → β → γ) (hput : ∀ c b, f (put c b) = b)
    (hpp : ∀ c b b', put (put c b) b' = put c b') (hself : ∀ c, put c (f c) = c) (l : List α) (c : γ) :
    l.foldl (fun c x => put c (upd x (f c))) c = put c (l.foldl (fun b x => upd x b) (f c)) := by
  induction l generalizing c with
  | nil => exact (hself c).symm
  | cons x xs ih => rw [List.foldl_cons, ih, List.foldl_cons, hput, hpp]

theorem registerBpms_sig {ords : List Nat} {kw : Kwargs K} {s s' : SC K} (h : registerBpms ords kw s = .ok () s') :
    (∀ k ∈ kw.keys, k ∈ bpmErrorFields) ∧
    s'.SIG = { s.SIG with BPM := (npUnique ords).foldl (fun d i => sigUpdate d i kw) s.SIG.BPM } := by
  unfold registerBpms modOrd at h
  rw [bind_eq_ok] at h; obtain ⟨⟨⟩, s1, h1, h⟩ := h
  rw [lift_eq_ok] at h1; obtain ⟨hc, rfl⟩ := h1
  rw [bind_eq_ok] at h; obtain ⟨⟨⟩, s2, h2, h⟩ := h
  simp at h2; subst h2
  refine ⟨checkKwargs_eq_ok.1 hc, ?_⟩
  rw [forEach_part (part := fun s : SC K => s.SIG)
    (g := fun i g => { g with BPM := sigUpdate g.BPM i kw }) (fun x s s' hx => ?_) h]
  · exact foldl_part (fun g : Sigs K => g.BPM) (fun i d => sigUpdate d i kw) (fun g d => { g with BPM := d })
      (fun _ _ => rfl) (fun _ _ _ => rfl) (fun _ => rfl) _ _
  · unfold registerBpm1 modSig at hx
    rw [bind_eq_ok] at hx; obtain ⟨⟨⟩, s1, h1, hx⟩ := hx
    simp at h1; subst h1
    have : Rel (fun s s' : SC K => s'.SIG = s.SIG) (forEach bpmInit (fun p => setAttr x p.1 p.2)) := by rels; rfl
    exact this.ok hx

theorem registerCavities_sig {ords : List Nat} {kw : Kwargs K} {s s' : SC K}
    (h : registerCavities ords kw s = .ok () s') :
    (∀ k ∈ kw.keys, k ∈ rfErrorFields) ∧
    s'.SIG = { s.SIG with RF := (npUnique ords).foldl (fun d i => sigUpdate d i kw) s.SIG.RF } := by
  unfold registerCavities modOrd at h
  rw [bind_eq_ok] at h; obtain ⟨⟨⟩, s1, h1, h⟩ := h
  rw [lift_eq_ok] at h1; obtain ⟨hc, rfl⟩ := h1
  rw [bind_eq_ok] at h; obtain ⟨⟨⟩, s2, h2, h⟩ := h
  simp at h2; subst h2
  refine ⟨checkKwargs_eq_ok.1 hc, ?_⟩
  rw [forEach_part (part := fun s : SC K => s.SIG)
    (g := fun i g => { g with RF := sigUpdate g.RF i kw }) (fun x s s' hx => ?_) h]
  · exact foldl_part (fun g : Sigs K => g.RF) (fun i d => sigUpdate d i kw) (fun g d => { g with RF := d })
      (fun _ _ => rfl) (fun _ _ _ => rfl) (fun _ => rfl) _ _
  · unfold registerCavity1 modSig at hx
    rw [bind_eq_ok] at hx; obtain ⟨⟨⟩, s1, h1, hx⟩ := hx
    simp at h1; subst h1
    have : Rel (fun s s' : SC K => s'.SIG = s.SIG) (forEach rfProperties (registerRfField x)) := by
      unfold registerRfField; rels <;> rfl
    exact this.ok hx

theorem registerMagnets_sig {ords : List Nat} {kw : Kwargs K} {s s' : SC K}
    (h : registerMagnets ords kw s = .ok () s') :
    (∀ k ∈ kw.keys, k ∈ magnetTypeFields ++ magnetErrorFields) ∧
    s'.SIG = { s.SIG with Magnet :=
      (ords.foldl (fun d i => sigUpdate d i (kw.filter (fun p => p.1 ∉ magnetTypeFields))) s.SIG.Magnet) } := by
  unfold registerMagnets modOrd at h
  rw [bind_eq_ok] at h; obtain ⟨⟨⟩, s1, h1, h⟩ := h
  rw [lift_eq_ok] at h1; obtain ⟨hc, rfl⟩ := h1
  rw [bind_eq_ok] at h; obtain ⟨⟨⟩, s2, h2, h⟩ := h
  simp at h2; subst h2
  refine ⟨checkKwargs_eq_ok.1 hc, ?_⟩
  rw [forEach_part (part := fun s : SC K => s.SIG)
    (g := fun i g => { g with Magnet := sigUpdate g.Magnet i (kw.filter (fun p => p.1 ∉ magnetTypeFields)) })
    (fun x s s' hx => ?_) h]
  · exact foldl_part (fun g : Sigs K => g.Magnet)
      (fun i d => sigUpdate d i (kw.filter (fun p => p.1 ∉ magnetTypeFields)))
      (fun g d => { g with Magnet := d }) (fun _ _ => rfl) (fun _ _ _ => rfl) (fun _ => rfl) _ _
  · rw [registerMagnet1_eq] at hx; unfold modSig at hx
    rw [bind_eq_ok] at hx; obtain ⟨⟨⟩, s1, h1, hx⟩ := hx
    cases h1
    exact ((registerMagnetElem_frame ords kw x).ok hx).sig

/-! ### what a registration stores in the elements -/

theorem zipWith_zeros_add (p : List K) : List.zipWith (· + ·) (zeros p.length) p = p := by
  unfold zeros
  induction p with
  | nil => rfl
  | cons x xs ih => simp only [List.length_cons, List.replicate_succ, List.zipWith_cons_cons, zero_add, ih]

theorem registerZeros_eq_ok {ind : Nat} {ab : String} {s s' : SC K} (h : registerZeros ind ab s = .ok () s') :
    ∃ p, s.RING.attr ind ("Polynom" ++ ab) = some (.vec p) ∧
      s'.RING.attr ind ("NomPolynom" ++ ab) = some (.vec (zeros p.length)) ∧
      s'.RING.attr ind ("SetPoint" ++ ab) = some (.vec (zeros p.length)) ∧
      s'.RING.attr ind ("CalError" ++ ab) = some (.vec (zeros p.length)) ∧
      Frame (fun i a => i = ind ∧ a ∈ ["NomPolynom" ++ ab, "SetPoint" ++ ab, "CalError" ++ ab]) s s' := by
  unfold registerZeros at h
  rw [bind_eq_ok] at h; obtain ⟨p, s1, h1, h⟩ := h
  rw [rd_eq_ok, Ring.getVec_eq_ok] at h1; obtain ⟨h1, rfl⟩ := h1
  simp only [forEach_cons, forEach_nil, bind_eq_ok, setAttr_eq_ok] at h
  obtain ⟨⟨⟩, s2, ⟨hl, rfl⟩, ⟨⟩, s3, ⟨-, rfl⟩, ⟨⟩, s4, ⟨-, rfl⟩, h⟩ := h
  simp at h; subst h
  refine ⟨p, h1, ?_, ?_, ?_, ?_⟩
  · rw [Ring.attr_setAttr_ne, Ring.attr_setAttr_ne, Ring.attr_setAttr_same hl]
    · intro e; simpa using congrArg String.toList e
    · intro e; simpa using congrArg String.toList e
  · rw [Ring.attr_setAttr_ne, Ring.attr_setAttr_same (by simpa using hl)]
    intro e; simpa using congrArg String.toList e
  · rw [Ring.attr_setAttr_same (by simpa using hl)]
  · refine ⟨rfl, rfl, rfl, rfl, rfl, by simp, fun i a hn => ?_⟩
    simp only [Ring.attr_setAttr]
    simp only [List.mem_cons, List.not_mem_nil, or_false, not_and, not_or] at hn
    by_cases hi : i = ind
    · obtain ⟨h1, h2, h3⟩ := hn hi; simp [h1, h2, h3]
    · simp [hi]

theorem addPolynom_eq_ok {ind : Nat} {f ab : String} {s s' : SC K} (h : addPolynom ind f ab s = .ok () s') :
    ∃ z p, s.RING.attr ind (f ++ ab) = some (.vec z) ∧ s.RING.attr ind ("Polynom" ++ ab) = some (.vec p) ∧
      s' = { s with RING := s.RING.setAttr ind (f ++ ab) (.vec (List.zipWith (· + ·) z p)) } := by
  unfold addPolynom at h
  rw [bind_eq_ok] at h; obtain ⟨z, s1, h1, h⟩ := h
  rw [rd_eq_ok, Ring.getVec_eq_ok] at h1; obtain ⟨h1, rfl⟩ := h1
  rw [bind_eq_ok] at h; obtain ⟨p, s2, h2, h⟩ := h
  rw [rd_eq_ok, Ring.getVec_eq_ok] at h2; obtain ⟨h2, rfl⟩ := h2
  rw [setAttr_eq_ok] at h
  exact ⟨z, p, h1, h2, h.2⟩

theorem Frame.attr_of_ne {W : Nat → String → Prop} {s s' : SC K} (h : Frame W s s') {i : Nat} {a : String}
    (hn : ¬ W i a) {v : Option (Attr K)} (hv : s.RING.attr i a = v) : s'.RING.attr i a = v := by
  rw [h.attr i a hn, hv]

/-- element `i` of `r` is freshly registered with the fields it has in `r0` -/
structure FreshMagnet (r0 r : Ring K) (i : Nat) : Prop where
  poly : ∀ ab ∈ ["A", "B"], ∃ p, r0.attr i ("Polynom" ++ ab) = some (.vec p) ∧
    r.attr i ("NomPolynom" ++ ab) = some (.vec p) ∧ r.attr i ("SetPoint" ++ ab) = some (.vec p) ∧
    r.attr i ("CalError" ++ ab) = some (.vec (zeros p.length))
  init : ∀ p ∈ magnetInit (K := K), r.attr i p.1 = some p.2

theorem forEach_setAttr_frame (ind : Nat) (l : List (String × Attr K)) :
    Rel (Frame (fun i a => i = ind ∧ a ∈ l.map Prod.fst)) (forEach l (fun p => setAttr ind p.1 p.2)) :=
  Rels.forEach (fun _ hp => Rels.setAttr (fun _ => Frame.setAttr ⟨rfl, List.mem_map_of_mem hp⟩))

theorem forEach_setAttr_value {ind : Nat} {l : List (String × Attr K)} (hn : (l.map Prod.fst).Nodup) {s s' : SC K}
    (h : forEach l (fun p => setAttr ind p.1 p.2) s = .ok () s') : ∀ p ∈ l, s'.RING.attr ind p.1 = some p.2 := by
  induction l generalizing s with
  | nil => simp
  | cons q qs ih =>
    rw [forEach_cons, bind_eq_ok] at h
    obtain ⟨⟨⟩, s1, h1, h2⟩ := h
    rw [List.map_cons, List.nodup_cons] at hn
    intro p hp
    rcases List.mem_cons.1 hp with rfl | hp
    · rw [setAttr_eq_ok] at h1
      obtain ⟨hl, rfl⟩ := h1
      refine ((forEach_setAttr_frame ind qs).ok h2).attr_of_ne (fun hh => hn.1 hh.2) ?_
      exact Ring.attr_setAttr_same hl
    · exact ih hn.2 h2 p hp

theorem registerMagnetElem_fresh {ords : List Nat} {kw : Kwargs K} {ind : Nat} {s s' : SC K}
    (h : registerMagnetElem ords kw ind s = .ok () s') : FreshMagnet s.RING s'.RING ind := by
  unfold registerMagnetElem at h
  simp only [forEach_cons, forEach_nil, bind_eq_ok] at h
  obtain ⟨⟨⟩, s1, ⟨⟨⟩, s1a, hA, ⟨⟩, s1b, hB, hp⟩, ⟨⟩, s2, h2, ⟨⟩, s3, h3, ⟨⟩, s4, h4, ⟨⟩, s5, h5, ⟨⟩, s6, h6, h7⟩ := h
  simp at hp; subst hp
  obtain ⟨pA, hpA, a1, a2, a3, fA⟩ := registerZeros_eq_ok hA
  obtain ⟨pB, hpB, b1, b2, b3, fB⟩ := registerZeros_eq_ok hB
  have f7 := (optionalMagnetFields_frame ind ords kw).ok h7
  have f6 := (forEach_setAttr_frame ind magnetInit).ok h6
  have hv := forEach_setAttr_value (by simp [magnetInit]) h6
  have hpB' : s.RING.attr ind "PolynomB" = some (.vec pB) := by
    rw [← hpB]; exact (fA.attr _ _ (by simp)).symm
  -- the arrays before the additions
  have pa : s1b.RING.attr ind "PolynomA" = some (.vec pA) :=
    fB.attr_of_ne (by simp) (fA.attr_of_ne (by simp) hpA)
  have pb : s1b.RING.attr ind "PolynomB" = some (.vec pB) := fB.attr_of_ne (by simp) hpB
  have a1' := fB.attr_of_ne (by simp) a1
  have a2' := fB.attr_of_ne (by simp) a2
  have a3' := fB.attr_of_ne (by simp) a3
  obtain ⟨z2, p2, q2, r2, e2⟩ := addPolynom_eq_ok h2
  obtain ⟨z3, p3, q3, r3, e3⟩ := addPolynom_eq_ok h3
  obtain ⟨z4, p4, q4, r4, e4⟩ := addPolynom_eq_ok h4
  obtain ⟨z5, p5, q5, r5, e5⟩ := addPolynom_eq_ok h5
  have hl : ind < s1b.RING.length := Ring.attr_some_lt pa
  simp only [String.reduceAppend] at *
  rw [b1] at q2; rw [pb] at r2
  simp only [Option.some.injEq, Attr.vec.injEq] at q2 r2
  subst q2 r2 e2
  rw [zipWith_zeros_add] at *
  simp only [Ring.attr_setAttr, and_false, String.reduceEq, if_false] at q3 r3
  rw [a1'] at q3; rw [pa] at r3
  simp only [Option.some.injEq, Attr.vec.injEq] at q3 r3
  subst q3 r3 e3
  rw [zipWith_zeros_add] at *
  simp only [Ring.attr_setAttr, and_false, String.reduceEq, if_false] at q4 r4
  rw [b2] at q4; rw [pb] at r4
  simp only [Option.some.injEq, Attr.vec.injEq] at q4 r4
  subst q4 r4 e4
  rw [zipWith_zeros_add] at *
  simp only [Ring.attr_setAttr, and_false, String.reduceEq, if_false] at q5 r5
  rw [a2'] at q5; rw [pa] at r5
  simp only [Option.some.injEq, Attr.vec.injEq] at q5 r5
  subst q5 r5
  rw [zipWith_zeros_add] at *
  have last : ∀ a, a ∉ (magnetInit (K := K)).map Prod.fst → a ∉ optionalAttrs →
      s'.RING.attr ind a = s5.RING.attr ind a := fun a h1 h2 => by
    rw [f7.attr _ _ (fun hh => h2 hh.2), f6.attr _ _ (fun hh => h1 hh.2)]
  refine ⟨fun ab hab => ?_, fun p hp => ?_⟩
  · simp only [List.mem_cons, List.not_mem_nil, or_false] at hab
    rcases hab with rfl | rfl
    · refine ⟨pA, hpA, ?_, ?_, ?_⟩ <;> simp only [String.reduceAppend] <;>
        rw [last _ (by simp [magnetInit]) (by simp [optionalAttrs]), e5] <;> simp [Ring.attr_setAttr, hl, a3']
    · refine ⟨pB, hpB', ?_, ?_, ?_⟩ <;> simp only [String.reduceAppend] <;>
        rw [last _ (by simp [magnetInit]) (by simp [optionalAttrs]), e5] <;> simp [Ring.attr_setAttr, hl, b3]
  · rw [f7.attr _ _ (fun hh => ?_), hv p hp]
    have := hh.2
    simp only [magnetInit, List.mem_cons, List.not_mem_nil, or_false] at hp
    rcases hp with rfl | rfl | rfl | rfl | rfl | rfl <;> simp [optionalAttrs] at this

theorem registerMagnets_fresh {ords : List Nat} {kw : Kwargs K} {s s' : SC K}
    (h : registerMagnets ords kw s = .ok () s') : ∀ i ∈ ords, FreshMagnet s.RING s'.RING i := by
  unfold registerMagnets modOrd at h
  rw [bind_eq_ok] at h; obtain ⟨⟨⟩, s1, h1, h⟩ := h
  rw [lift_eq_ok] at h1; obtain ⟨hc, rfl⟩ := h1
  rw [bind_eq_ok] at h; obtain ⟨⟨⟩, s2, h2, h⟩ := h
  simp at h2
  refine forEach_post (I := fun t : SC K => ∀ i, ∀ ab ∈ ["A", "B"], t.RING.attr i ("Polynom" ++ ab) =
      s1.RING.attr i ("Polynom" ++ ab)) (P := fun i t => FreshMagnet s1.RING t.RING i) ?_ ?_ ?_ h ?_
  · intro x t t' ht hx i ab hab
    rw [← ht i ab hab]
    refine ((registerMagnet1_frame ords kw x).ok hx).attr _ _ (fun hh => ?_)
    have := hh.2
    simp only [List.mem_cons, List.not_mem_nil, or_false] at hab
    rcases hab with rfl | rfl <;> simp [magnetAttrs] at this
  · intro x _ t t' ht hx
    rw [registerMagnet1_eq, bind_eq_ok] at hx; obtain ⟨⟨⟩, t1, hx1, hx⟩ := hx
    cases hx1
    have hf := registerMagnetElem_fresh hx
    refine ⟨fun ab hab => ?_, hf.init⟩
    rw [← ht x ab hab]; exact hf.poly ab hab
  · intro x _ y _ t t' ht hxy hP hx
    have hfr := (registerMagnet1_frame ords kw x).ok hx
    have hsame : ∀ a, t'.RING.attr y a = t.RING.attr y a := fun a => hfr.attr _ _ (fun hh => hxy hh.1.symm)
    refine ⟨fun ab hab => ?_, fun p hp => ?_⟩
    · simp only [hsame]; exact hP.poly ab hab
    · rw [hsame]; exact hP.init p hp
  · intro i ab _; rw [← h2]

/-! ### update_magnets on perfect magnets -/

theorem addPadded_ones_zeros (n : Nat) : addPadded (List.replicate n (1 : K)) (zeros n) = List.replicate n 1 := by
  unfold zeros
  induction n with
  | zero => rfl
  | succ n ih => simp only [List.replicate_succ, addPadded, ih, add_zero]

theorem bmul_ones (p : List K) : bmul p (List.replicate p.length 1) = .ok p := by
  unfold bmul
  rw [if_pos (by simp)]
  congr 1
  induction p with
  | nil => rfl
  | cons x xs ih => simp only [List.length_cons, List.replicate_succ, List.zipWith_cons_cons, mul_one, ih]

theorem scaledSetpoints_zeros (p : List K) : scaledSetpoints p (.vec (zeros p.length)) = .ok p := by
  unfold scaledSetpoints
  simp [Attr.asVec, addPadded_ones_zeros, bmul_ones]

/-- attributes by which the realised field can deviate from the set-point -/
def fieldErrorAttrs : List String :=
  ["PolynomAOffset", "PolynomBOffset", "SysPolAFromA", "SysPolAFromB", "SysPolBFromA", "SysPolBFromB",
   "BendingAngleError", "MasterOf"]

/-- a magnet without any field errors or children whose set-points are `pA`, `pB`, and `pB` is also its nominal field -/
structure PerfectMagnet (r : Ring K) (i : Nat) (pA pB : List K) : Prop where
  nomB : r.attr i "NomPolynomB" = some (.vec pB)
  spA : r.attr i "SetPointA" = some (.vec pA)
  spB : r.attr i "SetPointB" = some (.vec pB)
  calA : r.attr i "CalErrorA" = some (.vec (zeros pA.length))
  calB : r.attr i "CalErrorB" = some (.vec (zeros pB.length))
  clean : ∀ a ∈ fieldErrorAttrs, r.attr i a = none

/-- the data `_update_magnets` reads from an element has the types it needs -/
structure Updatable (r : Ring K) (i : Nat) : Prop where
  pass : ∃ p, r.attr i "PassMethod" = some (.str p)
  cm : r.attr i "PassMethod" = some (.str "CorrectorPass") →
    vecAt r i "SetPointA" ≠ [] ∧ vecAt r i "SetPointB" ≠ []
  cf : r.attr i "CombinedFunction" = none ∨ ∃ b, r.attr i "CombinedFunction" = some (.flag b)
  bend : (r.attr i "BendingAngle").isSome → flagAt r i "CombinedFunction" = true →
    (∃ x, r.attr i "BendingAngle" = some (.num x)) ∧ (∃ x, r.attr i "Length" = some (.num x) ∧ x ≠ 0) ∧
    coef (vecAt r i "NomPolynomB") 1 ≠ 0

theorem newPolynom_clean {r : Ring K} {i : Nat} {p : List K × List K} (hi : i < r.length)
    (hc : ∀ a ∈ fieldErrorAttrs, r.attr i a = none) {t : String} (ht : t ∈ ["A", "B"]) :
    newPolynom r i p t = .ok (pick p t) := by
  have hs : ∀ v so, so ∈ ["A", "B"] → addSystematic r i p t so v = .ok v := by
    intro v so hso
    unfold addSystematic
    rw [Ring.hasA_of_lt hi]
    rw [hc _ (by
      simp only [List.mem_cons, List.not_mem_nil, or_false] at ht hso
      rcases ht with rfl | rfl <;> rcases hso with rfl | rfl <;> simp [fieldErrorAttrs])]
    simp
  unfold newPolynom
  rw [Ring.hasA_of_lt hi, hc _ (by
      simp only [List.mem_cons, List.not_mem_nil, or_false] at ht
      rcases ht with rfl | rfl <;> simp [fieldErrorAttrs])]
  simp [hs]

theorem PerfectMagnet.values {r : Ring K} {i : Nat} {pA pB : List K} (h : PerfectMagnet r i pA pB)
    (hu : Updatable r i) : ∃ L, magnetValues r i i = .ok L ∧
      (∀ v, ("PolynomA", v) ∈ L ↔ v = .vec pA) ∧ (∀ v, ("PolynomB", v) ∈ L ↔ v = .vec pB) := by
  have hi : i < r.length := Ring.attr_some_lt h.spA
  have hp : polynoms r i = .ok (pA, pB) := by
    unfold polynoms
    rw [Ring.getVec_eq_ok.2 h.spA, Ring.getVec_eq_ok.2 h.spB, Ring.getA_eq_ok.2 h.calA, Ring.getA_eq_ok.2 h.calB]
    simp [scaledSetpoints_zeros]
  have hb : bendingErrorTerm r i i = .ok none := by
    unfold bendingErrorTerm
    rw [Ring.hasA_of_lt hi, h.clean _ (by simp [fieldErrorAttrs])]; simp
  have hcf : combinedFunctionTerm r i i = .ok none ∨
      (combinedFunctionTerm r i i = .ok (some 0) ∧ coef pB 1 ≠ 0) := by
    unfold combinedFunctionTerm isCombinedFunction
    rw [Ring.hasA_of_lt hi, Ring.hasA_of_lt hi]
    cases hba : (r.attr i "BendingAngle").isSome with
    | false => left; simp
    | true =>
      rcases hu.cf with hc | ⟨b, hc⟩
      · left; simp [hc]
      · rw [Ring.getA_eq_ok.2 hc]
        cases b with
        | false => left; simp [hc, Attr.toFlag]
        | true =>
          right
          obtain ⟨⟨x, hx⟩, ⟨y, hy, hy0⟩, hn⟩ := hu.bend hba (by simp [flagAt, hc])
          rw [vecAt_of_attr h.nomB] at hn
          have h1 : ∃ z, pB[1]? = some z ∧ z ≠ 0 := by
            unfold coef at hn
            cases hz : pB[1]? with
            | none => simp [List.getD, hz] at hn
            | some z => exact ⟨z, rfl, by simpa [List.getD, hz] using hn⟩
          obtain ⟨z, hz, hz0⟩ := h1
          have hz' : (zeros pB.length : List K)[1]? = some 0 := by
            have := (List.getElem?_eq_some_iff.1 hz).1
            simp [zeros, this]
          refine ⟨?_, hn⟩
          rw [Ring.getVecAt_eq_ok.2 ⟨_, h.spB, hz⟩, Ring.getVecAt_eq_ok.2 ⟨_, h.calB, hz'⟩,
            Ring.getVecAt_eq_ok.2 ⟨_, h.nomB, hz⟩, Ring.getNum_eq_ok.2 hx, Ring.getNum_eq_ok.2 hy]
          simp [hc, Attr.toFlag, divE, hz0, hy0]
  obtain ⟨pass, hpass⟩ := hu.pass
  have hnA := newPolynom_clean (p := (pA, pB)) hi h.clean (t := "A") (by simp)
  have hnB := newPolynom_clean (p := (pA, pB)) hi h.clean (t := "B") (by simp)
  have hadd : ∃ y, combinedFunctionTerm r i i = .ok y ∧ addHead pB y = .ok pB := by
    rcases hcf with hcf | ⟨hcf, hn⟩
    · exact ⟨_, hcf, rfl⟩
    · refine ⟨_, hcf, ?_⟩
      cases pB with
      | nil => simp [coef] at hn
      | cons x xs => simp [addHead, idx]
  obtain ⟨y, hy, hadd⟩ := hadd
  have hkick : ∃ l, kickValues pass pA pB = .ok l := by
    unfold kickValues
    split
    · rename_i hcm
      rw [hcm] at hpass
      have := hu.cm hpass
      rw [vecAt_of_attr h.spA, vecAt_of_attr h.spB] at this
      obtain ⟨h1, h2⟩ := this
      cases pA with
      | nil => simp at h1
      | cons x xs => cases pB with
        | nil => simp at h2
        | cons y ys => exact ⟨[("KickAngle", .vec [y, x])], by simp [idx]⟩
    · exact ⟨_, rfl⟩
  obtain ⟨l, hl⟩ := hkick
  have hkeys := kickValues_keys hl
  refine ⟨[("PolynomA", .vec pA), ("PolynomB", .vec pB)] ++ l ++
    [("MaxOrder", .int ((pB.length : Int) - 1))], ?_, ?_, ?_⟩
  · unfold magnetValues
    rw [hp]
    have h0 : addHead pB (none : Option K) = .ok pB := rfl
    simp only [Except.ok_bind', hnA, hnB, hb, pick, h0, hy, String.reduceEq, if_true, if_false, hadd]
    rw [Ring.getStr_eq_ok.2 hpass]
    simp only [Except.ok_bind', hl]
  · intro v; simp; intro hm; simpa using hkeys _ hm
  · intro v; simp; intro hm; simpa using hkeys _ hm

theorem loopWrites_progress {α : Type _} {g : α → Ring K → Except Err (Writes K)} {l : List α} {r : Ring K}
    (h : ∀ x ∈ l, ∃ W, g x r = .ok W) : ∃ W, loopWrites g l r = .ok W := by
  induction l with
  | nil => exact ⟨[], rfl⟩
  | cons x xs ih =>
    obtain ⟨W, hW⟩ := h x (by simp)
    obtain ⟨W', hW'⟩ := ih (fun y hy => h y (by simp [hy]))
    exact ⟨W ++ W', by simp [loopWrites, hW, hW']⟩

/-- updating magnets that have no errors succeeds and gives every magnet its set-points as field -/
theorem updateMagnets_perfect {l : List Nat} {s : SC K} {pA pB : Nat → List K}
    (h : ∀ i ∈ l, PerfectMagnet s.RING i (pA i) (pB i)) (hu : ∀ i ∈ l, Updatable s.RING i) :
    ∃ s', updateMagnets (some l) s = .ok () s' ∧
      ∀ i ∈ l, s'.RING.attr i "PolynomA" = some (.vec (pA i)) ∧ s'.RING.attr i "PolynomB" = some (.vec (pB i)) := by
  have hno : ∀ i ∈ l, ∀ t, Affects s.RING i t → t = i := by
    rintro i hi t (ht | ⟨m, hm, -⟩)
    · exact ht
    · rw [(h i hi).clean _ (by simp [fieldErrorAttrs])] at hm; simp at hm
  have hW : ∃ W, loopWrites magnetFamilyWrites l s.RING = .ok W := by
    refine loopWrites_progress (fun i hi => ?_)
    obtain ⟨L, hL, -⟩ := (h i hi).values (hu i hi)
    have hlt : i < s.RING.length := Ring.attr_some_lt (h i hi).spA
    have hch : childrenOf s.RING i = .ok [] := by
      unfold childrenOf
      rw [Ring.hasA_of_lt hlt, (h i hi).clean _ (by simp [fieldErrorAttrs])]; simp
    exact ⟨L.map (fun p => (i, p.1, p.2)) ++ [],
      by simp [magnetFamilyWrites, oneMagnetWrites, Ring.valid, hlt, hL, hch, loopWrites]⟩
  obtain ⟨W, hW⟩ := hW
  refine ⟨s.write W, ((updateMagnets_writer l).ok _ _ _).2 ⟨W, hW, rfl⟩, fun i hi => ?_⟩
  obtain ⟨L, hL, hA, hB⟩ := (h i hi).values (hu i hi)
  have hlt : i < s.RING.length := Ring.attr_some_lt (h i hi).spA
  have hmem : ∀ a v, (i, a, v) ∈ W ↔ (a, v) ∈ L := by
    intro a v
    rw [mem_magnetWrites hW]
    constructor
    · rintro ⟨j, hj, haff, L', hL', hm⟩
      obtain rfl := hno j hj i haff
      rw [hL] at hL'; cases hL'; exact hm
    · intro hm; exact ⟨i, hi, Or.inl rfl, L, hL, hm⟩
  rw [SC.write_RING, Ring.attr_write, Ring.attr_write,
    lastWrite_unique (v := .vec (pA i)) ((hmem _ _).2 ((hA _).2 rfl)) (fun v hv => (hA v).1 ((hmem _ _).1 hv)),
    lastWrite_unique (v := .vec (pB i)) ((hmem _ _).2 ((hB _).2 rfl)) (fun v hv => (hB v).1 ((hmem _ _).1 hv))]
  simp [hlt]

/-! ### cavities -/

/-- cavity `i` of `r` is freshly registered with the fields it has in `r0` -/
def FreshCavity (r0 r : Ring K) (i : Nat) : Prop :=
  ∀ f ∈ rfProperties, ∃ v, r0.attr i f = some v ∧ r.attr i (f ++ "SetPoint") = some v ∧
    r.attr i (f ++ "Offset") = some (.num 0) ∧ r.attr i (f ++ "CalError") = some (.num 0)

theorem registerRfField_eq_ok {ind : Nat} {f : String} {s s' : SC K} (h : registerRfField ind f s = .ok () s') :
    ∃ v, s.RING.attr ind f = some v ∧ s'.RING.attr ind (f ++ "SetPoint") = some v ∧
      s'.RING.attr ind (f ++ "Offset") = some (.num 0) ∧ s'.RING.attr ind (f ++ "CalError") = some (.num 0) ∧
      Frame (fun i a => i = ind ∧ a ∈ [f ++ "SetPoint", f ++ "Offset", f ++ "CalError"]) s s' := by
  unfold registerRfField at h
  rw [bind_eq_ok] at h; obtain ⟨v, s1, h1, h⟩ := h
  rw [rd_eq_ok, Ring.getA_eq_ok] at h1; obtain ⟨h1, rfl⟩ := h1
  simp only [bind_eq_ok, setAttr_eq_ok] at h
  obtain ⟨⟨⟩, s2, ⟨hl, rfl⟩, ⟨⟩, s3, ⟨-, rfl⟩, -, rfl⟩ := h
  have ne : ∀ {x y : String}, x ≠ y → f ++ x ≠ f ++ y := by
    intro x y hxy e
    apply hxy
    have := congrArg String.toList e
    simp only [String.toList_append, List.append_cancel_left_eq] at this
    exact String.toList_inj.1 this
  refine ⟨v, h1, ?_, ?_, ?_, ?_⟩
  · rw [Ring.attr_setAttr_ne (ne (by decide)), Ring.attr_setAttr_ne (ne (by decide)), Ring.attr_setAttr_same hl]
  · rw [Ring.attr_setAttr_ne (ne (by decide)), Ring.attr_setAttr_same (by simpa using hl)]
  · rw [Ring.attr_setAttr_same (by simpa using hl)]
  · refine ⟨rfl, rfl, rfl, rfl, rfl, by simp, fun i a hn => ?_⟩
    simp only [Ring.attr_setAttr]
    simp only [List.mem_cons, List.not_mem_nil, or_false, not_and, not_or] at hn
    by_cases hi : i = ind
    · obtain ⟨h1, h2, h3⟩ := hn hi; simp [h1, h2, h3]
    · simp [hi]

theorem registerRfFields_fresh {ind : Nat} {s s' : SC K} (h : forEach rfProperties (registerRfField ind) s = .ok () s') :
    FreshCavity s.RING s'.RING ind := by
  simp only [rfProperties, forEach_cons, forEach_nil, bind_eq_ok] at h
  obtain ⟨⟨⟩, s1, h1, ⟨⟩, s2, h2, ⟨⟩, s3, h3, h⟩ := h
  simp at h; subst h
  obtain ⟨v1, a1, b1, c1, d1, f1⟩ := registerRfField_eq_ok h1
  obtain ⟨v2, a2, b2, c2, d2, f2⟩ := registerRfField_eq_ok h2
  obtain ⟨v3, a3, b3, c3, d3, f3⟩ := registerRfField_eq_ok h3
  intro f hf
  simp only [rfProperties, List.mem_cons, List.not_mem_nil, or_false] at hf
  rcases hf with rfl | rfl | rfl
  · exact ⟨v1, a1, f3.attr_of_ne (by simp) (f2.attr_of_ne (by simp) b1),
      f3.attr_of_ne (by simp) (f2.attr_of_ne (by simp) c1), f3.attr_of_ne (by simp) (f2.attr_of_ne (by simp) d1)⟩
  · refine ⟨v2, ?_, f3.attr_of_ne (by simp) b2, f3.attr_of_ne (by simp) c2, f3.attr_of_ne (by simp) d2⟩
    rw [← a2]; exact (f1.attr _ _ (by simp)).symm
  · refine ⟨v3, ?_, b3, c3, d3⟩
    rw [← a3, f2.attr _ _ (by simp)]; exact (f1.attr _ _ (by simp)).symm

theorem registerCavities_fresh {ords : List Nat} {kw : Kwargs K} {s s' : SC K}
    (h : registerCavities ords kw s = .ok () s') : ∀ i ∈ ords, FreshCavity s.RING s'.RING i := by
  unfold registerCavities modOrd at h
  rw [bind_eq_ok] at h; obtain ⟨⟨⟩, s1, h1, h⟩ := h
  rw [lift_eq_ok] at h1; obtain ⟨hc, rfl⟩ := h1
  rw [bind_eq_ok] at h; obtain ⟨⟨⟩, s2, h2, h⟩ := h
  simp at h2
  have key := forEach_post (I := fun t : SC K => ∀ i, ∀ f ∈ rfProperties, t.RING.attr i f =
      s1.RING.attr i f) (P := fun i t => FreshCavity s1.RING t.RING i) ?_ ?_ ?_ h ?_
  · exact fun i hi => key i (mem_npUnique.2 hi)
  · intro x t t' ht hx i f hf
    rw [← ht i f hf]
    refine ((registerCavity1_frame kw x).ok hx).attr _ _ (fun hh => ?_)
    have := hh.2
    simp only [rfProperties, List.mem_cons, List.not_mem_nil, or_false] at hf
    rcases hf with rfl | rfl | rfl <;> simp [cavityAttrs] at this
  · intro x _ t t' ht hx
    unfold registerCavity1 at hx
    rw [bind_eq_ok] at hx; obtain ⟨⟨⟩, t1, hx1, hx⟩ := hx
    cases hx1
    have hf := registerRfFields_fresh hx
    intro f hf'
    rw [← ht x f hf']; exact hf f hf'
  · intro x _ y _ t t' ht hxy hP hx
    have hfr := (registerCavity1_frame kw x).ok hx
    have hsame : ∀ a, t'.RING.attr y a = t.RING.attr y a := fun a => hfr.attr _ _ (fun hh => hxy hh.1.symm)
    intro f hf
    simp only [hsame]; exact hP f hf
  · intro i f _; rw [← h2]

/-- updating cavities without errors succeeds and gives them their set-points -/
theorem updateCavities_perfect {l : List Nat} {s : SC K} {x : Nat → String → K}
    (h : ∀ i ∈ l, ∀ f ∈ rfProperties, s.RING.attr i (f ++ "SetPoint") = some (.num (x i f)) ∧
      s.RING.attr i (f ++ "Offset") = some (.num 0) ∧ s.RING.attr i (f ++ "CalError") = some (.num 0)) :
    ∃ s', updateCavities (some l) s = .ok () s' ∧
      ∀ i ∈ l, ∀ f ∈ rfProperties, s'.RING.attr i f = some (.num (x i f)) := by
  have hf : ∀ i ∈ l, ∀ f ∈ rfProperties, cavityField s.RING i f = .ok (x i f) := by
    intro i hi f hf
    obtain ⟨h1, h2, h3⟩ := h i hi f hf
    unfold cavityField
    rw [Ring.getNum_eq_ok.2 h1, Ring.getNum_eq_ok.2 h2, Ring.getNum_eq_ok.2 h3]
    simp
  have hW : ∃ W, loopWrites cavityWrites l s.RING = .ok W := by
    refine loopWrites_progress (fun i hi => ?_)
    have hlt : i < s.RING.length := Ring.attr_some_lt (h i hi "Voltage" (by simp [rfProperties])).1
    have := hf i hi
    exact ⟨[(i, "Voltage", .num (x i "Voltage")), (i, "Frequency", .num (x i "Frequency")),
      (i, "TimeLag", .num (x i "TimeLag"))], by
      simp [cavityWrites, cavityFieldWrites, this _ (show "Voltage" ∈ rfProperties by simp [rfProperties]),
        this _ (show "Frequency" ∈ rfProperties by simp [rfProperties]),
        this _ (show "TimeLag" ∈ rfProperties by simp [rfProperties]), Ring.valid, hlt]⟩
  obtain ⟨W, hW⟩ := hW
  have hok : updateCavities (some l) s = .ok () (s.write W) := ((updateCavities_writer l).ok _ _ _).2 ⟨W, hW, rfl⟩
  refine ⟨_, hok, fun i hi f hf' => ?_⟩
  obtain ⟨y, hy, hy'⟩ := updateCavities_field hok hi hf'
  rw [hf i hi f hf'] at hy; cases hy; exact hy'

/-! ### supports -/

theorem mem_dropRepeats {l : List (Nat × Nat)} {x : Nat × Nat} : x ∈ dropRepeats l ↔ x ∈ l := by
  fun_induction dropRepeats l with
  | case1 => simp
  | case2 => simp
  | case3 y r ih => rw [ih]; simp
  | case4 y r h x' ih => simp only [List.mem_cons, ih]

theorem pairLe_trans {a b c : Nat × Nat} (h1 : pairLe a b) (h2 : pairLe b c) : pairLe a c := by
  unfold pairLe at *; omega
theorem pairLt_of_le_ne {a b : Nat × Nat} (h : pairLe a b) (hn : a ≠ b) : PairLt a b := by
  obtain ⟨a1, a2⟩ := a; obtain ⟨b1, b2⟩ := b
  unfold pairLe at h; unfold PairLt
  simp only [ne_eq, Prod.mk.injEq, not_and] at *
  omega

theorem dropRepeats_sorted {l : List (Nat × Nat)} (h : l.Pairwise pairLe) : SortedPairs (dropRepeats l) := by
  unfold SortedPairs
  fun_induction dropRepeats l with
  | case1 => simp
  | case2 => simp
  | case3 y r ih => exact ih h.tail
  | case4 x y r hxy ih =>
    rw [List.pairwise_cons] at h
    rw [List.pairwise_cons]
    refine ⟨fun z hz => ?_, ih h.2⟩
    rw [mem_dropRepeats] at hz
    have hxy' := pairLt_of_le_ne (h.1 y (by simp)) hxy
    rcases List.mem_cons.1 hz with rfl | hz
    · exact hxy'
    · have := (List.pairwise_cons.1 h.2).1 z hz
      unfold pairLe at this; unfold PairLt at hxy' ⊢; omega

instance : Std.Total pairLe := ⟨fun a b => by unfold pairLe; omega⟩
instance : IsTrans (Nat × Nat) pairLe := ⟨fun _ _ _ => pairLe_trans⟩

theorem updateDoubleOrdinates_eq_ok {o1 o2 l : List (Nat × Nat)} (h : updateDoubleOrdinates o1 o2 = .ok l) :
    SortedPairs l ∧ ∀ p, p ∈ l ↔ p ∈ o1 ∨ p ∈ o2 := by
  unfold updateDoubleOrdinates at h
  split at h
  · simp at h
  · simp at h; subst h
    refine ⟨dropRepeats_sorted (List.pairwise_insertionSort _ _), fun p => ?_⟩
    rw [mem_dropRepeats, List.mem_insertionSort, List.mem_append]

/-- the elements' registration records are untouched and support uncertainties change only at `W` -/
structure SigFrame (W : Nat → String → Prop) (s s' : SC K) : Prop where
  bpm : s'.SIG.BPM = s.SIG.BPM
  magnet : s'.SIG.Magnet = s.SIG.Magnet
  rf : s'.SIG.RF = s.SIG.RF
  random : s'.SIG.randomInjectionZ = s.SIG.randomInjectionZ
  static : s'.SIG.staticInjectionZ = s.SIG.staticInjectionZ
  circ : s'.SIG.Circumference = s.SIG.Circumference
  support : ∀ i n, ¬ W i n → sigma s'.SIG.Support i n = sigma s.SIG.Support i n

instance (W : Nat → String → Prop) : PreRel (SigFrame (K := K) W) :=
  ⟨fun _ => ⟨rfl, rfl, rfl, rfl, rfl, rfl, fun _ _ _ => rfl⟩,
   fun _ _ _ h1 h2 => ⟨h2.bpm.trans h1.bpm, h2.magnet.trans h1.magnet, h2.rf.trans h1.rf, h2.random.trans h1.random,
    h2.static.trans h1.static, h2.circ.trans h1.circ, fun i n h => (h2.support i n h).trans (h1.support i n h)⟩⟩

theorem SigFrame.mono {W W' : Nat → String → Prop} (hW : ∀ i n, W i n → W' i n) {s s' : SC K} (h : SigFrame W s s') :
    SigFrame W' s s' :=
  ⟨h.bpm, h.magnet, h.rf, h.random, h.static, h.circ, fun i n hn => h.support i n (fun hw => hn (hW i n hw))⟩

theorem sigma_set (d : Dict Nat (Kwargs K)) (i : Nat) (e : Kwargs K) (j : Nat) (n : String) :
    sigma (d.set i e) j n = if j = i then e.get? n else sigma d j n := by
  unfold sigma; rw [Dict.get?_set]; split <;> rfl

theorem sigma_set_set (d : Dict Nat (Kwargs K)) (i : Nat) (m : String) (v : Attr K) (j : Nat) (n : String) :
    sigma (d.set i (((d.get? i).getD []).set m v)) j n = if j = i ∧ n = m then some v else sigma d j n := by
  rw [sigma_set]
  by_cases hj : j = i
  · subst hj
    rw [if_pos rfl, Dict.get?_set]
    by_cases hn : n = m
    · simp [hn]
    · simp only [hn, and_false, if_false]
      unfold sigma; cases d.get? j <;> simp [Dict.get?]
  · simp [hj]

theorem setSupportSig_frame {W : Nat → String → Prop} {i : Nat} {n : String} {v : Attr K} (h : W i n) :
    Rel (SigFrame W) (setSupportSig i n v) := by
  unfold setSupportSig modSig
  rels
  refine ⟨rfl, rfl, rfl, rfl, rfl, rfl, fun j m hn => ?_⟩
  simp only
  rw [sigma_set_set, if_neg]
  rintro ⟨rfl, rfl⟩; exact hn h

/-- has the value separate rows for the two end points? -/
def twoRows : Attr K → Bool
  | .mat _ => true
  | .pair (.mat _) _ => true
  | _ => false

theorem storeSupportSig_frame (t : String) (pr : Nat × Nat) (kv : String × Attr K) :
    Rel (SigFrame (fun i n => n = t ++ kv.1 ∧ (i = pr.1 ∨ (i = pr.2 ∧ twoRows kv.2 = true)))) (storeSupportSig t pr kv) := by
  obtain ⟨k, v⟩ := kv
  unfold storeSupportSig
  split
  · exact setSupportSig_frame ⟨rfl, Or.inl rfl⟩
  · rename_i hm
    dsimp only at hm; subst hm
    refine Rels.bind (Rels.lift _) (fun _ => Rels.bind (setSupportSig_frame ⟨rfl, Or.inl rfl⟩) (fun _ =>
      Rels.bind (Rels.lift _) (fun _ => setSupportSig_frame ⟨rfl, Or.inr ⟨rfl, rfl⟩⟩)))
  · exact setSupportSig_frame ⟨rfl, Or.inl rfl⟩
  · rename_i hm
    dsimp only at hm; subst hm
    refine Rels.bind (Rels.lift _) (fun _ => Rels.bind (setSupportSig_frame ⟨rfl, Or.inl rfl⟩) (fun _ =>
      Rels.bind (Rels.lift _) (fun _ => setSupportSig_frame ⟨rfl, Or.inr ⟨rfl, rfl⟩⟩)))
  · exact Rels.throw _

theorem setAttr_sigFrame {W : Nat → String → Prop} {i : Nat} {a : String} {v : Attr K} :
    Rel (SigFrame W) (setAttr i a v) :=
  Rels.setAttr (fun _ => ⟨rfl, rfl, rfl, rfl, rfl, rfl, fun _ _ _ => rfl⟩)

theorem initSupport_sigFrame (t : String) (ind : Nat) :
    Rel (SigFrame (K := K) (fun i _ => i = ind)) (initSupport t ind) := by
  unfold initSupport modSig
  refine Rels.bind setAttr_sigFrame (fun _ => Rels.bind setAttr_sigFrame (fun _ => Rels.modify (fun s => ?_)))
  refine ⟨rfl, rfl, rfl, rfl, rfl, rfl, fun j m hn => ?_⟩
  simp only
  rw [sigma_set, if_neg hn]

/-- the loops of `register_supports` -/
def supportLoops (rows : List (List Nat)) (t : String) (kw : Kwargs K) : Py (SC K) Unit := do
  forEach rows.flatten (initSupport t)
  forEach ((rows.getD 0 []).zip (rows.getD 1 [])) (fun pr => forEach kw (storeSupportSig t pr))

/-- either nothing happens or the index list is extended and the loops run -/
theorem registerSupports_shape (rows : List (List Nat)) (t : String) (kw : Kwargs K) (s : SC K) :
    (∃ e, registerSupports rows t kw s = .error e s) ∨
    (t ∈ supportTypes ∧ (∀ k ∈ kw.keys, k ∈ supportErrorFields) ∧ rows.length = 2 ∧
      ∃ new, updateDoubleOrdinates (s.ORD.pairs t) ((rows.getD 0 []).zip (rows.getD 1 [])) = .ok new ∧
        registerSupports rows t kw s = supportLoops rows t kw { s with ORD := s.ORD.setPairs t new }) := by
  unfold registerSupports
  by_cases ht : t ∈ supportTypes
  · rw [if_neg (by simpa using ht)]
    cases hc : checkKwargs kw supportErrorFields with
    | error e => left; exact ⟨e, rfl⟩
    | ok u =>
      by_cases hl : rows.length = 2
      · cases hn : updateDoubleOrdinates (s.ORD.pairs t) ((rows.getD 0 []).zip (rows.getD 1 [])) with
        | error e =>
          left; refine ⟨e, ?_⟩
          rw [bind_apply, lift_ok_apply]; simp only
          rw [if_neg (by simpa using hl), bind_apply, get_apply]; simp only
          rw [hn]; rfl
        | ok new =>
          right; refine ⟨ht, checkKwargs_eq_ok.1 hc, hl, new, rfl, ?_⟩
          rw [bind_apply, lift_ok_apply]; simp only
          rw [if_neg (by simpa using hl), bind_apply, get_apply]; simp only
          rw [hn]; rfl
      · left; refine ⟨.valueError, ?_⟩
        rw [bind_apply, lift_ok_apply]; simp only
        rw [if_pos hl]; rfl
  · left; rw [if_pos ht]; exact ⟨_, rfl⟩

theorem setSupportSig_keep {R : SC K → SC K → Prop} [PreRel R] (h : ∀ s g, R s { s with SIG := g }) (i : Nat) (n : String)
    (v : Attr K) : Rel R (setSupportSig i n v) := by
  unfold setSupportSig modSig; rels; exact h _ _

theorem storeSupportSig_keep {R : SC K → SC K → Prop} [PreRel R] (h : ∀ s g, R s { s with SIG := g }) (t : String)
    (pr : Nat × Nat) (kv : String × Attr K) : Rel R (storeSupportSig t pr kv) := by
  have hs := setSupportSig_keep h
  unfold storeSupportSig
  split
  · exact hs _ _ _
  · exact Rels.bind (Rels.lift _) (fun _ => Rels.bind (hs _ _ _) (fun _ => Rels.bind (Rels.lift _) (fun _ => hs _ _ _)))
  · exact hs _ _ _
  · exact Rels.bind (Rels.lift _) (fun _ => Rels.bind (hs _ _ _) (fun _ => Rels.bind (Rels.lift _) (fun _ => hs _ _ _)))
  · exact Rels.throw _

theorem supportLoops_frame (rows : List (List Nat)) (t : String) (kw : Kwargs K) :
    Rel (RegFrame (fun i a => i ∈ rows.flatten ∧ a ∈ [t ++ "Offset", t ++ "Roll"])) (supportLoops rows t kw) := by
  unfold supportLoops initSupport modSig
  rels
  · rename_i hx _; exact RegFrame.set ⟨hx, by simp⟩
  · rename_i hx _ _; exact RegFrame.set ⟨hx, by simp⟩
  · exact RegFrame.recs
  · exact storeSupportSig_keep (fun s g => ⟨rfl, rfl, rfl, rfl, fun _ _ _ => rfl⟩) _ _ _

theorem supportLoops_ord (rows : List (List Nat)) (t : String) (kw : Kwargs K) :
    Rel (fun s s' : SC K => s'.ORD = s.ORD) (supportLoops rows t kw) := by
  unfold supportLoops initSupport modSig
  rels
  · rfl
  · rfl
  · rfl
  · exact storeSupportSig_keep (fun s g => rfl) _ _ _

theorem zip_mem_flatten {rows : List (List Nat)} (hl : rows.length = 2) {p : Nat × Nat}
    (hp : p ∈ (rows.getD 0 []).zip (rows.getD 1 [])) : p.1 ∈ rows.flatten ∧ p.2 ∈ rows.flatten := by
  match rows, hl with
  | [a, b], _ =>
    have := List.of_mem_zip (a := p.1) (b := p.2) hp
    simp at this ⊢
    exact ⟨Or.inl this.1, Or.inr this.2⟩

theorem supportLoops_sigFrame {rows : List (List Nat)} (hl : rows.length = 2) (t : String) (kw : Kwargs K) :
    Rel (SigFrame (fun i _ => i ∈ rows.flatten)) (supportLoops rows t kw) := by
  unfold supportLoops
  refine Rels.bind (Rels.forEach (fun x hx => ?_)) (fun _ => Rels.forEach (fun pr hpr => Rels.forEach (fun kv _ => ?_)))
  · exact Rel.mono (fun s s' h => h.mono (by rintro i n rfl; exact hx)) (initSupport_sigFrame t x)
  · refine Rel.mono (fun s s' h => h.mono ?_) (storeSupportSig_frame t pr kv)
    obtain ⟨h1, h2⟩ := zip_mem_flatten hl hpr
    rintro i n ⟨-, rfl | ⟨rfl, -⟩⟩ <;> assumption

theorem registerSupports_frame (rows : List (List Nat)) (t : String) (kw : Kwargs K) :
    Rel (RegFrame (fun i a => i ∈ rows.flatten ∧ a ∈ [t ++ "Offset", t ++ "Roll"])) (registerSupports rows t kw) := by
  intro s
  rcases registerSupports_shape rows t kw s with ⟨e, h⟩ | ⟨-, -, -, new, -, h⟩
  · rw [h]; exact PreRel.refl s
  · rw [h]
    exact PreRel.trans (R := RegFrame (fun i a => i ∈ rows.flatten ∧ a ∈ [t ++ "Offset", t ++ "Roll"])) _ _ _
      (RegFrame.recs (s := s) (o := s.ORD.setPairs t new) (g := s.SIG)) (supportLoops_frame rows t kw _)

theorem registerSupports_sigFrame (rows : List (List Nat)) (t : String) (kw : Kwargs K) :
    Rel (SigFrame (fun i _ => i ∈ rows.flatten)) (registerSupports rows t kw) := by
  intro s
  rcases registerSupports_shape rows t kw s with ⟨e, h⟩ | ⟨-, -, hl, new, -, h⟩
  · rw [h]; exact PreRel.refl s
  · rw [h]
    have := supportLoops_sigFrame hl t kw { s with ORD := s.ORD.setPairs t new }
    exact ⟨this.bpm, this.magnet, this.rf, this.random, this.static, this.circ, this.support⟩

theorem Ords.setPairs_other {o : Ords} {t : String} {v : List (Nat × Nat)} :
    (o.setPairs t v).BPM = o.BPM ∧ (o.setPairs t v).RF = o.RF ∧ (o.setPairs t v).Magnet = o.Magnet ∧
    (o.setPairs t v).SkewQuad = o.SkewQuad ∧ (o.setPairs t v).HCM = o.HCM ∧ (o.setPairs t v).VCM = o.VCM := by
  unfold Ords.setPairs; split
  · simp
  · split <;> simp

theorem Ords.pairs_setPairs {o : Ords} {t t' : String} {v : List (Nat × Nat)} (ht : t ∈ supportTypes)
    (ht' : t' ∈ supportTypes) : (o.setPairs t v).pairs t' = if t' = t then v else o.pairs t' := by
  simp only [supportTypes, List.mem_cons, List.not_mem_nil, or_false] at ht ht'
  rcases ht with rfl | rfl | rfl <;> rcases ht' with rfl | rfl | rfl <;> simp [Ords.setPairs, Ords.pairs]

theorem setSupportSig_apply (i : Nat) (n : String) (v : Attr K) (s : SC K) :
    ∃ s', setSupportSig i n v s = .ok () s' ∧
      ∀ j m, sigma s'.SIG.Support j m = if j = i ∧ m = n then some v else sigma s.SIG.Support j m := by
  refine ⟨_, rfl, fun j m => ?_⟩
  simp only; rw [sigma_set_set]

theorem storeSupportSig_stored {t : String} {pr : Nat × Nat} (hne : pr.1 ≠ pr.2) {kv : String × Attr K} {s s' : SC K}
    (h : storeSupportSig t pr kv s = .ok () s') : StoredAt s'.SIG.Support pr.1 pr.2 (t ++ kv.1) kv.2 := by
  obtain ⟨k, v⟩ := kv
  have hvec : ∀ (w : Attr K), setSupportSig pr.1 (t ++ k) w s = .ok () s' →
      sigma s'.SIG.Support pr.1 (t ++ k) = some w := by
    intro w h
    obtain ⟨s1, h1, hs⟩ := setSupportSig_apply pr.1 (t ++ k) w s
    rw [h1] at h; cases h
    simp [hs]
  have hmat : ∀ (m : List (List K)) (f : List K → Attr K),
      (do let v0 ← lift (idx m 0)
          setSupportSig pr.1 (t ++ k) (f v0)
          let v1 ← lift (idx m 1)
          setSupportSig pr.2 (t ++ k) (f v1) : Py (SC K) Unit) s = .ok () s' →
      ∃ x y, m[0]? = some x ∧ m[1]? = some y ∧ sigma s'.SIG.Support pr.1 (t ++ k) = some (f x) ∧
        sigma s'.SIG.Support pr.2 (t ++ k) = some (f y) := by
    intro m f h
    simp only [bind_eq_ok, lift_eq_ok, idx_eq_ok] at h
    obtain ⟨x, s0, ⟨hx, e0⟩, ⟨⟩, s1, h1, y, s2, ⟨hy, e2⟩, h2⟩ := h
    obtain ⟨s1', h1', hs1⟩ := setSupportSig_apply pr.1 (t ++ k) (f x) s0
    rw [h1'] at h1; cases h1
    obtain ⟨s2', h2', hs2⟩ := setSupportSig_apply pr.2 (t ++ k) (f y) s2
    rw [← e2] at hs1
    rw [h2'] at h2; cases h2
    exact ⟨x, y, hx, hy, by simp [hs2, hs1, hne], by simp [hs2]⟩
  cases v with
  | vec v => exact hvec _ h
  | mat m => exact hmat m .vec h
  | pair a c =>
    cases a with
    | vec v => exact hvec _ h
    | mat m => exact hmat m (fun v => .pair (.vec v) c) h
    | _ => exact absurd h (by simp [storeSupportSig])
  | _ => exact absurd h (by simp [storeSupportSig])

theorem storedAt_congr {d d' : Dict Nat (Kwargs K)} {a b : Nat} {n : String} {v : Attr K}
    (ha : sigma d' a n = sigma d a n) (hb : sigma d' b n = sigma d b n) (h : StoredAt d a b n v) : StoredAt d' a b n v := by
  unfold StoredAt at h ⊢
  split <;> simp_all

theorem nodup_zip_disjoint {as bs : List Nat} (hnd : (as ++ bs).Nodup) {p q : Nat × Nat} (hp : p ∈ as.zip bs)
    (hq : q ∈ as.zip bs) (hne : p ≠ q) : p.1 ≠ p.2 ∧ p.1 ≠ q.1 ∧ p.1 ≠ q.2 ∧ p.2 ≠ q.1 ∧ p.2 ≠ q.2 := by
  rw [List.nodup_append] at hnd
  obtain ⟨ha, hb, hd⟩ := hnd
  have hp' := List.of_mem_zip (a := p.1) (b := p.2) hp
  have hq' := List.of_mem_zip (a := q.1) (b := q.2) hq
  refine ⟨hd _ hp'.1 _ hp'.2, ?_, hd _ hp'.1 _ hq'.2, (hd _ hq'.1 _ hp'.2).symm, ?_⟩
  all_goals
    intro h
    apply hne
    rw [List.mem_iff_getElem] at hp hq
    obtain ⟨i, hi, hpi⟩ := hp
    obtain ⟨j, hj, hqj⟩ := hq
    rw [List.getElem_zip] at hpi hqj
    rw [← hpi, ← hqj] at h
    simp only at h
  · have hij := (List.Nodup.getElem_inj_iff ha).1 h
    subst hij; rw [← hpi, ← hqj]
  · have hij := (List.Nodup.getElem_inj_iff hb).1 h
    subst hij; rw [← hpi, ← hqj]

theorem supportLoops_stored {as bs : List Nat} (hnd : (as ++ bs).Nodup) {t : String} {kw : Kwargs K}
    (hk : kw.keys.Nodup) {s s' : SC K} (h : supportLoops [as, bs] t kw s = .ok () s') :
    ∀ p ∈ as.zip bs, ∀ kv ∈ kw, StoredAt s'.SIG.Support p.1 p.2 (t ++ kv.1) kv.2 := by
  unfold supportLoops at h
  rw [bind_eq_ok] at h
  obtain ⟨⟨⟩, s1, -, h⟩ := h
  simp only [List.getD_cons_zero, List.getD_cons_succ] at h
  refine forEach_post (I := fun _ => True) (P := fun p s => ∀ kv ∈ kw, StoredAt s.SIG.Support p.1 p.2 (t ++ kv.1) kv.2)
    (fun _ _ _ _ _ => trivial) ?_ ?_ h trivial
  · intro p hp s s' _ h
    have hne : p.1 ≠ p.2 := by
      rw [List.nodup_append] at hnd
      have hp' := List.of_mem_zip (a := p.1) (b := p.2) hp
      exact hnd.2.2 _ hp'.1 _ hp'.2
    refine forEach_post (I := fun _ => True) (P := fun kv s => StoredAt s.SIG.Support p.1 p.2 (t ++ kv.1) kv.2)
      (fun _ _ _ _ _ => trivial) (fun kv _ s s' _ h => storeSupportSig_stored hne h) ?_ h trivial
    intro kv hkv kv' hkv' s s' _ hne' hst h
    have hfr := storeSupportSig_frame t p kv s
    rw [h] at hfr
    have hn : t ++ kv'.1 ≠ t ++ kv.1 := by
      intro he
      have he' : kv'.1 = kv.1 := by
        have := congrArg String.toList he
        simp only [String.toList_append, List.append_cancel_left_eq] at this
        exact String.toList_inj.1 this
      apply hne'
      rw [Dict.keys] at hk
      exact List.inj_on_of_nodup_map hk hkv hkv' he'.symm
    exact storedAt_congr (hfr.support _ _ (fun hw => hn hw.1)) (hfr.support _ _ (fun hw => hn hw.1)) hst
  · intro p hp q hq s s' _ hne hst h kv hkv
    have hfr : SigFrame (fun i _ => i = p.1 ∨ i = p.2) s s' := by
      have := Rels.forEach (R := SigFrame (fun i _ => i = p.1 ∨ i = p.2)) (l := kw) (f := storeSupportSig t p)
        (fun kv _ => Rel.mono (fun s s' h => h.mono (by rintro i n ⟨-, rfl | ⟨rfl, -⟩⟩ <;> simp))
          (storeSupportSig_frame t p kv)) s
      rw [h] at this; exact this
    obtain ⟨-, h1, h2, h3, h4⟩ := nodup_zip_disjoint hnd hp hq hne
    refine storedAt_congr (hfr.support _ _ ?_) (hfr.support _ _ ?_) (hst kv hkv) <;> simp [h1.symm, h2.symm, h3.symm, h4.symm]

/-! ### Names -/

theorem onlyNames_sigUpdate {d : Dict Nat (Kwargs K)} {A : List String} (h : OnlyNames d A) {i : Nat} {kw : Kwargs K}
    (hk : ∀ k ∈ kw.keys, k ∈ A) : OnlyNames (sigUpdate d i kw) A := by
  intro j n v hv
  unfold sigUpdate at hv
  rw [sigma_set] at hv
  split at hv
  · have hm : n ∈ Dict.keys ((((d.get? i).getD []) : Kwargs K).update kw) := by
      rw [← Dict.get?_isSome_iff, hv]; rfl
    rw [Dict.mem_keys_update] at hm
    rcases hm with hm | hm
    · cases hd : d.get? i with
      | none => rw [hd] at hm; simp [Dict.keys] at hm
      | some e =>
        rw [hd] at hm
        rw [← Dict.get?_isSome_iff] at hm
        obtain ⟨w, hw⟩ := Option.isSome_iff_exists.1 hm
        exact h i n w (by unfold sigma; rw [hd]; exact hw)
    · exact hk n hm
  · exact h j n v hv

theorem singleEntries_set {d : Dict Nat (Kwargs K)} (h : SingleEntries d) {i : Nat} {e : Kwargs K} (he : e.keys.Nodup) :
    SingleEntries (d.set i e) := by
  refine ⟨Dict.keys_nodup_set h.1 _ _, fun j f hf => ?_⟩
  rw [Dict.get?_set] at hf
  split at hf
  · cases hf; exact he
  · exact h.2 j f hf

/-- an invariant of the uncertainties carries over to the whole state -/
abbrev WR (s : SC K) : Prop := WellRegistered s.SIG

theorem WR.of_sig {s s' : SC K} (h : s'.SIG = s.SIG) (hn : WR s) : WR s' := by unfold WR; rw [h]; exact hn

theorem setSupportSig_WR {i : Nat} {n : String} {v : Attr K} (hn : n ∈ ["SectionOffset", "SectionRoll", "PlinthOffset",
    "PlinthRoll", "GirderOffset", "GirderRoll"]) : Rel (fun s s' : SC K => WR s → WR s') (setSupportSig i n v) := by
  unfold setSupportSig modSig
  refine Rels.modify (fun s h => ?_)
  refine { h with supportNames := ?_, supportSingle := ?_ }
  · intro j m w hw
    simp only at hw
    rw [sigma_set_set] at hw
    split at hw
    · rename_i hc; rw [hc.2]; exact hn
    · exact h.supportNames j m w hw
  · refine singleEntries_set h.supportSingle (Dict.keys_nodup_set ?_ _ _)
    cases hd : s.SIG.Support.get? i with
    | none => exact List.nodup_nil
    | some e => exact h.supportSingle.2 i e hd

theorem supportLoops_WR {rows : List (List Nat)} {t : String} {kw : Kwargs K} (ht : t ∈ supportTypes)
    (hk : ∀ k ∈ kw.keys, k ∈ supportErrorFields) :
    Rel (fun s s' : SC K => WR s → WR s') (supportLoops rows t kw) := by
  unfold supportLoops initSupport modSig
  refine Rels.bind (Rels.forEach (fun x _ => Rels.bind (Rels.setAttr (fun _ => WR.of_sig rfl)) (fun _ =>
    Rels.bind (Rels.setAttr (fun _ => WR.of_sig rfl)) (fun _ => Rels.modify (fun s h => ?_))))) (fun _ =>
    Rels.forEach (fun pr _ => Rels.forEach (fun kv hkv => ?_)))
  · refine { h with supportNames := ?_, supportSingle := singleEntries_set h.supportSingle List.nodup_nil }
    intro j m w hw
    simp only at hw
    rw [sigma_set] at hw
    split at hw
    · simp [Dict.get?] at hw
    · exact h.supportNames j m w hw
  · have hm : t ++ kv.1 ∈ ["SectionOffset", "SectionRoll", "PlinthOffset", "PlinthRoll", "GirderOffset", "GirderRoll"] := by
      have hk' := hk kv.1 (by simp only [Dict.keys, List.mem_map]; exact ⟨kv, hkv, rfl⟩)
      simp only [supportTypes, supportErrorFields, List.mem_cons, List.not_mem_nil, or_false] at ht hk'
      rcases ht with rfl | rfl | rfl <;> rcases hk' with h | h <;> rw [h] <;> decide
    unfold storeSupportSig
    split
    · exact setSupportSig_WR hm
    · exact Rels.bind (Rels.lift _) (fun _ => Rels.bind (setSupportSig_WR hm) (fun _ =>
        Rels.bind (Rels.lift _) (fun _ => setSupportSig_WR hm)))
    · exact setSupportSig_WR hm
    · exact Rels.bind (Rels.lift _) (fun _ => Rels.bind (setSupportSig_WR hm) (fun _ =>
        Rels.bind (Rels.lift _) (fun _ => setSupportSig_WR hm)))
    · exact Rels.throw _

theorem WR.call (c : RegCall K) (s : SC K) (hn : WR s) : WR (c.run s).state := by
  cases c with
  | bpms o kw =>
    change WR (registerBpms o kw s).state
    unfold registerBpms registerBpm1 modSig modOrd
    cases hc : checkKwargs kw bpmErrorFields with
    | error e => exact hn
    | ok u =>
      have hk := checkKwargs_eq_ok.1 hc
      refine (Rels.bind (R := fun s s' : SC K => WR s → WR s') (Rels.lift _) (fun _ => ?_)) s hn
      rels
      · exact WR.of_sig rfl
      · intro h; exact { h with bpmNames := onlyNames_sigUpdate h.bpmNames hk, bpmSingle := sigUpdate_single h.bpmSingle }
      · exact WR.of_sig rfl
  | cavities o kw =>
    change WR (registerCavities o kw s).state
    unfold registerCavities registerCavity1 registerRfField modSig modOrd
    cases hc : checkKwargs kw rfErrorFields with
    | error e => exact hn
    | ok u =>
      have hk := checkKwargs_eq_ok.1 hc
      have hrf : rfErrorFields = ["VoltageSetpoint", "VoltageOffset", "VoltageCalError", "FrequencySetpoint",
        "FrequencyOffset", "FrequencyCalError", "TimeLagSetpoint", "TimeLagOffset", "TimeLagCalError"] := by decide +kernel
      rw [hrf] at hk
      refine (Rels.bind (R := fun s s' : SC K => WR s → WR s') (Rels.lift _) (fun _ => ?_)) s hn
      rels
      · exact WR.of_sig rfl
      · intro h; exact { h with rfNames := onlyNames_sigUpdate h.rfNames hk, rfSingle := sigUpdate_single h.rfSingle }
      · exact WR.of_sig rfl
      · exact WR.of_sig rfl
      · exact WR.of_sig rfl
  | magnets o kw =>
    change WR (registerMagnets o kw s).state
    unfold registerMagnets modOrd
    cases hc : checkKwargs kw (magnetTypeFields ++ magnetErrorFields) with
    | error e => exact hn
    | ok u =>
      have hk := checkKwargs_eq_ok.1 hc
      refine (Rels.bind (R := fun s s' : SC K => WR s → WR s') (Rels.lift _) (fun _ => ?_)) s hn
      refine Rels.bind (Rels.modify (fun _ => WR.of_sig rfl)) (fun _ => Rels.forEach (fun x _ => ?_))
      rw [registerMagnet1_eq]
      refine Rels.bind (Rels.modify (fun s h => ?_)) (fun _ => ?_)
      · refine { h with magnetNames := onlyNames_sigUpdate h.magnetNames ?_, magnetSingle := sigUpdate_single h.magnetSingle }
        intro k hk'
        simp only [Dict.keys, List.mem_map, List.mem_filter, decide_eq_true_eq] at hk'
        obtain ⟨p, ⟨hp, hpt⟩, rfl⟩ := hk'
        have := hk p.1 (by simp only [Dict.keys, List.mem_map]; exact ⟨p, hp, rfl⟩)
        simp only [List.mem_append] at this
        rcases this with h | h
        · exact absurd h hpt
        · exact h
      · intro s h
        exact WR.of_sig (registerMagnetElem_frame o kw x s).sig h
  | supports r t kw =>
    change WR (registerSupports r t kw s).state
    rcases registerSupports_shape r t kw s with ⟨e, he⟩ | ⟨ht, hk, -, new, -, he⟩
    · rw [he]; exact hn
    · rw [he]; exact supportLoops_WR ht hk _ hn

theorem wellRegistered_registrations (calls : List (RegCall K)) (s : SC K) (h : WellRegistered s.SIG) :
    WellRegistered (registrations calls s).SIG := by
  unfold registrations
  induction calls generalizing s with
  | nil => exact h
  | cons c cs ih => exact ih _ (WR.call c s h)

theorem wellRegistered_init (ring : Ring K) (rng : Nat) : WellRegistered (SC.init ring rng).SIG := by
  constructor <;> first
    | exact ⟨List.nodup_nil, fun i e h => by simp [SC.init, Sigs.default, Dict.get?] at h⟩
    | intro i n v h; simp [SC.init, Sigs.default, sigma, Dict.get?] at h

/-! ### options -/

/-- two attributes only the options change -/
structure OptRel (kw : Kwargs K) (s s' : SC K) : Prop where
  master : "MasterOf" ∉ kw.keys → ∀ i, s'.RING.attr i "MasterOf" = s.RING.attr i "MasterOf"
  cf : ∀ i, s'.RING.attr i "CombinedFunction" = s.RING.attr i "CombinedFunction" ∨
    s'.RING.attr i "CombinedFunction" = some (.flag true)

instance (kw : Kwargs K) : PreRel (OptRel kw) :=
  ⟨fun _ => ⟨fun _ _ => rfl, fun _ => Or.inl rfl⟩, fun _ _ _ h1 h2 =>
    ⟨fun hk i => (h2.master hk i).trans (h1.master hk i), fun i => by
      rcases h2.cf i with h | h
      · rw [h]; exact h1.cf i
      · exact Or.inr h⟩⟩

theorem OptRel.set {kw : Kwargs K} {s : SC K} {i : Nat} {a : String} {v : Attr K} (h1 : a ≠ "MasterOf")
    (h2 : a ≠ "CombinedFunction") : OptRel kw s { s with RING := s.RING.setAttr i a v } :=
  ⟨fun _ _ => Ring.attr_setAttr_ne h1.symm, fun _ => Or.inl (Ring.attr_setAttr_ne h2.symm)⟩

theorem registerMagnet1_opt (ords : List Nat) (kw : Kwargs K) (ind : Nat) :
    Rel (OptRel kw) (registerMagnet1 ords kw ind) := by
  unfold registerMagnet1 registerZeros addPolynom modSig
  rels
  · exact ⟨fun _ _ => rfl, fun _ => Or.inl rfl⟩
  · rename_i ab hab _ f hf _
    simp only [List.mem_cons, List.not_mem_nil, or_false] at hab hf
    rcases hab with rfl | rfl <;> rcases hf with rfl | rfl | rfl <;> exact OptRel.set (by decide) (by decide)
  · exact OptRel.set (by decide) (by decide)
  · exact OptRel.set (by decide) (by decide)
  · exact OptRel.set (by decide) (by decide)
  · exact OptRel.set (by decide) (by decide)
  · rename_i p hp _
    refine OptRel.set ?_ ?_ <;> intro h <;> simp [magnetInit] at hp <;>
      rcases hp with rfl | rfl | rfl | rfl | rfl | rfl <;> simp at h
  · unfold optionalMagnetFields ensureCMlimit setCMlimit
    refine Rels.bind (Rels.withKey (fun _ => ?_)) (fun _ => Rels.bind ?_ (fun _ => Rels.bind (Rels.withKey (fun _ => ?_))
      (fun _ => Rels.bind (Rels.withKey (fun _ => ?_)) (fun _ => Rels.bind (Rels.withKey (fun _ => ?_))
      (fun _ => ?_)))))
    · refine Rels.bind (Rels.rd _) (fun _ s => ⟨fun _ _ => Ring.attr_setAttr_ne (by decide), fun i => ?_⟩)
      change (Ring.setAttr s.RING ind "CombinedFunction" (.flag true)).attr i "CombinedFunction" = _ ∨ _
      change _ ∨ (Ring.setAttr s.RING ind "CombinedFunction" (.flag true)).attr i "CombinedFunction" = _
      rw [Ring.attr_setAttr]
      by_cases hi : i = ind
      · subst hi
        by_cases hl : i < s.RING.length
        · right; simp [hl]
        · left
          rw [if_pos ⟨rfl, rfl⟩, if_neg hl, Ring.attr, List.getElem?_eq_none (not_lt.1 hl)]; rfl
      · left; simp [hi]
    · rels; exact OptRel.set (by decide) (by decide)
    · rels; exact OptRel.set (by decide) (by decide)
    · rels; exact OptRel.set (by decide) (by decide)
    · rels; exact OptRel.set (by decide) (by decide)
    · by_cases hk : "MasterOf" ∈ kw.keys
      · refine Rels.withKey (fun _ => ?_)
        rels
        exact ⟨fun h => absurd hk h, fun _ => Or.inl (Ring.attr_setAttr_ne (by decide))⟩
      · unfold withKey
        rw [Dict.get?_eq_none_iff.2 hk]
        exact Rels.pure' _

theorem registerMagnets_options {ords : List Nat} {kw : Kwargs K} {s s' : SC K}
    (h : registerMagnets ords kw s = .ok () s') (i : Nat) :
    ("MasterOf" ∉ kw.keys → s'.RING.attr i "MasterOf" = s.RING.attr i "MasterOf") ∧
    (s'.RING.attr i "CombinedFunction" = s.RING.attr i "CombinedFunction" ∨
      s'.RING.attr i "CombinedFunction" = some (.flag true)) := by
  have : Rel (OptRel kw) (registerMagnets ords kw) := by
    unfold registerMagnets modOrd
    rels
    · exact ⟨fun _ _ => rfl, fun _ => Or.inl rfl⟩
    · exact registerMagnet1_opt _ _ _
  have h' := this.ok h
  exact ⟨fun hk => h'.master hk i, h'.cf i⟩

end PySC
