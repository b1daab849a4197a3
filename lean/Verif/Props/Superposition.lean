import Verif.Lemmas.Superposition
import Verif.Props.Supports
/-
Misalignments of supports superpose (C105).
-/
set_option linter.unusedSectionVars false
namespace PySC
open Py Spec
variable {K : Type} [Field K] [LinearOrder K]

/-- **C105**: if the misalignments of all supports are the sums of two sets of misalignments then at any points of the ring so are the offsets and
rolls (roll, pitch and yaw) due to the supports.  They exist if those for both sets do. -/
theorem C105_support_offset_and_roll (r₁ r₂ r : Ring K) (o : Ords) (locs : List K) (h : Superposed r₁ r₂ r)
    (off₁ roll₁ off₂ roll₂ : List (List K)) (h₁ : supportOffsetAndRoll r₁ o locs = .ok (off₁, roll₁))
    (h₂ : supportOffsetAndRoll r₂ o locs = .ok (off₂, roll₂)) :
    supportOffsetAndRoll r o locs = .ok (plusRows off₁ off₂, plusRows roll₁ roll₂) := by
  obtain ⟨c, hc, hs⟩ := supportOffsetAndRoll_sum h o locs _ _ h₁ h₂
  rw [hc, ← hs.1.plusRows, ← hs.2.plusRows]

/-- **C105**: `update_supports` moves and rolls every registered magnet and BPM by the sum of what it is moved and rolled by for each of the two sets
of misalignments, whatever flags are given. -/
theorem C105_update_supports (E : Env K) (b m : Bool) (s₁ s₂ s t₁ t₂ t : SC K) (h : Superposed s₁.RING s₂.RING s.RING) (ho₁ : s₁.ORD = s.ORD)
    (ho₂ : s₂.ORD = s.ORD) (h₁ : updateSupports E b m s₁ = .ok () t₁) (h₂ : updateSupports E b m s₂ = .ok () t₂)
    (h₃ : updateSupports E b m s = .ok () t) (i : Nat) (hi : (m = true ∧ i ∈ s.ORD.Magnet) ∨ (b = true ∧ i ∈ s.ORD.BPM)) :
    SumOf (t₁.RING.attr i "SupportOffset") (t₂.RING.attr i "SupportOffset") (t.RING.attr i "SupportOffset") ∧
    SumOf (t₁.RING.attr i "SupportRoll") (t₂.RING.attr i "SupportRoll") (t.RING.attr i "SupportRoll") :=
  ⟨updateSupports_sum h ho₁ ho₂ h₁ h₂ h₃ hi (by simp), updateSupports_sum h ho₁ ho₂ h₁ h₂ h₃ hi (by simp)⟩

theorem onlyKinds_attr (ts : List String) (r : Ring K) (i : Nat) (a : String) : (onlyKinds ts r).attr i a =
    if a ∈ misalignments ∧ a ∉ ts.flatMap kindNames then (r.attr i a).map zeroed else r.attr i a := by
  have h : (onlyKinds ts r)[i]? = r[i]?.map (onlyKindsAt ts) := List.getElem?_map ..
  unfold Ring.attr
  rw [h]
  cases r[i]? with
  | none => simp
  | some e => rfl

theorem onlyKinds_length (ts : List String) (r : Ring K) : (onlyKinds ts r).length = r.length := List.length_map ..

theorem zeroed_vec {x : Attr K} {v : List K} : zeroed x = .vec v ↔ ∃ w, x = .vec w ∧ v = w.map (fun _ => 0) := by
  cases x <;> simp [zeroed, eq_comm]

theorem plus_zero (v : List K) : plus v (v.map (fun _ => 0)) = v := by
  unfold plus
  induction v with
  | nil => rfl
  | cons x v ih => rw [List.map_cons, List.zipWith_cons_cons, ih, add_zero]

theorem zero_plus (v : List K) : plus (v.map (fun _ => 0)) v = v := by
  unfold plus
  induction v with
  | nil => rfl
  | cons x v ih => rw [List.map_cons, List.zipWith_cons_cons, ih, zero_add]

/-- different kinds of supports -/
theorem onlyKinds_superposed (ts us : List String) (r : Ring K)
    (hd : ∀ a ∈ misalignments, ¬ (a ∈ ts.flatMap kindNames ∧ a ∈ us.flatMap kindNames)) :
    Superposed (onlyKinds ts r) (onlyKinds us r) (onlyKinds (ts ++ us) r) where
  length₁ := by rw [onlyKinds_length, onlyKinds_length]
  length₂ := by rw [onlyKinds_length, onlyKinds_length]
  same₁ := fun i a ha => by
    have : a ∉ misalignments := by revert a; decide
    rw [onlyKinds_attr, onlyKinds_attr, if_neg (by tauto), if_neg (by tauto)]
  same₂ := fun i a ha => by
    have : a ∉ misalignments := by revert a; decide
    rw [onlyKinds_attr, onlyKinds_attr, if_neg (by tauto), if_neg (by tauto)]
  sum := fun i a ha v w hv hw => by
    rw [onlyKinds_attr] at hv hw ⊢
    have hd := hd a ha
    have hap : a ∈ (ts ++ us).flatMap kindNames ↔ a ∈ ts.flatMap kindNames ∨ a ∈ us.flatMap kindNames := by rw [List.flatMap_append, List.mem_append]
    by_cases h1 : a ∈ ts.flatMap kindNames
    · have h2 : a ∉ us.flatMap kindNames := fun h2 => hd ⟨h1, h2⟩
      rw [if_neg (by tauto)] at hv
      rw [if_pos ⟨ha, h2⟩, hv] at hw
      rw [if_neg (by tauto), hv]
      simp only [Option.map_some, zeroed, Option.some.injEq, Attr.vec.injEq] at hw
      subst hw
      exact ⟨by simp, by rw [plus_zero]⟩
    · by_cases h2 : a ∈ us.flatMap kindNames
      · rw [if_neg (by tauto)] at hw
        rw [if_pos ⟨ha, h1⟩, hw] at hv
        rw [if_neg (by tauto), hw]
        simp only [Option.map_some, zeroed, Option.some.injEq, Attr.vec.injEq] at hv
        subst hv
        exact ⟨by simp, by rw [zero_plus]⟩
      · rw [if_pos ⟨ha, h1⟩] at hv
        rw [if_pos ⟨ha, h2⟩] at hw
        rw [if_pos ⟨ha, by tauto⟩]
        obtain ⟨x, hx, hv⟩ := Option.map_eq_some_iff.1 hv
        rw [hx] at hw ⊢
        obtain ⟨u, rfl, rfl⟩ := zeroed_vec.1 hv
        simp only [Option.map_some, zeroed, Option.some.injEq, Attr.vec.injEq] at hw
        subst hw
        refine ⟨rfl, ?_⟩
        simp [zeroed, plus, List.zipWith_replicate]

theorem onlyKinds_all (r : Ring K) : onlyKinds ["Section", "Plinth", "Girder"] r = r := by
  refine Ring.ext_attr (onlyKinds_length _ _) (fun i a => ?_)
  rw [onlyKinds_attr, if_neg]
  rintro ⟨h1, h2⟩
  revert h1 h2
  revert a
  decide

/-- **C105**: the offsets and rolls due to all supports are the sums of those due to the sections, due to the plinths and due to the girders alone. -/
theorem C105_kinds (r : Ring K) (o : Ords) (locs : List K) (offS rollS offP rollP offG rollG : List (List K))
    (hS : supportOffsetAndRoll (onlyKinds ["Section"] r) o locs = .ok (offS, rollS))
    (hP : supportOffsetAndRoll (onlyKinds ["Plinth"] r) o locs = .ok (offP, rollP))
    (hG : supportOffsetAndRoll (onlyKinds ["Girder"] r) o locs = .ok (offG, rollG)) :
    supportOffsetAndRoll r o locs = .ok (plusRows (plusRows offS offP) offG, plusRows (plusRows rollS rollP) rollG) := by
  have h1 := C105_support_offset_and_roll _ _ _ o locs (onlyKinds_superposed ["Section"] ["Plinth"] r (by decide)) _ _ _ _ hS hP
  have h2 := C105_support_offset_and_roll _ _ _ o locs (onlyKinds_superposed ["Section", "Plinth"] ["Girder"] r (by decide)) _ _ _ _ h1 hG
  rw [show ["Section", "Plinth"] ++ ["Girder"] = ["Section", "Plinth", "Girder"] from rfl, onlyKinds_all] at h2
  exact h2

/-- a lattice with a section, a plinth on it, and a girder on the plinth and across the origin another one -/
def Example.storeys (x y z : ℚ) : Ring ℚ :=
  let m (l a b c : ℚ) : Elem ℚ := Elem.ofList [("FamName", .str "M"), ("PassMethod", .str "IdentityPass"), ("Length", .num l),
    ("MagnetOffset", .vec [0, 0, 0]), ("MagnetRoll", .vec [0, 0, 0]),
    ("SectionOffset", .vec [x * a, x, 0]), ("SectionRoll", .vec [x * b, 0, 0]), ("PlinthOffset", .vec [y * b, y * c, y]),
    ("PlinthRoll", .vec [y, 0, 0]), ("GirderOffset", .vec [z * a, z * c, z]), ("GirderRoll", .vec [z * c, 0, 0])]
  [m 1 1 2 3, m 2 2 0 1, m 1 5 1 0, m 1 0 1 2, m 3 2 2 1]

/-- the machine with this lattice: two magnets and a BPM -/
def Example.storeysSC (x y z : ℚ) : SC ℚ :=
  { Example.sc with RING := Example.storeys x y z, ORD := ⟨[2], [], [1, 3], [], [], [], [(4, 0), (1, 3)], [(1, 3)], [(0, 4)]⟩ }

theorem Example.storeys_superposed (x y z x' y' z' : ℚ) :
    Superposed (Example.storeys x y z) (Example.storeys x' y' z') (Example.storeys (x + x') (y + y') (z + z')) := by
  have five : ∀ (P : Nat → Prop), P 0 → P 1 → P 2 → P 3 → P 4 → (∀ i, P (i + 5)) → ∀ i, P i := by
    intro P h0 h1 h2 h3 h4 h5 i
    match i with
    | 0 => exact h0
    | 1 => exact h1
    | 2 => exact h2
    | 3 => exact h3
    | 4 => exact h4
    | i + 5 => exact h5 i
  refine ⟨rfl, rfl, five _ ?_ ?_ ?_ ?_ ?_ (fun _ _ _ => rfl), five _ ?_ ?_ ?_ ?_ ?_ (fun _ _ _ => rfl), five _ ?_ ?_ ?_ ?_ ?_ (fun _ _ _ _ _ h => by cases h)⟩
  all_goals
    intro a ha
    simp only [misalignments, List.mem_cons, List.not_mem_nil, or_false] at ha
  iterate 10 (rcases ha with rfl | rfl <;> rfl)
  all_goals
    rcases ha with rfl | rfl | rfl | rfl | rfl | rfl <;> intro v w hv hw <;>
    · have hv := Option.some.inj hv
      have hw := Option.some.inj hw
      injection hv with hv
      injection hw with hw
      subst hv hw
      refine ⟨rfl, ?_⟩
      simp [Example.storeys, Ring.attr, Elem.ofList, plus]
      try ring_nf
      try trivial

-- three different misalignments of one ring, the last of them the sum of the others, ...
example : supportOffsetAndRoll (Example.storeys 1 2 3) (Example.storeysSC 1 2 3).ORD [0, 2, 7/2] =
      .ok ([[4, 91/15, 131/30], [10, 23/3, 61/6], [3, 5, 5]], [[5, 10, 10], [2, 5/3, 5/3], [-4/3, -17/15, -17/15]]) := by decide +kernel

-- ... for which `update_supports` succeeds
example : (updateSupports Example.env true true (Example.storeysSC 1 2 3)).isOk ∧ (updateSupports Example.env true true (Example.storeysSC 3 (1/2) 5)).isOk ∧
    (updateSupports Example.env true true (Example.storeysSC (1 + 3) (2 + 1/2) (3 + 5))).isOk ∧ (Example.storeysSC 1 2 3).ORD = (Example.storeysSC 3 (1/2) 5).ORD := by
  decide +kernel

-- sections, plinths and girders alone
example : (["Section", "Plinth", "Girder"].all (fun t =>
    (match supportOffsetAndRoll (onlyKinds [t] (Example.storeys 1 2 3)) (Example.storeysSC 1 2 3).ORD [0, 2, 7/2] with | .ok _ => true | .error _ => false)) &&
      supportOffsetAndRoll (onlyKinds ["Section"] (Example.storeys 1 2 3)) (Example.storeysSC 1 2 3).ORD [0, 2, 7/2] ≠
        supportOffsetAndRoll (onlyKinds ["Plinth"] (Example.storeys 1 2 3)) (Example.storeysSC 1 2 3).ORD [0, 2, 7/2]) = true := by decide +kernel

end PySC
