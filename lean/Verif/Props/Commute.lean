import Verif.Lemmas.CommuteSwap
import Verif.Props.History
/-
C91: calls which concern different elements of the machine do not notice each other.
-/
namespace PySC
set_option linter.unusedSectionVars false
variable {K : Type} [Field K] [LinearOrder K] [FloorRing K]
open Py Spec

theorem tidy_after (W : World K) (c : Call K) {s : SC K} (h : Tidy s.ORD) : Tidy (c.run W s).state.ORD :=
  call_tidy W c s h (fun r _ => C01_lists_stay_sorted [r] s h)

/-- **C91**, two calls: each ends in the same way whether or not the other one was made before it, and the machine reached
is the same in both orders.  Exceptions are included: the caller catches them, what was changed before stays changed. -/
theorem C91_two_calls (W : World K) (c d : Call K) (s : SC K) (ht : Tidy s.ORD) (h : Apart s c d) :
    (d.run W (c.run W s).state).err? = (d.run W s).err? ∧ (c.run W (d.run W s).state).err? = (c.run W s).err? ∧
    Alike (history W [c, d] s) (history W [d, c] s) := by
  obtain ⟨h1, h2, h3, h4⟩ := h.swap W
  exact ⟨h1, h2, alike_of (tidy_after W d (tidy_after W c ht)) (tidy_after W c (tidy_after W d ht)) h3 h4⟩

theorem alike_history (W : World K) {l : List (Call K)} (hl : ∀ c ∈ l, ∃ o, c.named = some o) {s t : SC K} (hs : Tidy s.ORD)
    (h : Alike s t) : Alike (history W l s) (history W l t) ∧ report W l s = report W l t := by
  induction l generalizing s t with
  | nil => exact ⟨h, rfl⟩
  | cons c cs ih =>
    obtain ⟨o, ho⟩ := hl c (by simp)
    obtain ⟨h1, h2, h3⟩ := alike_call W ho h
    have hA := alike_of (tidy_after W c hs) (tidy_after W c (h.ord ▸ hs)) h2 h3
    obtain ⟨k1, k2⟩ := ih (fun d hd => hl d (by simp [hd])) (tidy_after W c hs) hA
    exact ⟨k1, by simp only [report]; rw [h1, k2]⟩

/-- **C91**, any number of calls: in whatever order calls which concern different elements are made, each raises the same
exception (or none), and the machine reached is the same. -/
theorem C91_any_order (W : World K) (l l' : List (Call K)) (s : SC K) (ht : Tidy s.ORD) (hl : l.Pairwise (Apart s))
    (hp : l.Perm l') : Alike (history W l s) (history W l' s) ∧ (report W l s).Perm (report W l' s) := by
  induction hp generalizing s with
  | nil => exact ⟨Alike.refl s, .nil⟩
  | cons c _ ih =>
    rw [List.pairwise_cons] at hl
    obtain ⟨h1, h2⟩ := ih (c.run W s).state (tidy_after W c ht)
      (hl.2.imp_of_mem (fun hd he h => h.after (hl.1 _ hd) (hl.1 _ he)))
    exact ⟨h1, h2.cons _⟩
  | swap c d l =>
    rw [List.pairwise_cons, List.pairwise_cons] at hl
    obtain ⟨hd, hc, -⟩ := hl
    obtain ⟨h1, h2, h3⟩ := C91_two_calls W d c s ht (hd c (by simp))
    obtain ⟨k1, k2⟩ := alike_history W (l := l) (fun e he => by
      obtain ⟨_, o, _, ho, _⟩ := hc e he; exact ⟨o, ho⟩) (tidy_after W c (tidy_after W d ht)) h3
    refine ⟨k1, ?_⟩
    simp only [report]
    rw [h1, h2, show report W l (c.run W (d.run W s).state).state = report W l (d.run W (c.run W s).state).state from k2]
    exact .swap _ _ _
  | trans p q ih1 ih2 =>
    obtain ⟨h1, h2⟩ := ih1 s ht hl
    obtain ⟨k1, k2⟩ := ih2 s ht ((p.pairwise_iff (fun h => h.symm)).1 hl)
    exact ⟨h1.trans k1, h2.trans k2⟩

/-- **C91**, reading: the set-points of correctors read by `get_cm_setpoints` are not influenced by a call which concerns
other elements. -/
theorem C91_reading (W : World K) (c : Call K) (s : SC K) (ords : List Nat) (skewness : Bool)
    (h : Apart s c (.getCM ords skewness)) :
    (getCMSetpoints ords skewness (c.run W s).state).value? = (getCMSetpoints ords skewness s).value? := by
  obtain ⟨o, p, hc, hp, hd⟩ := h
  simp only [Call.named, Option.some.injEq] at hp
  subst hp
  obtain ⟨o', ho', hm⟩ := call_loc W hc (S := Concerned s o) (fun i hi => Or.inl hi)
  have hn : Loc [] (Concerned s ords) (fun _ => True) (getCMSetpoints (K := K) ords skewness) :=
    getCMSetpoints_loc (fun i hi => Or.inl hi) _
  exact (Loc.swap hm hn hd (kids_concerned ho' s) (Kids.nil s)).1

/-! ### C91, one call for several correctors -/

theorem checkInput_full {m : String} {l : List Nat} {sp : NpArr K} (h : sp.vals.length = l.length) :
    checkInput m l sp = if m ∉ settingMethods then .error .valueError else .ok sp := by
  unfold checkInput
  by_cases hm : m ∉ settingMethods
  · rw [if_pos hm, if_pos hm]
  · rw [if_neg hm, if_neg hm, if_neg (by omega)]
    split
    · rename_i h1
      obtain ⟨b, v⟩ := sp
      match v, h1 with
      | [x], _ => simp only at h; rw [← h]; rfl
    · rfl

theorem ok_of_value {σ α : Type _} {r : Res σ α} {a : α} (h : r.value? = some a) : r = .ok a r.state := by
  cases r with
  | ok b s => simp only [Res.value?, Option.some.injEq] at h; subst h; rfl
  | error e s => simp [Res.value?] at h

/-- **C91**, one call for several correctors does the same as two calls, one for the first and one for the other
correctors, provided these are different (also in their children): all methods (`abs`, `rel`, `add`), clipping included. -/
theorem C91_split_set_cm (l1 l2 : List Nat) (b : Bool) (v1 v2 : List K) (skewness : Bool) (method : String) (s s' : SC K)
    (ht : Tidy s.ORD) (h1 : v1.length = l1.length) (h2 : v2.length = l2.length)
    (hd : ∀ i, ¬ (Concerned s l1 i ∧ Concerned s l2 i))
    (h : setCMSetpoints (l1 ++ l2) ⟨b, v1 ++ v2⟩ skewness method s = .ok () s') :
    ∃ s1 s2, setCMSetpoints l1 ⟨b, v1⟩ skewness method s = .ok () s1 ∧ setCMSetpoints l2 ⟨b, v2⟩ skewness method s1 = .ok () s2 ∧
      Alike s' s2 := by
  have h0 := h
  unfold setCMSetpoints at h
  rw [checkInput_full (by simp [h1, h2])] at h
  by_cases hm : method ∉ settingMethods
  · rw [if_pos hm] at h; cases h
  rw [if_neg hm, bindLift_eq_ok] at h
  obtain ⟨_, he, h⟩ := h
  cases he
  dsimp only at h
  rw [bind_eq_ok] at h
  obtain ⟨⟨⟩, sb, hab, h⟩ := h
  rw [List.zip_append h1.symm, forEach_append, bind_eq_ok] at hab
  obtain ⟨⟨⟩, sa, ha, hb⟩ := hab
  change forEach (l1 ++ l2) updateMagnetAndChildren sb = .ok () s' at h
  rw [forEach_append, bind_eq_ok] at h
  obtain ⟨⟨⟩, sc, hc, hdd⟩ := h
  have lS : ∀ i ∈ l1, Concerned s l1 i := fun i hi => Or.inl hi
  have lT : ∀ i ∈ l2, Concerned s l2 i := fun i hi => Or.inl hi
  have kS := kids_concerned (o := l1) (o' := l1) (fun _ h => h) s
  have kT := kids_concerned (o := l2) (o' := l2) (fun _ h => h) s
  have locA : Loc l1 (Concerned s l1) (fun _ => True) (forEach (l1.zip v1) (fun p => setCM1 skewness method b p.1 p.2)) :=
    Loc.forEach (fun p hp => setCM1_loc (lS _ (List.of_mem_zip hp).1) _ _ _ _)
  have locB : Loc l2 (Concerned s l2) (fun _ => True) (forEach (l2.zip v2) (fun p => setCM1 skewness method b p.1 p.2)) :=
    Loc.forEach (fun p hp => setCM1_loc (lT _ (List.of_mem_zip hp).1) _ _ _ _)
  have locC : Loc l1 (Concerned s l1) (fun _ => True) (forEach l1 (updateMagnetAndChildren (K := K))) :=
    Loc.forEach (fun i hi => updateMagnetAndChildren_loc hi lS)
  have kSa : Kids l1 (Concerned s l1) sa := by
    have := locA s s kS (AgreeOn.refl _ s)
    rw [ha] at this
    exact this.2.2.1
  have kTa : Kids l2 (Concerned s l2) sa := by
    have := (locA.outcome kS (AgreeOn.refl _ s)).2.2.2.1
    rw [ha] at this
    exact kT.congr (this.agree hd)
  obtain ⟨w1, -, w3, -, w5, w6⟩ := Loc.swap locC locB hd kSa kTa
  rw [hb] at w3 w5 w6
  have hc0 := ok_of_value (w3.symm.trans (by rw [Res.state, hc]; rfl) : _ = some ())
  have hb1 := ok_of_value (w1.trans (by rw [hb]; rfl) : _ = some ())
  rw [Res.state, hc] at w5 w6
  generalize (forEach l1 updateMagnetAndChildren sa).state = t1 at *
  generalize (forEach (l2.zip v2) (fun p => setCM1 skewness method b p.1 p.2) t1).state = t2 at *
  have e1 : setCMSetpoints l1 ⟨b, v1⟩ skewness method s = .ok () t1 := by
    unfold setCMSetpoints
    rw [checkInput_full h1, if_neg hm, bindLift_eq_ok]
    exact ⟨_, rfl, bind_eq_ok.2 ⟨(), sa, ha, hc0⟩⟩
  have locD : Loc l2 (fun _ => True) (fun _ => True) (forEach l2 (updateMagnetAndChildren (K := K))) :=
    Loc.forEach (fun i hi => updateMagnetAndChildren_loc hi (fun _ _ => trivial))
  obtain ⟨x1, -, x3, x4, x5⟩ := locD.outcome (kids_all l2 sc) (t := t2) (fun i _ => (w5 i).symm)
  have hd2 := ok_of_value (x1.symm.trans (by rw [hdd]; rfl) : _ = some ())
  rw [hdd] at x3 x4
  have e2 : setCMSetpoints l2 ⟨b, v2⟩ skewness method t1 = .ok () (forEach l2 updateMagnetAndChildren t2).state := by
    unfold setCMSetpoints
    rw [checkInput_full h2, if_neg hm, bindLift_eq_ok]
    exact ⟨_, rfl, bind_eq_ok.2 ⟨(), t2, hb1, hd2⟩⟩
  refine ⟨_, _, e1, e2, alike_of ?_ ?_ (fun i => x3 i trivial) (x4.whole.symm.trans (w6.symm.trans x5.whole))⟩
  · rw [((setCMSetpoints_hk _ _ _ _).ok h0).ord]; exact ht
  · rw [((setCMSetpoints_hk _ _ _ _).ok e2).ord, ((setCMSetpoints_hk _ _ _ _).ok e1).ord]; exact ht

/-! ### examples -/

/-- the elements concerned, as a list -/
def concernedList (s : SC K) (o : List Nat) : List Nat :=
  o ++ o.flatMap (fun m => match s.RING.attr m "MasterOf" with | some (.ords l) => l | _ => [])

theorem mem_concernedList {s : SC K} {o : List Nat} {i : Nat} : i ∈ concernedList s o ↔ Concerned s o i := by
  unfold concernedList Concerned
  rw [List.mem_append, List.mem_flatMap]
  refine or_congr_right ⟨fun ⟨m, hm, h⟩ => ?_, fun ⟨m, hm, l, hl, hi⟩ => ⟨m, hm, by rw [hl]; exact hi⟩⟩
  split at h
  · exact ⟨m, hm, _, by assumption, h⟩
  · simp at h

theorem apart_of {s : SC K} {c d : Call K} {o p : List Nat} (hc : c.named = some o) (hd : d.named = some p)
    (h : ∀ i ∈ concernedList s o, i ∉ concernedList s p) : Apart s c d :=
  ⟨o, p, hc, hd, fun i hi => h i (mem_concernedList.2 hi.1) (mem_concernedList.2 hi.2)⟩

/-- a machine whose quadrupole 2 drives dipole 3; element 1 is a corrector, 0 a BPM -/
def Example.driven : SC ℚ :=
  registrations [.magnets [1] [("HCM", .num (1/1000)), ("VCM", .num (1/1000))], .magnets [2] [("MasterOf", .ordMat [[3]])],
    .bpms [0] []] Example.raw

/-- calls which concern different elements; the call for the cavity, which is not registered, fails -/
def Example.separate : List (Call ℚ) :=
  [.setMagnet [2] ⟨false, [1/2]⟩ false 1 "rel" true, .setCM [1] ⟨false, [1/300]⟩ true "add", .setCavity [4] ⟨false, [1]⟩ "Voltage" "add",
   .register (.bpms [0] [("Noise", .vec [1, 1])]), .register (.magnets [6] [])]

theorem Example.separate_apart : Example.separate.Pairwise (Apart Example.driven) := by
  unfold Example.separate
  simp only [List.pairwise_cons, List.mem_cons, List.not_mem_nil, or_false, forall_eq_or_imp, forall_eq, List.Pairwise.nil,
    and_true, IsEmpty.forall_iff, implies_true]
  refine ⟨⟨?_, ?_, ?_, ?_⟩, ⟨?_, ?_, ?_⟩, ⟨?_, ?_⟩, ?_⟩ <;> exact apart_of rfl rfl (by decide +kernel)

example : Tidy Example.driven.ORD ∧ Example.separate.Pairwise (Apart Example.driven) ∧
    Example.separate.Perm Example.separate.reverse ∧
    (report Example.world Example.separate Example.driven).map Prod.snd =
      [none, none, some .attributeError, none, some .attributeError] ∧
    (history Example.world Example.separate Example.driven).RING.attr 3 "PolynomB" ≠ Example.driven.RING.attr 3 "PolynomB" ∧
    (history Example.world Example.separate Example.driven).RING.attr 1 "SetPointA" = some (.vec [1/1000]) :=
  ⟨C01_lists_of_new_object _ _ _, Example.separate_apart, (List.reverse_perm _).symm, by decide +kernel, by decide +kernel,
   by decide +kernel⟩

/-- **C91** is sharp: two calls for the same element, in different roles, do not commute -/
theorem C91_same_element : (history Example.world [.register (.bpms [1] []), .register (.magnets [1] [])] Example.raw).RING.attr 1 "SupportOffset"
      = some (.vec [0, 0, 0]) ∧
    (history Example.world [.register (.magnets [1] []), .register (.bpms [1] [])] Example.raw).RING.attr 1 "SupportOffset"
      = some (.vec [0, 0]) := by decide +kernel

/-- **C91** is sharp: the children of a magnet count.  Updating a master overwrites what an update of the child made of it. -/
theorem C91_child : Example.driven.RING.attr 2 "MasterOf" = some (.ords [3]) ∧
    (history Example.world [.register (.magnets [3] []), .updateMagnets (some [2]), .updateMagnets (some [3])] Example.driven).RING.attr 3 "PolynomB"
      ≠ (history Example.world [.register (.magnets [3] []), .updateMagnets (some [3]), .updateMagnets (some [2])] Example.driven).RING.attr 3 "PolynomB" := by
  decide +kernel

example : Tidy Example.driven.ORD ∧ (∀ i, ¬ (Concerned Example.driven [1] i ∧ Concerned Example.driven [2] i)) ∧
    (setCMSetpoints ([1] ++ [2]) ⟨false, [1/2000] ++ [1/3000]⟩ false "add" Example.driven).isOk = true :=
  ⟨C01_lists_of_new_object _ _ _, fun i hi => absurd (mem_concernedList.2 hi.2)
    ((by decide +kernel : ∀ i ∈ concernedList Example.driven [1], i ∉ concernedList Example.driven [2]) i (mem_concernedList.2 hi.1)),
   by decide +kernel⟩

example : Apart Example.driven (.setMagnet [2] ⟨false, [1/2]⟩ false 1 "rel" true) (.getCM [1] true) ∧
    (getCMSetpoints [1] true Example.driven).value? = some [0] := ⟨apart_of rfl rfl (by decide +kernel), by decide +kernel⟩

end PySC
