import Verif.Props.MagnetOptions
import Verif.Props.Correctors
import Verif.Props.Setpoints
import Verif.Lemmas.Orbit
/-
C131: correctors and skew quadrupoles keep to the limits they were registered with.
-/
namespace PySC
set_option linter.unusedSectionVars false
variable {K : Type} [Field K] [LinearOrder K] [IsStrictOrderedRing K] [FloorRing K]
open Py Spec

/-- a step of a session: a registration, or a request to correctors or other magnets -/
inductive LimitStep (K : Type) where
  | register (ords : List Nat) (kw : Kwargs K)
  | request (c : CMCall K)
  | magnets (ords : List Nat) (values : NpArr K) (skew : Bool) (order : Nat) (method : String) (comp : Bool)

/-- the steps lead from one machine to another: registrations succeed, requests may raise and leave what they did behind -/
def LeadsTo : List (LimitStep K) → SC K → SC K → Prop
  | [], s, s' => s' = s
  | .register ords kw :: later, s, s' => ∃ t, registerMagnets ords kw s = .ok () t ∧ LeadsTo later t s'
  | .request c :: later, s, s' => LeadsTo later (setCMSetpoints c.ords c.values c.skew c.method s).state s'
  | .magnets ords values skew order method comp :: later, s, s' => LeadsTo later (setMagnetSetpoints ords values skew order method comp s).state s'

/-- the registrations among the steps -/
def LimitStep.registrations : List (LimitStep K) → List (List Nat × Kwargs K)
  | [] => []
  | .register ords kw :: later => (ords, kw) :: LimitStep.registrations later
  | .request _ :: later => LimitStep.registrations later
  | .magnets .. :: later => LimitStep.registrations later

theorem request_keeps (ords : List Nat) (values : NpArr K) (skew : Bool) (method : String) (s : SC K) (i : Nat) :
    ∀ a ∈ optionalAttrs, (setCMSetpoints ords values skew method s).state.RING.attr i a = s.RING.attr i a := by
  intro a ha
  refine (setCMSetpoints_modifies _ _ _ _ s).attr _ _ ?_
  simp only [optionalAttrs, List.mem_cons, List.not_mem_nil, or_false] at ha
  rintro (⟨-, h⟩ | h)
  · rcases ha with rfl | rfl | rfl | rfl <;> exact ne_setPoint (by simp [spNames]) _ h
  · rcases ha with rfl | rfl | rfl | rfl <;> simp [magnetWrites] at h

theorem magnets_keep (ords : List Nat) (values : NpArr K) (skew : Bool) (order : Nat) (method : String) (comp : Bool) (s : SC K) (i : Nat) :
    ∀ a ∈ optionalAttrs, (setMagnetSetpoints ords values skew order method comp s).state.RING.attr i a = s.RING.attr i a := by
  intro a ha
  refine (setMagnetSetpoints_modifies _ _ _ _ _ _ s).attr _ _ ?_
  simp only [optionalAttrs, List.mem_cons, List.not_mem_nil, or_false] at ha
  rintro (⟨-, h⟩ | h)
  · rcases ha with rfl | rfl | rfl | rfl <;> exact magSP_ne (by simp [spNames]) h
  · rcases ha with rfl | rfl | rfl | rfl <;> simp [magnetWrites] at h

theorem session_options : ∀ (steps : List (LimitStep K)) {s s' : SC K}, LeadsTo steps s s' →
    ∀ i, Options (lastGiven (LimitStep.registrations steps) i) s.RING s'.RING i
  | [], s, s', h, i => by
    cases h
    exact options_none (fun _ => rfl)
  | .register ords kw :: later, s, s', h, i => by
    obtain ⟨t, h1, h2⟩ := h
    have now : Options (fun key => if i ∈ ords then kw.get? key else none) s.RING t.RING i := by
      by_cases hi : i ∈ ords
      · simpa only [if_pos hi] using (C130_options_partial h1 i).1 hi
      · simpa only [if_neg hi] using options_none ((C130_options_partial h1 i).2 hi)
    exact now.trans (session_options later h2 i)
  | .request c :: later, s, s', h, i =>
    (session_options later h i).of_same (fun a ha => (request_keeps _ _ _ _ s i a ha).symm) (fun _ _ => rfl)
  | .magnets .. :: later, s, s', h, i =>
    (session_options later h i).of_same (fun a ha => (magnets_keep _ _ _ _ _ _ s i a ha).symm) (fun _ _ => rfl)

theorem kickLimit_of_limitIn {r : Ring K} {i : Nat} {skew : Bool} {l : Lim K} (h : limitIn r i (if skew then 1 else 0) = some l) :
    kickLimit r i skew = l := by
  unfold limitIn at h
  unfold kickLimit
  split at h
  · rename_i ls e
    rw [e]
    simp only [List.getD_eq_getElem?_getD, h, Option.getD_some]
  · cases h

/-- the name of the option for the correctors of a plane -/
def planeOption (skew : Bool) : String := if skew then "VCM" else "HCM"

/-- **C131**: after any session of registrations and requests in any order, where requests may also fail, a corrector
addressed by a successful request to `set_cm_setpoints` has a kick within the limit it was given last for the plane, whatever
is asked for and with whatever method. -/
theorem C131_given_limit (steps : List (LimitStep K)) {s s1 s2 : SC K} (h : LeadsTo steps s s1)
    {ords : List Nat} {values : NpArr K} {skew : Bool} {method : String}
    (hr : setCMSetpoints ords values skew method s1 = .ok () s2) {i : Nat} (hi : i ∈ ords)
    {v : Attr K} (hv : lastGiven (LimitStep.registrations steps) i (planeOption skew) = some v) {l : Lim K} (hl : asLimit v = some l) :
    Within l (kick s2.RING i skew) := by
  have o := session_options steps h i
  have e : limitIn s1.RING i (if skew then 1 else 0) = some l := by
    cases skew
    · exact o.horizontal.trans (by rw [show lastGiven _ i "HCM" = some v from hv]; exact hl)
    · exact o.vertical.trans (by rw [show lastGiven _ i "VCM" = some v from hv]; exact hl)
  have w := C10_addressed_within ords values skew method _ s2 hr i hi
  have q := request_keeps ords values skew method s1 i "CMlimit" (by simp [optionalAttrs])
  rw [hr] at q
  change s2.RING.attr i "CMlimit" = _ at q
  rw [kickLimit_congr q, kickLimit_of_limitIn e] at w
  exact w

/-- two registrations with requests before, between and after them, the last of which fails -/
def Example.limitSteps : List (LimitStep ℚ) :=
  [.request ⟨[1], ⟨false, [2]⟩, false, "abs"⟩, .register [1, 2] [("HCM", .num 3)], .request ⟨[1], ⟨false, [2]⟩, false, "abs"⟩,
    .magnets [2] ⟨false, [1]⟩ true 1 "abs" false,
    .register [2] [("HCM", .num 4), ("VCM", .lim .inf), ("SkewQuad", .num 2)], .request ⟨[2, 99], ⟨false, [7]⟩, true, "abs"⟩]

/-- the machine after these steps -/
def Example.limited : SC ℚ :=
  let s1 := (registerMagnets [1, 2] [("HCM", .num 3)] (setCMSetpoints [1] ⟨false, [2]⟩ false "abs" Example.raw).state).state
  let s2 := (registerMagnets [2] [("HCM", .num 4), ("VCM", .lim .inf), ("SkewQuad", .num 2)]
    (setMagnetSetpoints [2] ⟨false, [1]⟩ true 1 "abs" false (setCMSetpoints [1] ⟨false, [2]⟩ false "abs" s1).state).state).state
  (setCMSetpoints [2, 99] ⟨false, [7]⟩ true "abs" s2).state

example : LeadsTo Example.limitSteps Example.raw Example.limited ∧
    (setCMSetpoints [2, 1] ⟨false, [-10]⟩ false "add" Example.limited).isOk = true ∧
    lastGiven (LimitStep.registrations Example.limitSteps) 2 (planeOption false) = some (.num 4) :=
  ⟨⟨_, ok_of_isOk (by decide +kernel), _, ok_of_isOk (by decide +kernel), rfl⟩, by decide +kernel, by decide +kernel⟩

/-- **C131**: a magnet registered as a corrector of one plane only cannot be steered in the other plane: every successful request
leaves it without kick there. -/
theorem C131_one_plane (steps : List (LimitStep K)) {s s1 s2 : SC K} (h : LeadsTo steps s s1)
    {ords : List Nat} {values : NpArr K} {skew : Bool} {method : String}
    (hr : setCMSetpoints ords values skew method s1 = .ok () s2) {i : Nat} (hi : i ∈ ords)
    (hs : s.RING.attr i "CMlimit" = none) (hn : lastGiven (LimitStep.registrations steps) i (planeOption skew) = none)
    (ho : lastGiven (LimitStep.registrations steps) i (planeOption (!skew)) ≠ none) :
    kick s2.RING i skew = 0 := by
  have o := session_options steps h i
  have e : limitIn s1.RING i (if skew then 1 else 0) = some (.fin 0) := by
    cases skew
    · refine o.horizontal.trans ?_
      rw [show lastGiven _ i "HCM" = none from hn]
      exact if_pos ⟨hs, ho⟩
    · refine o.vertical.trans ?_
      rw [show lastGiven _ i "VCM" = none from hn]
      exact if_pos ⟨hs, ho⟩
  have w := C10_addressed_within ords values skew method _ s2 hr i hi
  have q := request_keeps ords values skew method s1 i "CMlimit" (by simp [optionalAttrs])
  rw [hr] at q
  change s2.RING.attr i "CMlimit" = _ at q
  rw [kickLimit_congr q, kickLimit_of_limitIn e] at w
  simpa [Within] using w

example : (setCMSetpoints [1] ⟨false, [5]⟩ true "abs" Example.limited).isOk = true ∧
    Example.raw.RING.attr 1 "CMlimit" = none ∧ lastGiven (LimitStep.registrations Example.limitSteps) 1 (planeOption true) = none ∧
    lastGiven (LimitStep.registrations Example.limitSteps) 1 (planeOption false) ≠ none := by decide +kernel

/-- **C131**: a skew quadrupole addressed by a successful request to `set_magnet_setpoints` keeps to the limit it was given last. -/
theorem C131_skew_quadrupoles (steps : List (LimitStep K)) {s s1 s2 : SC K} (h : LeadsTo steps s s1)
    {ords : List Nat} {values : NpArr K} {method : String} {comp : Bool}
    (hr : setMagnetSetpoints ords values true 1 method comp s1 = .ok () s2) {i : Nat} (hi : i ∈ ords)
    {v : Attr K} (hv : lastGiven (LimitStep.registrations steps) i "SkewQuad" = some v) {l : Lim K} (hl : asLimit v = some l) (h0 : Lim.Nonneg l) :
    Within l (setpoint s2.RING i true 1) := by
  have o := (session_options steps h i).skew
  rw [hv] at o
  have e : skewLimit s1.RING i = l := by
    unfold skewLimit
    rw [o]
    cases v <;> simp [asLimit] at hl ⊢ <;> exact hl
  obtain ⟨k, hk⟩ := exists_lastAt ords hi
  have w := C15_skew_limit ords values method comp s1 s2 hr k i hk (by rw [e]; exact h0)
  have q := magnets_keep ords values true 1 method comp s1 i "SkewQuadLimit" (by simp [optionalAttrs])
  rw [hr] at q
  change s2.RING.attr i "SkewQuadLimit" = _ at q
  rw [skewLimit_congr q, e] at w
  exact w

example : (setMagnetSetpoints [2] ⟨false, [-9]⟩ true 1 "add" false Example.limited).isOk = true ∧
    lastGiven (LimitStep.registrations Example.limitSteps) 2 "SkewQuad" = some (.num 2) := by decide +kernel

end PySC
