import Verif.Lemmas.CavitySetpoints
import Verif.Props.Correctors
/-
C11 (meaning of abs/rel/add), C12 (rejection of bad requests), C15 (skew quadrupole limit), C16 (integer requests),
C17 (repeated ordinates), C18 (dipole compensation), C63 (realised cavity fields).
-/
namespace PySC
open Py Spec
set_option linter.unusedSectionVars false
variable {K : Type _} [Field K] [LinearOrder K] [FloorRing K] [IsStrictOrderedRing K]

/-! ### C11 -/
/-- **C11**, correctors: `rel` multiplies the present kick and `add` adds to it (then the limit is applied). -/
theorem C11_correctors (ords : List Nat) (vals : List K) (skew : Bool) (method : String) (s s' : SC K)
    (hnd : ords.Nodup) (h : setCMSetpoints ords ⟨false, vals⟩ skew method s = .ok () s') (k o : Nat)
    (hk : ords[k]? = some o) (hlim : Lim.Nonneg (kickLimit s.RING o skew)) :
    kick s'.RING o skew = clip (kickLimit s.RING o skew) (asked method (valueFor vals k) (kick s.RING o skew)) := by
  rw [setCMSetpoints_kick_distinct h hnd hk, nextKick_float hlim]

/-- **C11**, correctors: the set-points of other elements, of the other plane and of higher multipoles stay, and nothing
but set-points and realised fields changes. -/
theorem C11_correctors_nothing_else (ords : List Nat) (values : NpArr K) (skew : Bool) (method : String) (s : SC K) :
    (∀ i sk k, (i ∉ ords ∨ sk ≠ skew ∨ k ≠ 0) →
      setpoint (setCMSetpoints ords values skew method s).state.RING i sk k = setpoint s.RING i sk k) ∧
    Frame (fun i a => (i ∈ ords ∧ a = "SetPoint" ++ plane skew) ∨ a ∈ ["PolynomA", "PolynomB", "KickAngle", "MaxOrder"])
      s (setCMSetpoints ords values skew method s).state := by
  have hf := setCMSetpoints_modifies ords values skew method s
  refine ⟨fun i sk k hne => ?_, hf.mono (fun i a h => h.imp id (fun h => by simpa [magnetWrites] using h))⟩
  by_cases hk : k = 0
  · refine setpoint_congr (hf.attr _ _ ?_)
    rintro (⟨h1, h2⟩ | h)
    · rcases hne with h | h | h
      · exact h h1
      · exact h (plane_inj.1 h2)
      · exact h hk
    · cases sk <;> simp [plane, magnetWrites] at h
  · exact setCMSetpoints_setpoint s i sk k hk

/-- **C11**, magnets: `rel` multiplies the nominal field, `add` adds to the present set-point, and only skew
quadrupoles are clipped.  (`k` is the last position of the magnet in the request, see C17.) -/
theorem C11_magnets (ords : List Nat) (vals : List K) (skew : Bool) (order : Nat) (method : String) (comp : Bool)
    (s s' : SC K) (h : setMagnetSetpoints ords ⟨false, vals⟩ skew order method comp s = .ok () s') (k o : Nat)
    (hk : LastAt ords k o) (hlim : Lim.Nonneg (skewLimit s.RING o)) :
    setpoint s'.RING o skew order =
      magnetStored s.RING o skew order (magnetAsked s.RING o skew order method (valueFor vals k)) := by
  rw [setMagnetSetpoints_setpoint h hk]
  simp only [magnetStored, skewClipped_eq_clip hlim]

/-- **C11**, magnets: every other set-point stays (without dipole compensation), and nothing but set-points and realised
fields changes. -/
theorem C11_magnets_nothing_else (ords : List Nat) (values : NpArr K) (skew : Bool) (order : Nat) (method : String)
    (s s' : SC K) (h : setMagnetSetpoints ords values skew order method false s = .ok () s') :
    (∀ i sk k, (i ∉ ords ∨ sk ≠ skew ∨ k ≠ order) → setpoint s'.RING i sk k = setpoint s.RING i sk k) ∧
    Frame (fun i a => (i ∈ ords ∧ a = "SetPoint" ++ plane skew) ∨ a ∈ ["PolynomA", "PolynomB", "KickAngle", "MaxOrder"])
      s s' := by
  refine ⟨fun i sk k hne => setMagnetSetpoints_other h i sk k (Or.inr (Or.inl rfl)) hne, ?_⟩
  refine ((setMagnetSetpoints_modifies ords values skew order method false).ok h).mono ?_
  rintro i a (⟨h1, h2 | ⟨h2, -⟩⟩ | h)
  · exact Or.inl ⟨h1, h2⟩
  · simp at h2
  · right; simpa [magnetWrites] using h

/-- **C11**: a relative magnet request refers to the nominal field, so repeating it changes no set-point. -/
theorem C11_magnets_rel_idempotent (ords : List Nat) (values : NpArr K) (skew : Bool) (order : Nat) (s s1 s2 : SC K)
    (h1 : setMagnetSetpoints ords values skew order "rel" false s = .ok () s1)
    (h2 : setMagnetSetpoints ords values skew order "rel" false s1 = .ok () s2) (i : Nat) (sk : Bool) (k : Nat) :
    setpoint s2.RING i sk k = setpoint s1.RING i sk k := by
  by_cases hc : i ∉ ords ∨ sk ≠ skew ∨ k ≠ order
  · exact setMagnetSetpoints_other h2 i sk k (Or.inr (Or.inl rfl)) hc
  · push Not at hc
    obtain ⟨hi, rfl, rfl⟩ := hc
    have hex : ∃ n, LastAt ords n i := by
      have key : ∀ l : List Nat, i ∈ l → ∃ n, LastAt l n i := by
        intro l
        induction l with
        | nil => simp
        | cons a l ih =>
          intro hm
          by_cases hil : i ∈ l
          · obtain ⟨n, hn1, hn2⟩ := ih hil
            refine ⟨n + 1, by simpa using hn1, fun j hj => ?_⟩
            cases j with
            | zero => omega
            | succ j => simpa using hn2 j (by omega)
          · refine ⟨0, by simpa [hil, eq_comm] using hm, fun j hj => ?_⟩
            cases j with
            | zero => omega
            | succ j =>
              simp only [List.getElem?_cons_succ]
              intro h; exact hil (List.mem_iff_getElem?.2 ⟨j, h⟩)
      exact key ords hi
    obtain ⟨n, hn⟩ := hex
    have hf := (setMagnetSetpoints_modifies ords values sk k "rel" false).ok h1
    rw [setMagnetSetpoints_setpoint h2 hn, setMagnetSetpoints_setpoint h1 hn]
    have e1 : skewLimit s1.RING i = skewLimit s.RING i := skewLimit_congr (hf.attr _ _ (by
      rintro (⟨-, h⟩ | h)
      · exact magSP_ne (by simp [spNames]) h
      · simp [magnetWrites] at h))
    have e2 : vecAt s1.RING i ("NomPolynom" ++ plane sk) = vecAt s.RING i ("NomPolynom" ++ plane sk) := by
      unfold vecAt
      rw [hf.attr]
      rintro (⟨-, h⟩ | h)
      · exact magSP_ne (by cases sk <;> simp [spNames, plane]) h
      · cases sk <;> simp [magnetWrites, plane] at h
    simp only [magnetAsked, asked, if_true, e1, e2]

/-- **C11**, cavities: `rel` multiplies the present set-point and `add` adds to it. -/
theorem C11_cavities (ords : List Nat) (values : NpArr K) (field method : String) (s s' : SC K)
    (h : setCavitySetpoints ords values field method s = .ok () s') (k o : Nat) (hk : LastAt ords k o) :
    s'.RING.attr o (field ++ "SetPoint") =
      some (.num (asked method (valueFor values.vals k) (numAt s.RING o (field ++ "SetPoint")))) :=
  setCavitySetpoints_value h hk

/-- **C11**, cavities: only the addressed set-point and the realised fields of the addressed cavities change. -/
theorem C11_cavities_nothing_else (ords : List Nat) (values : NpArr K) (field method : String) (s : SC K) :
    Frame (fun i a => i ∈ ords ∧ (a = field ++ "SetPoint" ∨ a ∈ ["Voltage", "Frequency", "TimeLag"])) s
      (setCavitySetpoints ords values field method s).state :=
  setCavitySetpoints_modifies ords values field method s

example : setpoint (setMagnetSetpoints [2, 4] ⟨false, [11/10]⟩ false 1 "rel" false
    (setMagnetSetpoints [2] ⟨false, [5]⟩ false 1 "add" false Example.sc).state).state.RING 2 false 1 = 22/10 := by
  decide +kernel
example : (setMagnetSetpoints [2, 4] ⟨false, [11/10]⟩ false 1 "rel" false Example.sc).isOk = true := by
  decide +kernel
example : (setCavitySetpoints [5] ⟨false, [11/10]⟩ "Voltage" "rel" Example.sc).isOk = true ∧
    (setCavitySetpoints [5] ⟨false, [11/10]⟩ "Voltage" "rel" Example.sc).state.RING.attr 5 "Voltage" =
      some (.num 1111) := by decide +kernel
example : LastAt [2, 4] 1 4 := ⟨rfl, fun j hj => by
  match j with
  | 2 => simp
  | n + 3 => simp⟩

/-! ### C12 -/
/-- the request is malformed: unknown method, or neither one value nor one per ordinate -/
def BadRequest (ords : List Nat) (values : List K) (method : String) : Prop :=
  method ∉ ["abs", "rel", "add"] ∨ (values.length ≠ 1 ∧ values.length ≠ ords.length)

theorem checkInput_bad {ords : List Nat} {values : NpArr K} {method : String}
    (h : BadRequest ords values.vals method) : checkInput method ords values = .error .valueError := by
  unfold checkInput
  rcases h with h | h
  · exact if_pos h
  · by_cases hm : method ∈ settingMethods
    · simp [hm, h]
    · rw [if_pos hm]

/-- **C12** Malformed requests raise `ValueError` and leave everything as it was. -/
theorem C12_bad_requests_rejected (ords : List Nat) (values : NpArr K) (method : String) (s : SC K)
    (h : BadRequest ords values.vals method) (skew : Bool) (order : Nat) (comp : Bool) (field : String) :
    setCMSetpoints ords values skew method s = .error .valueError s ∧
    setMagnetSetpoints ords values skew order method comp s = .error .valueError s ∧
    setCavitySetpoints ords values field method s = .error .valueError s := by
  have hc := checkInput_bad h
  refine ⟨?_, ?_, ?_⟩
  · simp [setCMSetpoints, hc, bind_apply]
  · have : magnetRequest s.RING ords values skew order method = .error .valueError := by
      simp [magnetRequest, hc]
    simp only [setMagnetSetpoints, bind_apply]
    rw [rd_eq_error.2 ⟨this, rfl⟩]
  · have : cavityRequest s.RING ords values field method = .error .valueError := by
      simp [cavityRequest, hc]
    simp only [setCavitySetpoints, bind_apply]
    rw [rd_eq_error.2 ⟨this, rfl⟩]

theorem checkInput_single (ords : List Nat) (b : Bool) (x : K) (method : String) :
    checkInput method ords ⟨b, [x]⟩ = checkInput method ords ⟨b, List.replicate ords.length x⟩ := by
  unfold checkInput
  split
  · rfl
  · simp only [List.length_replicate, List.length_cons, List.length_nil]
    by_cases h : ords.length = 1
    · simp [h]
    · simp [h]

/-- **C12** A single value means the same as that value for each of the ordinates. -/
theorem C12_single_value_for_all (ords : List Nat) (isInt : Bool) (x : K) (method : String) (skew : Bool) (order : Nat)
    (comp : Bool) (field : String) :
    (setCMSetpoints ords ⟨isInt, [x]⟩ skew method =
      setCMSetpoints ords ⟨isInt, List.replicate ords.length x⟩ skew method) ∧
    (setMagnetSetpoints ords ⟨isInt, [x]⟩ skew order method comp =
      setMagnetSetpoints ords ⟨isInt, List.replicate ords.length x⟩ skew order method comp) ∧
    (setCavitySetpoints ords ⟨isInt, [x]⟩ field method =
      setCavitySetpoints ords ⟨isInt, List.replicate ords.length x⟩ field method) := by
  simp only [setCMSetpoints, setMagnetSetpoints, setCavitySetpoints, magnetRequest, cavityRequest,
    checkInput_single, and_self]

/-- **C12**, finding: an unknown cavity field is not rejected: with `abs` the call succeeds, stores a set-point nobody
reads and leaves the realised fields as they were. -/
theorem C12_unknown_cavity_field_is_accepted :
    ∃ s s' : SC ℚ, setCavitySetpoints [5] ⟨false, [1]⟩ "Volts" "abs" s = .ok () s' ∧
      s.RING.attr 5 "VoltsSetPoint" = none ∧ s'.RING.attr 5 "VoltsSetPoint" = some (.num 1) :=
  ⟨Example.sc, (setCavitySetpoints [5] ⟨false, [1]⟩ "Volts" "abs" Example.sc).state,
    ok_of_isOk (by decide +kernel), by decide +kernel, by decide +kernel⟩

/-- **C12**: with `rel` or `add` an unknown cavity field does fail, before any change. -/
theorem C12_unknown_cavity_field_rejected_rel_add (ords : List Nat) (values : NpArr K) (field method : String) (s : SC K)
    (hm : method = "rel" ∨ method = "add") (o : Nat) (ho : o ∈ ords)
    (hu : s.RING.attr o (field ++ "SetPoint") = none) :
    ∃ e, setCavitySetpoints ords values field method s = .error e s := by
  have hreq : ∃ e, cavityRequest s.RING ords values field method = .error e := by
    cases hr : cavityRequest s.RING ords values field method with
    | error e => exact ⟨e, rfl⟩
    | ok sps =>
      exfalso
      simp only [cavityRequest, Except.bind_eq_ok'] at hr
      obtain ⟨sps0, -, hr⟩ := hr
      have : ∀ w, ords.mapM (fun o => s.RING.getNum o (field ++ "SetPoint")) ≠ .ok w := by
        intro w hw
        obtain ⟨k, hk⟩ := List.mem_iff_getElem?.1 ho
        obtain ⟨y, hy, -⟩ := (mapM_except_eq_ok hw).2 k o hk
        rw [Ring.getNum_eq_ok, hu] at hy
        simp at hy
      rcases hm with rfl | rfl
      · rw [if_pos rfl, Except.bind_eq_ok'] at hr
        obtain ⟨w, hw, -⟩ := hr
        exact this w hw
      · rw [if_neg (by decide), if_pos rfl, Except.bind_eq_ok'] at hr
        obtain ⟨w, hw, -⟩ := hr
        exact this w hw
  obtain ⟨e, he⟩ := hreq
  refine ⟨e, ?_⟩
  simp only [setCavitySetpoints, bind_apply]
  rw [rd_eq_error.2 ⟨he, rfl⟩]

example : BadRequest [1, 2, 4] ([1, 2] : List ℚ) "abs" := by right; decide
example : (setCavitySetpoints [5] ⟨false, [1]⟩ "Volts" "add" Example.sc).isOk = false := by decide +kernel

/-! ### C15 -/
/-- **C15** After a successful skew quadrupole request (any method, integer or float values, repeated ordinates) the
set-point of each addressed magnet is within its skew quadrupole limit. -/
theorem C15_skew_limit (ords : List Nat) (values : NpArr K) (method : String) (comp : Bool) (s s' : SC K)
    (h : setMagnetSetpoints ords values true 1 method comp s = .ok () s') (k o : Nat) (hk : LastAt ords k o)
    (hlim : Lim.Nonneg (skewLimit s.RING o)) :
    Within (skewLimit s'.RING o) (setpoint s'.RING o true 1) := by
  have e : skewLimit s'.RING o = skewLimit s.RING o :=
    skewLimit_congr (((setMagnetSetpoints_modifies ords values true 1 method comp).ok h).attr _ _ (by
      rintro (⟨-, h⟩ | h)
      · exact magSP_ne (by simp [spNames]) h
      · simp [magnetWrites] at h))
  rw [e, setMagnetSetpoints_setpoint h hk, if_pos ⟨rfl, rfl⟩]
  exact skewClipped_within _ hlim _

/-- **C15** Requests within the limit are stored exactly; in particular magnets without limit are not clipped. -/
theorem C15_exact_within_limit (ords : List Nat) (vals : List K) (method : String) (comp : Bool) (s s' : SC K)
    (h : setMagnetSetpoints ords ⟨false, vals⟩ true 1 method comp s = .ok () s') (k o : Nat) (hk : LastAt ords k o)
    (hlim : Lim.Nonneg (skewLimit s.RING o))
    (hin : Within (skewLimit s.RING o) (magnetAsked s.RING o true 1 method (valueFor vals k))) :
    setpoint s'.RING o true 1 = magnetAsked s.RING o true 1 method (valueFor vals k) := by
  rw [C11_magnets ords vals true 1 method comp s s' h k o hk hlim, magnetStored, if_pos ⟨rfl, rfl⟩]
  cases hl : skewLimit s.RING o with
  | inf => rfl
  | fin l =>
    rw [hl] at hin hlim
    have hin : |magnetAsked s.RING o true 1 method (valueFor vals k)| ≤ |l| := hin
    rw [abs_of_nonneg hlim, abs_le] at hin
    simp only [clip]
    rw [min_eq_left hin.2, max_eq_right hin.1]

example : skewLimit Example.ring 2 = .fin (1/10) ∧ (setMagnetSetpoints [2] ⟨false, [-1]⟩ true 1 "add" false Example.sc).isOk ∧
    setpoint (setMagnetSetpoints [2] ⟨false, [-1]⟩ true 1 "add" false Example.sc).state.RING 2 true 1 = -1/10 := by
  decide +kernel

/-- **C10/C15**, finding: the corrector limit is enforced by `set_cm_setpoints` only; setting the dipole component with
`set_magnet_setpoints(order=0)` goes past it. -/
theorem C10_order_zero_bypasses_limit :
    ∃ (s s' : SC ℚ), setMagnetSetpoints [1] ⟨false, [1]⟩ false 0 "abs" false s = .ok () s' ∧
      Within (kickLimit s.RING 1 false) (kick s.RING 1 false) ∧
      ¬ Within (kickLimit s'.RING 1 false) (kick s'.RING 1 false) :=
  ⟨Example.sc, (setMagnetSetpoints [1] ⟨false, [1]⟩ false 0 "abs" false Example.sc).state,
    ok_of_isOk (by decide +kernel), by decide +kernel, by decide +kernel⟩

/-! ### C16 -/
/-- **C16** is violated: adding the integer 0 to a corrector set to 1 mrad switches it off, adding 0.0 does not. -/
theorem C16_violated_integer_add_truncates :
    ∃ (s s1 s2 : SC ℚ), setCMSetpoints [1] ⟨true, [0]⟩ false "add" s = .ok () s1 ∧
      setCMSetpoints [1] ⟨false, [0]⟩ false "add" s = .ok () s2 ∧
      kick s.RING 1 false = 1/1000 ∧ kick s1.RING 1 false = 0 ∧ kick s2.RING 1 false = 1/1000 :=
  ⟨Example.sc, (setCMSetpoints [1] ⟨true, [0]⟩ false "add" Example.sc).state,
    (setCMSetpoints [1] ⟨false, [0]⟩ false "add" Example.sc).state,
    ok_of_isOk (by decide +kernel), ok_of_isOk (by decide +kernel), by decide +kernel, by decide +kernel,
    by decide +kernel⟩

/-- **C16**, the same for clipping: an integer request above the limit is clipped to the integer part of the limit. -/
theorem C16_violated_integer_clipping :
    ∃ (s s1 : SC ℚ), setCMSetpoints [1] ⟨true, [1]⟩ false "abs" s = .ok () s1 ∧
      kickLimit s.RING 1 false = .fin (2/1000) ∧ kick s1.RING 1 false = 0 :=
  ⟨Example.sc, (setCMSetpoints [1] ⟨true, [1]⟩ false "abs" Example.sc).state,
    ok_of_isOk (by decide +kernel), by decide +kernel, by decide +kernel⟩

/-- **C16**, what integer values do in general: relative requests are rounded towards zero. -/
theorem C16_integer_requests_round_towards_zero (ords : List Nat) (vals : List K) (skew : Bool) (method : String)
    (hm : method = "rel" ∨ method = "add") (s s' : SC K) (hnd : ords.Nodup)
    (h : setCMSetpoints ords ⟨true, vals⟩ skew method s = .ok () s') (k o : Nat)
    (hk : ords[k]? = some o) (hlim : kickLimit s.RING o skew = .inf) :
    kick s'.RING o skew = truncZ (asked method (valueFor vals k) (kick s.RING o skew)) := by
  rw [setCMSetpoints_kick_distinct h hnd hk, hlim]
  rcases hm with rfl | rfl <;> simp [nextKick, requested, clipped, exceeds, store, asked]

theorem clipCM_int {r : Ring K} {o : Nat} {skew : Bool} {x : K} (h : Within (kickLimit r o skew) x) :
    clipCM r o skew true x = clipCM r o skew false x := by
  unfold clipCM
  cases hA : r.hasA o "CMlimit" with
  | error e => rfl
  | ok b =>
    cases b
    · rfl
    · simp only [Except.ok_bind', if_true]
      cases ha : r.getA o "CMlimit" with
      | error e => rfl
      | ok a =>
        simp only [Except.ok_bind']
        cases hl : a.toLims with
        | error e => rfl
        | ok ls =>
          simp only [Except.ok_bind']
          cases hi : idx ls (if skew then 1 else 0) with
          | error e => rfl
          | ok l =>
            rw [Ring.getA_eq_ok] at ha
            have hls : a = .lims ls := by cases a <;> simp [Attr.toLims] at hl; rw [hl]
            rw [idx_eq_ok] at hi
            have : kickLimit r o skew = l := by
              subst hls
              simp only [kickLimit, ha, List.getD_eq_getElem?_getD, hi, Option.getD_some]
            rw [this] at h
            have he : exceeds x l = false := by
              cases l with
              | inf => rfl
              | fin l =>
                have h : |x| ≤ |l| := h
                simpa [exceeds] using h
            simp [he]

/-- **C16**, what does hold: absolute corrector requests within the limits do not depend on the number type. -/
theorem C16_correctors_abs_partial (ords : List Nat) (vals : List K) (skew : Bool) (s : SC K)
    (hin : ∀ o ∈ ords, ∀ v ∈ vals, Within (kickLimit s.RING o skew) v) :
    setCMSetpoints ords ⟨true, vals⟩ skew "abs" s = setCMSetpoints ords ⟨false, vals⟩ skew "abs" s := by
  unfold setCMSetpoints
  simp only [bind_apply]
  have hmap : ∀ b : Bool, checkInput "abs" ords (⟨b, vals⟩ : NpArr K) =
      (checkInput "abs" ords (⟨true, vals⟩ : NpArr K)).map (fun a => ⟨b, a.vals⟩) := by
    intro b; unfold checkInput; split
    · rfl
    · split
      · rfl
      · split <;> rfl
  rw [hmap false]
  cases hc : checkInput "abs" ords (⟨true, vals⟩ : NpArr K) with
  | error e => rfl
  | ok sps =>
    obtain ⟨-, hl, rfl⟩ := checkInput_eq_ok hc
    simp only [Except.map, lift_ok_apply]
    have : forEach (ords.zip (spread ords.length vals)) (fun p => setCM1 skew "abs" true p.1 p.2) s =
        forEach (ords.zip (spread ords.length vals)) (fun p => setCM1 skew "abs" false p.1 p.2) s := by
      refine forEach_congr_inv (I := fun t => ∀ i, kickLimit t.RING i skew = kickLimit s.RING i skew) ?_ (fun _ => rfl)
      intro p hp t ht
      refine ⟨?_, fun i => ?_⟩
      · unfold setCM1
        have hw : Within (kickLimit t.RING p.1 skew) p.2 := by
          rw [ht]
          obtain ⟨h1, h2⟩ := List.of_mem_zip (a := p.1) (b := p.2) hp
          refine hin _ h1 _ ?_
          unfold spread at h2
          split at h2
          · rename_i hv
            obtain ⟨v, rfl⟩ := List.length_eq_one_iff.1 hv
            simp at h2
            simp [h2.2]
          · exact h2
        have : newCM t.RING skew "abs" true p.1 p.2 = newCM t.RING skew "abs" false p.1 p.2 := by
          unfold newCM
          simp only [String.reduceEq, if_false, clipCM_int hw]
        simp only [bind_apply]
        have h2 : rd (fun r => newCM r skew "abs" true p.1 p.2) t = rd (fun r => newCM r skew "abs" false p.1 p.2) t := by
          cases hn : newCM t.RING skew "abs" false p.1 p.2 with
          | error e => exact (rd_eq_error.2 ⟨this.trans hn, rfl⟩).trans (rd_eq_error.2 ⟨hn, rfl⟩).symm
          | ok v => exact (rd_eq_ok.2 ⟨this.trans hn, rfl⟩).trans (rd_eq_ok.2 ⟨hn, rfl⟩).symm
        rw [h2]
      · rw [← ht i]
        refine kickLimit_congr ((setCM1_modifies t).attr _ _ ?_)
        rintro ⟨-, h⟩; exact ne_setPoint (by simp [spNames]) _ h
    rw [this]

/-- **C16**, what does hold: absolute magnet requests (other than for skew quadrupoles) and absolute cavity requests do
not depend on the number type. -/
theorem C16_magnets_and_cavities_abs_partial (ords : List Nat) (vals : List K) (skew : Bool) (order : Nat) (comp : Bool)
    (field : String) (hno : ¬ (skew = true ∧ order = 1)) :
    (setMagnetSetpoints ords ⟨true, vals⟩ skew order "abs" comp =
      setMagnetSetpoints ords ⟨false, vals⟩ skew order "abs" comp) ∧
    (setCavitySetpoints ords ⟨true, vals⟩ field "abs" = setCavitySetpoints ords ⟨false, vals⟩ field "abs") := by
  have hmap : ∀ b : Bool, checkInput "abs" ords (⟨b, vals⟩ : NpArr K) =
      (checkInput "abs" ords (⟨true, vals⟩ : NpArr K)).map (fun a => ⟨b, a.vals⟩) := by
    intro b; unfold checkInput; split
    · rfl
    · split
      · rfl
      · split <;> rfl
  have hone : ∀ b o (x : K), setMagnet1 skew order b comp o x = setMagnet1 skew order true comp o x := by
    intro b o x
    have : ∀ r : Ring K, clipSkew r o skew order b x = clipSkew r o skew order true x := by
      intro r
      have : (skew && decide (order = 1)) = false := by
        cases skew <;> simp at hno ⊢; exact hno
      simp [clipSkew, this]
    simp only [setMagnet1, this]
  constructor
  · funext s
    simp only [setMagnetSetpoints, bind_apply, magnetRequest, String.reduceEq, if_false]
    rw [hmap false]
    cases hc : checkInput "abs" ords (⟨true, vals⟩ : NpArr K) with
    | error e => rfl
    | ok sps => simp only [Except.map, Except.ok_bind', hone]; rfl
  · funext s
    simp only [setCavitySetpoints, bind_apply, cavityRequest, String.reduceEq, if_false]
    rw [hmap false]
    cases hc : checkInput "abs" ords (⟨true, vals⟩ : NpArr K) with
    | error e => rfl
    | ok sps => simp only [Except.map, Except.ok_bind']; rfl

/-- **C16**, relative integer requests for magnets and cavities never succeed: they raise before any change. -/
theorem C16_relative_integers_fail (ords : List Nat) (vals : List K) (skew : Bool) (order : Nat) (comp : Bool)
    (field method : String) (hm : method = "rel" ∨ method = "add") (s : SC K) :
    (∃ e, setMagnetSetpoints ords ⟨true, vals⟩ skew order method comp s = .error e s) ∧
    (∃ e, setCavitySetpoints ords ⟨true, vals⟩ field method s = .error e s) := by
  have hne : method ≠ "abs" := by rcases hm with rfl | rfl <;> decide
  constructor
  · cases hr : magnetRequest s.RING ords ⟨true, vals⟩ skew order method with
    | ok sps => exact absurd ((magnetRequest_eq_ok hr).2.2.2.1 rfl) hne
    | error e =>
      refine ⟨e, ?_⟩
      simp only [setMagnetSetpoints, bind_apply]
      rw [rd_eq_error.2 ⟨hr, rfl⟩]
  · cases hr : cavityRequest s.RING ords ⟨true, vals⟩ field method with
    | ok sps => exact absurd ((cavityRequest_eq_ok hr).2.2.1 rfl) hne
    | error e =>
      refine ⟨e, ?_⟩
      simp only [setCavitySetpoints, bind_apply]
      rw [rd_eq_error.2 ⟨hr, rfl⟩]

example : ∀ o ∈ [1, 2], ∀ v ∈ [(0 : ℚ), 0], Within (kickLimit Example.ring o false) v := by decide +kernel
example : (setCMSetpoints [1, 2] ⟨true, [0]⟩ false "abs" Example.sc).isOk = true := by decide +kernel
example : (setMagnetSetpoints [2] ⟨true, [1]⟩ false 1 "rel" false Example.sc).err? = some .typeError := by decide +kernel
example : kickLimit Example.ring 1 true = .inf ∧
    (setCMSetpoints [1] ⟨true, [3]⟩ true "add" Example.sc).isOk = true := by decide +kernel

/-! ### C17 -/
/-- **C17**, correctors: all values for a repeated ordinate are applied one after the other. -/
theorem C17_correctors_apply_all (ords : List Nat) (vals : List K) (skew : Bool) (method : String) (s s' : SC K)
    (h : setCMSetpoints ords ⟨false, vals⟩ skew method s = .ok () s') (o : Nat)
    (hlim : Lim.Nonneg (kickLimit s.RING o skew)) :
    kick s'.RING o skew = (valuesFor ords vals o).foldl
      (fun c x => clip (kickLimit s.RING o skew) (asked method x c)) (kick s.RING o skew) := by
  obtain ⟨-, hl, -⟩ := setCMSetpoints_eq_ok h
  rw [setCMSetpoints_kick h]
  have hsp : spread ords.length vals = (List.range ords.length).map (valueFor vals) := by
    apply List.ext_getElem?
    intro k
    by_cases hk : k < ords.length
    · rw [spread_getElem? hl hk]; simp [hk]
    · rw [List.getElem?_eq_none (by rw [length_spread hl]; omega), List.getElem?_eq_none (by simp; omega)]
  simp only at hsp ⊢
  rw [hsp, valuesFor, List.foldl_map]
  simp only [nextKick_float hlim]

/-- **C17**, correctors without limit: a repeated `add` request adds the sum of the values. -/
theorem C17_correctors_accumulate (ords : List Nat) (vals : List K) (skew : Bool) (s s' : SC K)
    (h : setCMSetpoints ords ⟨false, vals⟩ skew "add" s = .ok () s') (o : Nat)
    (hlim : kickLimit s.RING o skew = .inf) :
    kick s'.RING o skew = kick s.RING o skew + (valuesFor ords vals o).sum := by
  rw [C17_correctors_apply_all ords vals skew "add" s s' h o (by rw [hlim]; trivial), hlim]
  simp only [clip, asked, String.reduceEq, if_false, if_true]
  generalize kick s.RING o skew = c
  induction valuesFor ords vals o generalizing c with
  | nil => simp
  | cons x l ih => rw [List.foldl_cons, ih, List.sum_cons]; ring

/-- **C17**, magnets and cavities: of the values for a repeated ordinate only the last one counts, and it refers to the
state before the call. -/
theorem C17_magnets_and_cavities_last_value (ords : List Nat) (vals : List K) (s s' : SC K) (k o : Nat)
    (hk : LastAt ords k o) :
    (∀ skew order, Lim.Nonneg (skewLimit s.RING o) →
      setMagnetSetpoints ords ⟨false, vals⟩ skew order "add" false s = .ok () s' →
      setpoint s'.RING o skew order = magnetStored s.RING o skew order (valueFor vals k + setpoint s.RING o skew order)) ∧
    (∀ field, setCavitySetpoints ords ⟨false, vals⟩ field "add" s = .ok () s' →
      numAt s'.RING o (field ++ "SetPoint") = valueFor vals k + numAt s.RING o (field ++ "SetPoint")) := by
  refine ⟨fun skew order hlim h => ?_, fun field h => ?_⟩
  · rw [C11_magnets ords vals skew order "add" false s s' h k o hk hlim]
    simp [magnetAsked, asked]
  · rw [numAt_of_attr (C11_cavities ords ⟨false, vals⟩ field "add" s s' h k o hk)]
    simp [asked]

example : kick (setCMSetpoints [1, 2, 1] ⟨false, [1, 1, 2]⟩ true "add" Example.sc).state.RING 1 true = 3 ∧
    setpoint (setMagnetSetpoints [2, 4, 2] ⟨false, [1, 1, 2]⟩ false 1 "add" false Example.sc).state.RING 2 false 1 = 4 ∧
    valuesFor [1, 2, 1] [(1 : ℚ), 1, 2] 1 = [1, 2] := by
  decide +kernel
example : LastAt [2, 4, 2] 2 2 := ⟨rfl, fun j hj => by
  match j with
  | n + 3 => simp⟩

/-! ### C18 -/
/-- **C18** Changing the quadrupole component with dipole compensation moves the horizontal kick of a bending magnet that
is a registered horizontal corrector by (new - old)/nominal times its bending angle (clipped to the limit); other
magnets keep their kick. -/
theorem C18_compensating_kick (ords : List Nat) (values : NpArr K) (method : String) (s s' : SC K) (hnd : ords.Nodup)
    (h : setMagnetSetpoints ords values false 1 method true s = .ok () s') (o : Nat) (ho : o ∈ ords)
    (hlim : Lim.Nonneg (kickLimit s.RING o false)) :
    kick s'.RING o false =
      if numAt s.RING o "BendingAngle" ≠ 0 ∧ o ∈ s.ORD.HCM then
        clip (kickLimit s.RING o false) (kick s.RING o false +
          (setpoint s'.RING o false 1 - setpoint s.RING o false 1) / coef (vecAt s.RING o "NomPolynomB") 1 *
            numAt s.RING o "BendingAngle")
      else kick s.RING o false := by
  obtain ⟨k, hk⟩ := List.mem_iff_getElem?.1 ho
  rw [setMagnetSetpoints_kick h hnd hk, clipped_eq_clip hlim, add_comm]
  by_cases hc : Compensated s o
  · rw [if_pos hc]; exact (if_pos hc).symm
  · rw [if_neg hc]; exact (if_neg hc).symm

/-- **C18** Elements that are not addressed are not compensated. -/
theorem C18_others_untouched (ords : List Nat) (values : NpArr K) (method : String) (comp : Bool) (s : SC K) (skew : Bool)
    (order i : Nat) (hi : i ∉ ords) (sk : Bool) :
    kick (setMagnetSetpoints ords values skew order method comp s).state.RING i sk = kick s.RING i sk := by
  have hf := setMagnetSetpoints_modifies ords values skew order method comp s
  refine kick_congr (hf.attr _ _ ?_) (hf.attr _ _ ?_) (hf.attr _ _ ?_)
  · rintro (⟨h, -⟩ | h)
    · exact hi h
    · cases sk <;> simp [plane, magnetWrites] at h
  · rintro (⟨h, -⟩ | h)
    · exact hi h
    · simp [magnetWrites] at h
  · rintro (⟨h, -⟩ | h)
    · exact hi h
    · simp [magnetWrites] at h

/-- **C18** Setting the quadrupole back to where it was restores the kick if no limit is hit on the way. -/
theorem C18_going_back (ords : List Nat) (v1 v2 : NpArr K) (m1 m2 : String) (s s1 s2 : SC K) (hnd : ords.Nodup)
    (h1 : setMagnetSetpoints ords v1 false 1 m1 true s = .ok () s1)
    (h2 : setMagnetSetpoints ords v2 false 1 m2 true s1 = .ok () s2) (o : Nat) (ho : o ∈ ords)
    (hback : setpoint s2.RING o false 1 = setpoint s.RING o false 1)
    (hlim : Lim.Nonneg (kickLimit s.RING o false))
    (hin : Within (kickLimit s.RING o false) (kick s.RING o false))
    (hin' : Within (kickLimit s.RING o false) (kick s.RING o false +
          (setpoint s1.RING o false 1 - setpoint s.RING o false 1) / coef (vecAt s.RING o "NomPolynomB") 1 *
            numAt s.RING o "BendingAngle")) :
    kick s2.RING o false = kick s.RING o false := by
  have hf := (setMagnetSetpoints_modifies ords v1 false 1 m1 true).ok h1
  have same : ∀ a, a ∉ spNames → a ∉ magnetWrites → s1.RING.attr o a = s.RING.attr o a := by
    intro a ha ha'
    refine hf.attr _ _ ?_
    rintro (⟨-, h⟩ | h)
    · exact magSP_ne ha h
    · exact ha' h
  have e1 : kickLimit s1.RING o false = kickLimit s.RING o false :=
    kickLimit_congr (same _ (by simp [spNames]) (by simp [magnetWrites]))
  have e2 : numAt s1.RING o "BendingAngle" = numAt s.RING o "BendingAngle" := by
    simp only [numAt, same "BendingAngle" (by simp [spNames]) (by simp [magnetWrites])]
  have e3 : vecAt s1.RING o "NomPolynomB" = vecAt s.RING o "NomPolynomB" := by
    simp only [vecAt, same "NomPolynomB" (by simp [spNames]) (by simp [magnetWrites])]
  have step1 := C18_compensating_kick ords v1 m1 s s1 hnd h1 o ho hlim
  have step2 := C18_compensating_kick ords v2 m2 s1 s2 hnd h2 o ho (by rw [e1]; exact hlim)
  rw [e1, e2, e3, hf.ord, hback] at step2
  by_cases hc : numAt s.RING o "BendingAngle" ≠ 0 ∧ o ∈ s.ORD.HCM
  · rw [if_pos hc] at step1 step2
    have clip_in : ∀ (l : Lim K) x, Lim.Nonneg l → Within l x → clip l x = x := by
      intro l x hl hx
      cases l with
      | inf => rfl
      | fin l =>
        have hx : |x| ≤ |l| := hx
        rw [abs_of_nonneg hl, abs_le] at hx
        simp only [clip]
        rw [min_eq_left hx.2, max_eq_right hx.1]
    rw [clip_in _ _ hlim hin'] at step1
    rw [step2, step1]
    have : kick s.RING o false +
        (setpoint s1.RING o false 1 - setpoint s.RING o false 1) / coef (vecAt s.RING o "NomPolynomB") 1 *
          numAt s.RING o "BendingAngle" +
        (setpoint s.RING o false 1 - setpoint s1.RING o false 1) / coef (vecAt s.RING o "NomPolynomB") 1 *
          numAt s.RING o "BendingAngle" = kick s.RING o false := by ring
    rw [this, clip_in _ _ hlim hin]
  · rw [if_neg hc] at step1 step2
    rw [step2, step1]

/-- **C18**, finding: the flag also acts on skew requests, where the skew value is compared with the normal quadrupole:
here the skew component is "changed" from 0 to 0 and the horizontal corrector moves by one bending angle. -/
theorem C18_skew_request_moves_corrector :
    ∃ (s s' : SC ℚ), setMagnetSetpoints [4] ⟨false, [0]⟩ true 1 "abs" true s = .ok () s' ∧
      setpoint s'.RING 4 true 1 = setpoint s.RING 4 true 1 ∧
      kick s'.RING 4 false = kick s.RING 4 false - numAt s.RING 4 "BendingAngle" ∧
      numAt s.RING 4 "BendingAngle" = 1/10 :=
  ⟨Example.sc, (setMagnetSetpoints [4] ⟨false, [0]⟩ true 1 "abs" true Example.sc).state,
    ok_of_isOk (by decide +kernel), by decide +kernel, by decide +kernel, by decide +kernel⟩

example : (setMagnetSetpoints [2, 4] ⟨false, [11/10]⟩ false 1 "rel" true Example.sc).isOk = true ∧
    kick (setMagnetSetpoints [2, 4] ⟨false, [11/10]⟩ false 1 "rel" true Example.sc).state.RING 4 false = 1/100 ∧
    kick (setMagnetSetpoints [2, 4] ⟨false, [11/10]⟩ false 1 "rel" true Example.sc).state.RING 2 false = 0 ∧
    Within (kickLimit Example.ring 4 false) (kick Example.ring 4 false) := by decide +kernel

/-! ### C63 -/
/-- **C63** After a set-point request each addressed cavity has the realised fields set-point times one plus the
calibration error plus the offset, for voltage, frequency and time lag. -/
theorem C63_realised_cavity_fields (ords : List Nat) (values : NpArr K) (field method : String) (s s' : SC K)
    (h : setCavitySetpoints ords values field method s = .ok () s') (o : Nat) (ho : o ∈ ords) (f : String)
    (hf : f ∈ ["Voltage", "Frequency", "TimeLag"]) :
    s'.RING.attr o f = some (.num (numAt s'.RING o (f ++ "SetPoint") * (1 + numAt s'.RING o (f ++ "CalError"))
      + numAt s'.RING o (f ++ "Offset"))) := by
  obtain ⟨sps, s1, -, -, h3⟩ := setCavitySetpoints_eq_ok h
  obtain ⟨x, hx, hs'⟩ := updateCavities_field h3 ho hf
  have hframe := (updateCavities_modifies _).ok h3
  simp only [cavityField, Except.bind_eq_ok', Ring.getNum_eq_ok, Except.ok.injEq] at hx
  obtain ⟨a, ha, b, hb, c, hc, rfl⟩ := hx
  have keep : ∀ suffix ∈ ["SetPoint", "CalError", "Offset"],
      s'.RING.attr o (f ++ suffix) = s1.RING.attr o (f ++ suffix) := by
    intro suffix hsuf
    refine hframe.attr _ _ (fun hh => ?_)
    have := hh.2
    revert this
    simp only [List.mem_cons, List.not_mem_nil, or_false] at hf hsuf
    rcases hf with rfl | rfl | rfl <;> rcases hsuf with rfl | rfl | rfl <;> simp [rfProperties]
  rw [hs', numAt_of_attr ((keep _ (by simp)).trans ha), numAt_of_attr ((keep _ (by simp)).trans hb),
    numAt_of_attr ((keep _ (by simp)).trans hc)]

example : (setCavitySetpoints [5] ⟨false, [10]⟩ "TimeLag" "add" Example.sc).isOk = true ∧
    (setCavitySetpoints [5] ⟨false, [10]⟩ "TimeLag" "add" Example.sc).state.RING.attr 5 "TimeLag" =
      some (.num 17) := by decide +kernel

end PySC
