import Verif.Lemmas.Correctors
import Verif.Spec.Example
/-
C09 (corrector round trip), C10 (corrector limits), C19 (stepping forth and back).
-/
namespace PySC
open Py Spec
set_option linter.unusedSectionVars false
variable {K : Type _} [Field K] [LinearOrder K] [FloorRing K] [IsStrictOrderedRing K]

/-- a witness of success from a computed outcome -/
theorem ok_of_isOk {σ : Type _} {r : Res σ Unit} (h : r.isOk = true) : r = .ok () r.state := by
  cases r with
  | ok a s => rfl
  | error e s => simp [Res.isOk] at h

/-- **C09** What `get_cm_setpoints` reads after `set_cm_setpoints(..., 'abs')` with distinct ordinates is, corrector by
corrector, the requested kick clipped to the limit of that corrector and plane. -/
theorem C09_round_trip (ords : List Nat) (vals : List K) (skew : Bool) (s s' : SC K) (hnd : ords.Nodup)
    (hlim : ∀ o ∈ ords, Lim.Nonneg (kickLimit s.RING o skew))
    (h : setCMSetpoints ords ⟨false, vals⟩ skew "abs" s = .ok () s') :
    ∃ ks, getCMSetpoints ords skew s' = .ok ks s' ∧ ks.length = ords.length ∧
      ∀ k o, ords[k]? = some o → ks[k]? = some (clip (kickLimit s.RING o skew) (valueFor vals k)) := by
  refine ⟨ords.map (fun o => kick s'.RING o skew), ?_, by simp, ?_⟩
  · rw [getCMSetpoints, rd_eq_ok]
    exact ⟨mapM_except_ok (fun o ho => (setCMSetpoints_readable h ho).getCM1), rfl⟩
  · intro k o hk
    rw [List.getElem?_map, hk, Option.map_some, setCMSetpoints_kick_distinct h hnd hk,
      nextKick_float (hlim o (List.mem_iff_getElem?.2 ⟨k, hk⟩))]
    simp [asked]

/-- **C09**, the common case: a request within the limit is read back exactly. -/
theorem C09_exact_within_limits (ords : List Nat) (vals : List K) (skew : Bool) (s s' : SC K) (hnd : ords.Nodup)
    (hlim : ∀ o ∈ ords, Lim.Nonneg (kickLimit s.RING o skew))
    (hin : ∀ k o, ords[k]? = some o → Within (kickLimit s.RING o skew) (valueFor vals k))
    (h : setCMSetpoints ords ⟨false, vals⟩ skew "abs" s = .ok () s') :
    ∃ ks, getCMSetpoints ords skew s' = .ok ks s' ∧ ks.length = ords.length ∧
      ∀ k, k < ords.length → ks[k]? = some (valueFor vals k) := by
  obtain ⟨ks, h1, h2, h3⟩ := C09_round_trip ords vals skew s s' hnd hlim h
  refine ⟨ks, h1, h2, fun k hk => ?_⟩
  have hk' : ords[k]? = some ords[k] := by simp [hk]
  rw [h3 k _ hk']
  have hw := hin k _ hk'
  have hn := hlim _ (List.mem_iff_getElem?.2 ⟨k, hk'⟩)
  cases hl : kickLimit s.RING ords[k] skew with
  | inf => rfl
  | fin l =>
    rw [hl] at hw hn
    have hw : |valueFor vals k| ≤ |l| := hw
    rw [abs_of_nonneg hn, abs_le] at hw
    simp only [clip, Option.some.injEq]
    rw [min_eq_left hw.2, max_eq_right hw.1]

example : (setCMSetpoints [2, 1] ⟨false, [1/200, -1]⟩ false "abs" Example.sc).isOk = true := by decide +kernel
example : (getCMSetpoints [2, 1] false
      (setCMSetpoints [2, 1] ⟨false, [1/200, -1]⟩ false "abs" Example.sc).state).value? =
    some [1/200, -2/1000] := by decide +kernel
example : ∀ o ∈ [2, 1], Lim.Nonneg (kickLimit Example.ring o false) := by decide +kernel

/-- one `set_cm_setpoints` call -/
structure CMCall (K : Type _) where
  ords : List Nat
  values : NpArr K
  skew : Bool
  method : String

/-- the machine after a history of `set_cm_setpoints` calls, where calls that raise leave what they did behind -/
def afterCMCalls (calls : List (CMCall K)) (s : SC K) : SC K :=
  calls.foldl (fun s c => (setCMSetpoints c.ords c.values c.skew c.method s).state) s

/-- every kick of every element is within its limit -/
def AllKicksWithin (r : Ring K) : Prop := ∀ i skew, Within (kickLimit r i skew) (kick r i skew)

theorem AllKicksWithin.of_frame {r r' : Ring K} (h : AllKicksWithin r)
    (hk : ∀ i skew, kickLimit r' i skew = kickLimit r i skew ∧
      (kick r' i skew = kick r i skew ∨ Within (kickLimit r i skew) (kick r' i skew))) : AllKicksWithin r' := by
  intro i skew
  obtain ⟨h1, h2 | h2⟩ := hk i skew
  · rw [h1, h2]; exact h i skew
  · rw [h1]; exact h2

theorem setCM1_inv (skew isInt : Bool) (method : String) (o : Nat) (x : K) :
    Inv (fun s : SC K => AllKicksWithin s.RING) (setCM1 skew method isInt o x) := by
  intro s hs
  have hf := setCM1_modifies (skew := skew) (isInt := isInt) (method := method) (o := o) (x := x) s
  cases h : setCM1 skew method isInt o x s with
  | error e s' =>
    have : s' = s := by
      simp only [setCM1, bind_eq_error, rd_eq_error, rd_eq_ok, setAttr] at h
      rcases h with ⟨-, h⟩ | ⟨v, s1, ⟨-, rfl⟩, ⟨-, h⟩ | ⟨e', s2, ⟨-, rfl⟩, h⟩⟩
      · exact h
      · exact h
      · simp at h
    rw [this]; exact hs
  | ok u s' =>
    rw [h] at hf
    refine hs.of_frame (fun i sk => ⟨kickLimit_congr (hf.attr _ _ ?_), ?_⟩)
    · rintro ⟨-, h⟩; exact ne_setPoint (by simp [spNames]) _ h
    · show kick s'.RING i sk = _ ∨ _
      have := setCM1_kick h i sk
      by_cases hc : i = o ∧ sk = skew
      · right
        rw [if_pos hc] at this
        show Within _ (kick s'.RING i sk)
        rw [this]; exact clipped_within _ _ _
      · left; rw [if_neg hc] at this; exact this

/-- **C10** If all kicks are within the limits, they still are after any history of `set_cm_setpoints` calls, with any
arguments (all methods, both planes, integer or float values, repeated ordinates), also when calls raise an
exception. -/
theorem C10_limits_through_every_history (calls : List (CMCall K)) (s : SC K) (hs : AllKicksWithin s.RING) :
    AllKicksWithin (afterCMCalls calls s).RING := by
  induction calls generalizing s with
  | nil => exact hs
  | cons c calls ih =>
    refine ih _ ?_
    have : Inv (fun s : SC K => AllKicksWithin s.RING) (setCMSetpoints c.ords c.values c.skew c.method) := by
      unfold setCMSetpoints
      refine Inv.bind (Inv.lift _) (fun sps => Inv.bind (Inv.forEach (fun p _ => setCM1_inv _ _ _ _ _)) (fun _ => ?_))
      intro s hs
      refine hs.of_frame (fun i sk => ⟨kickLimit_congr (updateMagnets_keeps (by simp [magnetWrites])), Or.inl ?_⟩)
      exact updateMagnets_kick _ _ _ _
    exact this s hs

/-- **C10** for the correctors that a call addresses no assumption on the start is needed: after a successful call each
of them is within its limit. -/
theorem C10_addressed_within (ords : List Nat) (values : NpArr K) (skew : Bool) (method : String) (s s' : SC K)
    (h : setCMSetpoints ords values skew method s = .ok () s') (o : Nat) (ho : o ∈ ords) :
    Within (kickLimit s'.RING o skew) (kick s'.RING o skew) := by
  have hlim : kickLimit s'.RING o skew = kickLimit s.RING o skew :=
    kickLimit_congr (((setCMSetpoints_modifies _ _ _ _).ok h).attr _ _ (by
      rintro (⟨-, h⟩ | h)
      · exact ne_setPoint (by simp [spNames]) _ h
      · simp [magnetWrites] at h))
  obtain ⟨-, hl, -⟩ := setCMSetpoints_eq_ok h
  rw [hlim, setCMSetpoints_kick h]
  have hmem : o ∈ (ords.zip (spread ords.length values.vals)).map Prod.fst := by
    rw [map_fst_zip_spread hl]; exact ho
  obtain ⟨p, hp, hpo⟩ := List.mem_map.1 hmem
  have hne : (ords.zip (spread ords.length values.vals)).filter (fun p => p.1 = o) ≠ [] :=
    List.ne_nil_of_mem (List.mem_filter.2 ⟨hp, by simpa using hpo⟩)
  rw [← List.dropLast_concat_getLast hne, List.foldl_append]
  exact clipped_within _ _ _

example : AllKicksWithin Example.ring := by
  intro i skew
  by_cases hi : i < 7
  · have : i = 0 ∨ i = 1 ∨ i = 2 ∨ i = 3 ∨ i = 4 ∨ i = 5 ∨ i = 6 := by omega
    rcases this with rfl | rfl | rfl | rfl | rfl | rfl | rfl <;> cases skew <;>
      decide +kernel
  · have : ∀ a, Example.ring.attr i a = none := by
      intro a
      have : Example.ring[i]? = none := List.getElem?_eq_none (by show 7 ≤ i; omega)
      simp [Ring.attr, this]
    simp [kickLimit, this, Within]

example : kick (afterCMCalls [⟨[1, 1], ⟨false, [1/1000, 1]⟩, false, "add"⟩, ⟨[1, 7], ⟨false, [5]⟩, false, "rel"⟩]
    Example.sc).RING 1 false = 2/1000 := by decide +kernel

/-- **C19** Adding a step and subtracting it again restores the kick of every corrector whose limit was not hit by the
forward step (its kick being within the limit to begin with). -/
theorem C19_forth_and_back (ords : List Nat) (d : K) (skew : Bool) (s s1 s2 : SC K) (hnd : ords.Nodup)
    (h1 : setCMSetpoints ords ⟨false, [d]⟩ skew "add" s = .ok () s1)
    (h2 : setCMSetpoints ords ⟨false, [-d]⟩ skew "add" s1 = .ok () s2)
    (o : Nat) (ho : o ∈ ords) (hnn : Lim.Nonneg (kickLimit s.RING o skew))
    (hin : Within (kickLimit s.RING o skew) (kick s.RING o skew))
    (hin' : Within (kickLimit s.RING o skew) (kick s.RING o skew + d)) :
    kick s2.RING o skew = kick s.RING o skew := by
  obtain ⟨k, hk⟩ := List.mem_iff_getElem?.1 ho
  have hlim : kickLimit s1.RING o skew = kickLimit s.RING o skew :=
    kickLimit_congr (((setCMSetpoints_modifies _ _ _ _).ok h1).attr _ _ (by
      rintro (⟨-, h⟩ | h)
      · exact ne_setPoint (by simp [spNames]) _ h
      · simp [magnetWrites] at h))
  rw [setCMSetpoints_kick_distinct h2 hnd hk, setCMSetpoints_kick_distinct h1 hnd hk, hlim, nextKick_float hnn,
    nextKick_float hnn]
  cases hl : kickLimit s.RING o skew with
  | inf => simp [clip, asked, valueFor, coef]
  | fin l =>
    rw [hl] at hin hin' hnn
    have hnn : 0 ≤ l := hnn
    have hin : |kick s.RING o skew| ≤ |l| := hin
    have hin' : |kick s.RING o skew + d| ≤ |l| := hin'
    rw [abs_of_nonneg hnn, abs_le] at hin hin'
    simp only [clip, asked, valueFor, coef]
    simp only [String.reduceEq, if_false, if_true, List.length_cons, List.length_nil, Nat.zero_add,
      List.getD_cons_zero]
    have e : max (-l) (min (d + kick s.RING o skew) l) = d + kick s.RING o skew := by
      rw [min_eq_left (by linarith), max_eq_right (by linarith)]
    rw [e, min_eq_left (by linarith), max_eq_right (by linarith)]
    ring

/-- **C19**, clipping is not undone: if the forward step from a kick within the limit exceeds it and the step is at most twice the limit, the
kick does not come back. -/
theorem C19_clipped_step_is_not_undone (ords : List Nat) (d : K) (skew : Bool) (s s1 s2 : SC K) (hnd : ords.Nodup)
    (h1 : setCMSetpoints ords ⟨false, [d]⟩ skew "add" s = .ok () s1)
    (h2 : setCMSetpoints ords ⟨false, [-d]⟩ skew "add" s1 = .ok () s2)
    (o : Nat) (ho : o ∈ ords) (l : K) (hl : kickLimit s.RING o skew = .fin l) (hnn : 0 ≤ l)
    (hin : |kick s.RING o skew| ≤ l) (hd : |d| ≤ 2 * l) (hout : l < |kick s.RING o skew + d|) :
    kick s2.RING o skew ≠ kick s.RING o skew := by
  obtain ⟨k, hk⟩ := List.mem_iff_getElem?.1 ho
  have hlim : kickLimit s1.RING o skew = kickLimit s.RING o skew :=
    kickLimit_congr (((setCMSetpoints_modifies _ _ _ _).ok h1).attr _ _ (by
      rintro (⟨-, h⟩ | h)
      · exact ne_setPoint (by simp [spNames]) _ h
      · simp [magnetWrites] at h))
  have hn : Lim.Nonneg (Lim.fin l) := hnn
  rw [setCMSetpoints_kick_distinct h2 hnd hk, setCMSetpoints_kick_distinct h1 hnd hk, hlim, hl, nextKick_float hn,
    nextKick_float hn]
  simp only [clip, asked, valueFor, coef]
  simp only [String.reduceEq, if_false, if_true, List.length_cons, List.length_nil, Nat.zero_add,
    List.getD_cons_zero]
  rw [abs_le] at hd hin
  rcases lt_or_ge (kick s.RING o skew + d) 0 with hc | hc
  · rw [abs_of_neg hc] at hout
    have e : max (-l) (min (d + kick s.RING o skew) l) = -l := by
      rw [min_eq_left (by linarith), max_eq_left (by linarith)]
    rw [e, min_eq_left (by linarith), max_eq_right (by linarith)]
    intro h; linarith
  · rw [abs_of_nonneg hc] at hout
    have e : max (-l) (min (d + kick s.RING o skew) l) = l := by
      rw [min_eq_right (by linarith), max_eq_right (by linarith)]
    rw [e, min_eq_left (by linarith), max_eq_right (by linarith)]
    intro h; linarith

example : kick (afterCMCalls [⟨[1, 2], ⟨false, [1/1000]⟩, false, "add"⟩, ⟨[1, 2], ⟨false, [-1/1000]⟩, false, "add"⟩]
    Example.sc).RING 2 false = kick Example.ring 2 false := by decide +kernel
example : kick (afterCMCalls [⟨[1, 2], ⟨false, [3/1000]⟩, false, "add"⟩, ⟨[1, 2], ⟨false, [-3/1000]⟩, false, "add"⟩]
    Example.sc).RING 1 false = -1/1000 := by decide +kernel

end PySC
