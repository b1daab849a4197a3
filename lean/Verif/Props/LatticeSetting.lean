import Verif.Lemmas.LatticeSetting
import Verif.Spec.Example
/-
C31 Cavity and radiation switching.  C32 Tracking mode setter.
-/
set_option linter.unusedSectionVars false
namespace PySC
open Py Spec
variable {K : Type}

/-- Each argument of the call is one of the four documented words. -/
def Spec.SwitchWords (args : List String) : Prop :=
  ∀ a ∈ args, a = "radiationoff" ∨ a = "radiationon" ∨ a = "cavityoff" ∨ a = "cavityon"

theorem validSwitches_iff (args : List String) : (∀ a ∈ args, a ∈ validSwitches) ↔ SwitchWords args := by
  simp [validSwitches, SwitchWords]

/-- **C31** An unknown word is rejected and the ring stays as it was. -/
theorem C31_unknown_word (args : List String) (h : ¬ SwitchWords args) (r : Ring K) :
    switchCavityAndRadiation args r = .error .valueError r :=
  switch_rejects (fun h' => h ((validSwitches_iff args).1 h')) r

example : ¬ SwitchWords ["radiationoff", "cavity"] := by simp [SwitchWords]

/-- **C31** The call succeeds on every ring whose elements have pass methods, whatever the mixture of documented words; it
keeps the elements and their order, changes the pass method of each element as tabulated in `Spec.switched` and no other
attribute. -/
theorem C31_effect {args : List String} (h : SwitchWords args) (r : Ring K) (hp : HasPass r) :
    ∃ r', switchCavityAndRadiation args r = .ok () r' ∧ r'.length = r.length ∧
      (∀ i a, a ≠ "PassMethod" → r'.attr i a = r.attr i a) ∧
      ∀ i m, r.attr i "PassMethod" = some (.str m) →
        r'.attr i "PassMethod" = some (.str (switched args (r.attr i "Frequency").isSome m)) := by
  refine ⟨_, switch_ok ((validSwitches_iff args).2 h) hp, by simp, fun i a ha => ?_, fun i m hm => ?_⟩
  · unfold Ring.attr
    rw [List.getElem?_map]
    cases hi : r[i]? with
    | none => rfl
    | some e => simp [switchElem_other args e ha]
  · unfold Ring.attr at hm ⊢
    rw [List.getElem?_map]
    cases hi : r[i]? with
    | none => rw [hi] at hm; simp at hm
    | some e => rw [hi] at hm; exact switchElem_pass args e hm

example : SwitchWords ["radiationon", "cavityoff"] := by simp [SwitchWords]
example : HasPass Example.ring := by
  intro e he
  simp only [Example.ring, List.mem_cons, List.not_mem_nil, or_false] at he
  rcases he with rfl | rfl | rfl | rfl | rfl | rfl | rfl <;> exact ⟨_, rfl⟩

theorem switchElem_hasPass (args : List String) {r : Ring K} (h : HasPass r) : HasPass (r.map (switchElem args)) := by
  intro e he
  obtain ⟨e0, h0, rfl⟩ := List.mem_map.1 he
  obtain ⟨m, hm⟩ := h e0 h0
  exact ⟨_, switchElem_pass args e0 hm⟩

/-- **C31** A second call with the same words changes nothing. -/
theorem C31_idempotent {args : List String} (h : SwitchWords args) (r r1 : Ring K) (hp : HasPass r)
    (h1 : switchCavityAndRadiation args r = .ok () r1) : switchCavityAndRadiation args r1 = .ok () r1 := by
  have hv := (validSwitches_iff args).2 h
  rw [switch_ok hv hp] at h1
  cases h1
  rw [switch_ok hv (switchElem_hasPass args hp), List.map_map]
  congr 1
  apply List.map_congr_left
  intro e he
  obtain ⟨m, hm⟩ := hp e he
  funext a
  by_cases ha : a = "PassMethod"
  · subst ha
    have h2 := switchElem_pass args e hm
    rw [Function.comp, switchElem_pass args _ h2, h2, switchElem_other args e (by decide)]
    unfold switched
    cases (e "Frequency").isSome <;> by_cases h3 : "cavityoff" ∈ args <;> by_cases h4 : "cavityon" ∈ args <;>
      by_cases h5 : "radiationoff" ∈ args <;> by_cases h6 : "radiationon" ∈ args <;>
      simp [h3, h4, h5, h6, off_off, on_on]
  · rw [Function.comp, switchElem_other args _ ha]

/-- **C31** Switching radiation on and off again restores the ring exactly, if no element had a radiation pass method. -/
theorem C31_on_off_restores (r : Ring K) (hp : HasPass r)
    (hoff : ∀ i m, r.attr i "PassMethod" = some (.str m) → m ∉ radiationPairs.map Prod.snd) :
    ∃ r1, switchCavityAndRadiation ["radiationon"] r = .ok () r1 ∧
      switchCavityAndRadiation ["radiationoff"] r1 = .ok () r := by
  refine ⟨_, switch_ok (by decide) hp, ?_⟩
  rw [switch_ok (by decide) (switchElem_hasPass _ hp), List.map_map]
  congr 1
  conv_rhs => rw [← List.map_id r]
  apply List.map_congr_left
  intro e he
  obtain ⟨m, hm⟩ := hp e he
  obtain ⟨i, hi, rfl⟩ := List.getElem_of_mem he
  have hm' := hoff i m (by unfold Ring.attr; rw [List.getElem?_eq_getElem hi]; exact hm)
  funext a
  by_cases ha : a = "PassMethod"
  · subst ha
    have h2 := switchElem_pass ["radiationon"] _ hm
    rw [Function.comp, switchElem_pass _ _ h2, id, hm]
    simp [switched, off_on hm']
  · rw [Function.comp, switchElem_other _ _ ha, switchElem_other _ _ ha]; rfl

example : ∀ i < 7, ∀ m ∈ ["BndMPoleSymplectic4RadPass", "BndMPoleSymplectic4E2RadPass", "StrMPoleSymplectic4RadPass"],
    Example.ring.attr i "PassMethod" ≠ some (.str m) := by decide +kernel

/-- **C31** A call with 'radiationoff' leaves no element with a radiation pass method, also if 'radiationon' is passed
too. -/
theorem C31_off_wins {args : List String} (h : SwitchWords args) (hoff : "radiationoff" ∈ args) (r r' : Ring K)
    (hp : HasPass r) (hr : switchCavityAndRadiation args r = .ok () r') (i : Nat) (m : String)
    (hm : r'.attr i "PassMethod" = some (.str m)) : m ∉ radiationPairs.map Prod.snd := by
  obtain ⟨r1, e1, hlen, -, he⟩ := C31_effect h r hp
  rw [hr] at e1; cases e1
  have hlt : i < r.length := by
    rw [← hlen]
    by_contra hc
    unfold Ring.attr at hm
    rw [List.getElem?_eq_none (by omega)] at hm
    simp at hm
  obtain ⟨m0, hm0⟩ := hp _ (List.getElem_mem hlt)
  have := he i m0 (by unfold Ring.attr; rw [List.getElem?_eq_getElem hlt]; exact hm0)
  rw [hm] at this
  cases this
  unfold switched
  by_cases h1 : ((r.attr i "Frequency").isSome && decide ("cavityoff" ∈ args)) = true
  · rw [if_pos h1]; decide
  · rw [if_neg h1]
    by_cases h2 : ((r.attr i "Frequency").isSome && decide ("cavityon" ∈ args)) = true
    · rw [if_pos h2]; decide
    · rw [if_neg h2, if_pos hoff]; exact off_none m0

/-- **C31** Finding: switching the cavities off and on again does not restore a cavity that had a pass method other than
'RFCavityPass' (for instance 'DriftPass' of an inactive cavity with length), and 'cavityoff' gives a cavity with length
the pass method of an element without length. -/
theorem C31_cavity_not_restored :
    ∃ (r r1 r2 : Ring ℚ), HasPass r ∧ switchCavityAndRadiation ["cavityoff"] r = .ok () r1 ∧
      switchCavityAndRadiation ["cavityon"] r1 = .ok () r2 ∧ r.attr 0 "PassMethod" = some (.str "DriftPass") ∧
      r.attr 0 "Length" = some (.num 2) ∧ r1.attr 0 "PassMethod" = some (.str "IdentityPass") ∧
      r2.attr 0 "PassMethod" = some (.str "RFCavityPass") := by
  have hp : HasPass [(Elem.ofList [("PassMethod", .str "DriftPass"), ("Length", .num 2), ("Frequency", .num 5)] : Elem ℚ)] := by
    intro e he
    obtain rfl := List.mem_singleton.1 he
    exact ⟨_, rfl⟩
  exact ⟨_, _, _, hp, switch_ok (by decide) hp, switch_ok (by decide) (switchElem_hasPass _ hp), rfl, rfl,
    by decide +kernel, by decide +kernel⟩

/-- **C32** An unknown tracking mode is rejected and everything is kept. -/
theorem C32_unknown_mode (mode : String) (h : mode ≠ "TBT" ∧ mode ≠ "ORB" ∧ mode ≠ "PORB") (s : Inj K) :
    setTrackMode mode s = .error .attributeError s := by
  unfold setTrackMode
  rw [if_pos (by simp [trackingModes, h])]
  rfl

/-- **C32** Assigning 'ORB' selects one turn and one particle. -/
theorem C32_orb (s : Inj K) :
    setTrackMode "ORB" s = .ok () { s with trackMode := "ORB", nTurns := 1, nParticles := 1 } := rfl

/-- **C32** Assigning 'TBT' or 'PORB' changes the mode and nothing else. -/
theorem C32_tbt (mode : String) (h : mode = "TBT" ∨ mode = "PORB") (s : Inj K) :
    setTrackMode mode s = .ok () { s with trackMode := mode } := by
  rcases h with rfl | rfl <;> rfl

/-- the state after assigning the modes one after another, exceptions being caught by the caller -/
def Spec.assignAll (modes : List String) (s : Inj K) : Inj K := modes.foldl (fun s m => (setTrackMode m s).state) s

/-- **C32** Whatever is assigned in whatever order, the mode stays one of the three allowed ones, and it is the last
allowed mode that was assigned. -/
theorem C32_history (modes : List String) (s : Inj K) :
    (assignAll modes s).trackMode =
      ((modes.filter (fun m => m ∈ ["TBT", "ORB", "PORB"])).getLast?).getD s.trackMode := by
  induction modes generalizing s with
  | nil => rfl
  | cons m l ih =>
    change (assignAll l (setTrackMode m s).state).trackMode = _
    rw [ih]
    by_cases hm : m ∈ ["TBT", "ORB", "PORB"]
    · have : (setTrackMode m s).state.trackMode = m := by
        rcases (by simpa using hm : m = "TBT" ∨ m = "ORB" ∨ m = "PORB") with rfl | rfl | rfl <;> rfl
      rw [this, List.filter_cons_of_pos (by simpa using hm)]
      simp [List.getLast?_cons]
    · rw [List.filter_cons_of_neg (by simpa using hm), C32_unknown_mode m (by simpa using hm)]
      rfl

/-- **C32** In 'ORB' mode there are one turn and one particle, unless they are assigned later: after any sequence of
assignments of modes whose last allowed one is 'ORB'. -/
theorem C32_orb_history (before after : List String) (h : ∀ m ∈ after, m ∉ ["TBT", "ORB", "PORB"]) (s : Inj K) :
    let s' := assignAll (before ++ "ORB" :: after) s
    s'.trackMode = "ORB" ∧ s'.nTurns = 1 ∧ s'.nParticles = 1 := by
  have skip : ∀ s : Inj K, assignAll after s = s := by
    clear before
    induction after with
    | nil => intro s; rfl
    | cons m l ih =>
      intro s
      change assignAll l (setTrackMode m s).state = s
      rw [C32_unknown_mode m (by simpa using h m (by simp))]
      exact ih (fun m hm => h m (by simp [hm])) s
  have : assignAll (before ++ "ORB" :: after) s =
      { assignAll before s with trackMode := "ORB", nTurns := 1, nParticles := 1 } := by
    unfold assignAll
    rw [List.foldl_append, List.foldl_cons]
    exact skip _
  simp only [this, and_self]

example : (assignAll ["PORB", "orb", "ORB", "x"] Example.inj).trackMode = "ORB" := by decide +kernel

end PySC
