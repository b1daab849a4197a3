import Verif.Spec.Logging
import Mathlib.Data.List.Basic
import Mathlib.Order.Basic
/-
Levels and handlers of a tree of loggers.
-/
namespace PySC.Logging

theorem mem_ancestors {m n : Name} : m ∈ ancestors n ↔ m <+: n := by
  unfold ancestors
  simp only [List.mem_map, List.mem_reverse, List.mem_range]
  constructor
  · rintro ⟨k, -, rfl⟩; exact List.take_prefix k n
  · intro h
    exact ⟨m.length, Nat.lt_succ_of_le h.length_le, (List.prefix_iff_eq_take.1 h).symm⟩

theorem ancestors_prefix {d n : Name} (h : d <+: n) : ∃ A, ancestors n = A ++ ancestors d ∧ ∀ m ∈ A, d <+: m ∧ d ≠ m := by
  obtain ⟨t, rfl⟩ := h
  refine ⟨((List.range t.length).reverse.map (fun k => (d ++ t).take (d.length + 1 + k))), ?_, ?_⟩
  · unfold ancestors
    rw [List.length_append, show d.length + t.length + 1 = d.length + 1 + t.length by omega, List.range_add, List.reverse_append, List.map_append]
    congr 1
    · rw [← List.map_reverse, List.map_map]; rfl
    · refine List.map_congr_left ?_
      intro k hk
      simp only [List.mem_reverse, List.mem_range] at hk
      exact List.take_append_of_le_length (by omega)
  · intro m hm
    simp only [List.mem_map, List.mem_reverse, List.mem_range] at hm
    obtain ⟨k, hk, rfl⟩ := hm
    have hp : d <+: (d ++ t).take (d.length + 1 + k) := by
      rw [List.take_append]
      rw [List.take_of_length_le (by omega : d.length ≤ d.length + 1 + k)]
      exact List.prefix_append _ _
    refine ⟨hp, fun e => ?_⟩
    have := congrArg List.length e
    simp only [List.length_take, List.length_append] at this
    omega

/-- the first level that is set on a way -/
def firstLevel (s : Loggers) (l : List Name) (d : Nat) : Nat := ((l.map s.level).find? (fun l => l != 0)).getD d

theorem effectiveLevel_split {s : Loggers} {n d : Name} {A : List Name} (h : ancestors n = A ++ ancestors d) :
    effectiveLevel s n = firstLevel s A (effectiveLevel s d) := by
  unfold effectiveLevel firstLevel
  rw [h, List.map_append, List.find?_append]
  cases (A.map s.level).find? (fun l => l != 0) <;> simp

theorem firstLevel_congr {s s' : Loggers} {A : List Name} (h : ∀ m ∈ A, s.level m = s'.level m) (d : Nat) : firstLevel s A d = firstLevel s' A d := by
  unfold firstLevel
  rw [List.map_congr_left h]

theorem effectiveLevel_congr {s s' : Loggers} {n : Name} (h : ∀ m, m <+: n → s.level m = s'.level m) : effectiveLevel s n = effectiveLevel s' n := by
  unfold effectiveLevel
  rw [List.map_congr_left (fun m hm => h m (mem_ancestors.1 hm))]

theorem effectiveLevel_own {s : Loggers} {n : Name} (h : s.level n ≠ 0) : effectiveLevel s n = s.level n := by
  unfold effectiveLevel ancestors
  rw [List.range_succ]
  simp [h]

theorem emit_congr {s s' : Loggers} {n : Name} (h : effectiveLevel s n = effectiveLevel s' n) (hh : s.handlers = s'.handlers) (lvl : Nat) :
    emit s n lvl = emit s' n lvl := by
  unfold emit
  rw [h, hh]

/-- levels of loggers in `D` may have been set to what they were effectively -/
structure Pinned (D : List Name) (s s' : Loggers) : Prop where
  handlers : s'.handlers = s.handlers
  made : s.made ≤ s'.made
  others : ∀ n, n ∉ D → s'.level n = s.level n
  same : ∀ d ∈ D, effectiveLevel s' d = effectiveLevel s d

theorem Pinned.refl (D : List Name) (s : Loggers) : Pinned D s s := ⟨rfl, Nat.le_refl _, fun _ _ => rfl, fun _ _ => rfl⟩

theorem Pinned.trans {D : List Name} {s t u : Loggers} (h : Pinned D s t) (h' : Pinned D t u) : Pinned D s u :=
  ⟨h'.handlers.trans h.handlers, Nat.le_trans h.made h'.made, fun n hn => (h'.others n hn).trans (h.others n hn),
    fun d hd => (h'.same d hd).trans (h.same d hd)⟩

theorem Pinned.effective {D : List Name} (hD : Apart D) {s s' : Loggers} (h : Pinned D s s') (n : Name) : effectiveLevel s' n = effectiveLevel s n := by
  by_cases hex : ∃ d ∈ D, d <+: n
  · obtain ⟨d, hd, hp⟩ := hex
    obtain ⟨A, hA, hs⟩ := ancestors_prefix hp
    rw [effectiveLevel_split hA, effectiveLevel_split hA, h.same d hd]
    refine firstLevel_congr (fun m hm => h.others m (fun hm' => ?_)) _
    exact (hs m hm).2 (hD d hd m hm' (hs m hm).1)
  · push Not at hex
    exact effectiveLevel_congr (fun m hm => h.others m (fun hm' => hex m hm' hm))

theorem Pinned.output {D : List Name} (hD : Apart D) {s s' : Loggers} (h : Pinned D s s') : SameOutput s s' := by
  intro n lvl
  exact emit_congr (h.effective hD n).symm h.handlers.symm lvl

theorem Pinned.numbered {D : List Name} {s s' : Loggers} (h : Pinned D s s') (hs : Numbered s) : Numbered s' := by
  intro n x hx
  rw [h.handlers] at hx
  exact Nat.lt_of_lt_of_le (hs n x hx) h.made

theorem setLevel_level (s : Loggers) (n m : Name) (l : Nat) : (setLevel s n l).level m = if m = n then l else s.level m := rfl

/-- leaving a debug mode -/
theorem pinned_debug {D : List Name} (hD : Apart D) {s s2 : Loggers} (hs : Numbered s) {module base : Name} {file : String} {m : Mode} {s1 : Loggers}
    (hL : module ++ base ∈ D) (h1 : enterDebug module base file true s = .ok m s1) (h2 : Numbered s1 → Pinned D s1 s2) :
    Pinned D s (exitDebug m s2) := by
  unfold enterDebug at h1
  simp only [if_true, Res.ok.injEq] at h1
  obtain ⟨rfl, rfl⟩ := h1
  have hn : Numbered { setHandlers (setLevel s (module ++ base) DEBUG) module
      ((setLevel s (module ++ base) DEBUG).handlers module ++ [fileHandler (setLevel s (module ++ base) DEBUG).made file DEBUG,
        streamHandler ((setLevel s (module ++ base) DEBUG).made + 1) .stdout DEBUG (some DEBUG)]) with made := (setLevel s (module ++ base) DEBUG).made + 2 } := by
    intro n x hx
    simp only [setHandlers, setLevel] at hx
    show x.id < s.made + 2
    by_cases e : n = module
    · simp only [if_pos e, List.mem_append, List.mem_cons, List.not_mem_nil, or_false] at hx
      rcases hx with hx | rfl | rfl
      · exact Nat.lt_succ_of_lt (Nat.lt_succ_of_lt (hs _ x hx))
      · simp [fileHandler]
      · simp [streamHandler]
    · rw [if_neg e] at hx
      exact Nat.lt_succ_of_lt (Nat.lt_succ_of_lt (hs _ x hx))
  have P := h2 hn
  generalize hs1 : { setHandlers (setLevel s (module ++ base) DEBUG) module
      ((setLevel s (module ++ base) DEBUG).handlers module ++ [fileHandler (setLevel s (module ++ base) DEBUG).made file DEBUG,
        streamHandler ((setLevel s (module ++ base) DEBUG).made + 1) .stdout DEBUG (some DEBUG)]) with made := (setLevel s (module ++ base) DEBUG).made + 2 } = s1 at P
  have l1 : ∀ n, s1.level n = if n = module ++ base then DEBUG else s.level n := by intro n; rw [← hs1]; rfl
  have lvl3 : ∀ n, (exitDebug ⟨module ++ base, module, effectiveLevel s (module ++ base), fileHandler (setLevel s (module ++ base) DEBUG).made file DEBUG,
      streamHandler ((setLevel s (module ++ base) DEBUG).made + 1) .stdout DEBUG (some DEBUG)⟩ s2).level n =
      if n = module ++ base then effectiveLevel s (module ++ base) else s2.level n := fun n => rfl
  refine ⟨?_, ?_, ?_, ?_⟩
  · funext n
    have hh : s2.handlers n = s1.handlers n := by rw [P.handlers]
    have h1' : s1.handlers n = if n = module then s.handlers module ++ [fileHandler s.made file DEBUG,
        streamHandler (s.made + 1) .stdout DEBUG (some DEBUG)] else s.handlers n := by rw [← hs1]; rfl
    rw [h1'] at hh
    simp only [exitDebug, removeHandler, setHandlers, setLevel]
    by_cases e : n = module
    · subst e
      rw [if_pos rfl] at hh
      simp only [if_true, hh]
      simp only [List.filter_append, List.filter_filter, List.filter_cons, List.filter_nil, fileHandler, streamHandler]
      simp only [bne_self_eq_false, Bool.and_false, Bool.false_and, Bool.false_eq_true, if_false, List.append_nil]
      have hne : (s.made + 1 != s.made) = true := by simp
      simp only [hne, if_true, List.filter_cons, List.filter_nil, bne_self_eq_false, Bool.false_eq_true, if_false, List.append_nil]
      refine List.filter_eq_self.2 ?_
      intro x hx
      have := hs n x hx
      simp only [Bool.and_eq_true, bne_iff_ne, ne_eq]
      exact ⟨by omega, by omega⟩
    · simp only [if_neg e]
      rw [if_neg e] at hh
      exact hh
  · show s.made ≤ s2.made
    have : s1.made = s.made + 2 := by rw [← hs1]; rfl
    have := P.made
    omega
  · intro n hn'
    have hne : n ≠ module ++ base := fun e => hn' (e ▸ hL)
    rw [lvl3, if_neg hne, P.others n hn', l1, if_neg hne]
  · intro d hd
    by_cases e : d = module ++ base
    · subst e
      by_cases h0 : effectiveLevel s (module ++ base) = 0
      · -- no level was set anywhere on the way
        have hz : ∀ p, p <+: module ++ base → s.level p = 0 := by
          intro p hp
          by_contra hne
          have : effectiveLevel s (module ++ base) ≠ 0 := by
            unfold effectiveLevel
            cases hf : (List.map s.level (ancestors (module ++ base))).find? (fun l => l != 0) with
            | none =>
              rw [List.find?_eq_none] at hf
              exact absurd (hf (s.level p) (List.mem_map.2 ⟨p, mem_ancestors.2 hp, rfl⟩)) (by simpa using hne)
            | some v =>
              have := List.find?_some hf
              simpa using this
          exact this h0
        refine effectiveLevel_congr (fun p hp => ?_)
        rw [lvl3]
        by_cases ep : p = module ++ base
        · rw [if_pos ep, h0, hz p hp]
        · rw [if_neg ep, P.others p (fun hpD => ep (hD p hpD _ hL hp)), l1, if_neg ep]
      · have : (exitDebug ⟨module ++ base, module, effectiveLevel s (module ++ base), fileHandler (setLevel s (module ++ base) DEBUG).made file DEBUG,
            streamHandler ((setLevel s (module ++ base) DEBUG).made + 1) .stdout DEBUG (some DEBUG)⟩ s2).level (module ++ base) = effectiveLevel s (module ++ base) := by
          rw [lvl3, if_pos rfl]
        rw [effectiveLevel_own (by rw [this]; exact h0), this]
    · have hnot : ∀ p, p <+: d → p ≠ module ++ base := fun p hp ep => e (hD _ hL d hd (ep ▸ hp)).symm
      rw [show effectiveLevel _ d = effectiveLevel s2 d from effectiveLevel_congr (fun p hp => by rw [lvl3, if_neg (hnot p hp)]), P.same d hd]
      exact effectiveLevel_congr (fun p hp => by rw [l1, if_neg (hnot p hp)])

theorem run_pinned {D : List Name} (hD : Apart D) (a : Act) : a.Opens → (∀ d ∈ a.debugged, d ∈ D) → ∀ s, Numbered s → Pinned D s (a.run s).state := by
  induction a with
  | log n lvl => intro _ _ s _; exact Pinned.refl _ _
  | raise e => intro _ _ s _; exact Pinned.refl _ _
  | seq a b iha ihb =>
    intro ho hd s hs
    have ha := iha ho.1 (fun d h => hd d (List.mem_append_left _ h)) s hs
    unfold Act.run
    cases h : a.run s with
    | error e t => rw [h] at ha; exact ha
    | ok u t =>
      rw [h] at ha
      exact ha.trans (ihb ho.2 (fun d h => hd d (List.mem_append_right _ h)) t (ha.numbered hs))
  | debug module base file opens body ih =>
    intro ho hd s hs
    obtain ⟨ho1, ho⟩ := ho
    subst ho1
    unfold Act.run
    cases h : enterDebug module base file true s with
    | error e t => unfold enterDebug at h; simp at h
    | ok m t =>
      have key := fun hn => ih ho (fun d h => hd d (List.mem_cons_of_mem _ h)) t hn
      have := pinned_debug (s2 := (body.run t).state) hD hs (hd _ (List.mem_cons_self ..)) h key
      simp only
      cases hb : body.run t with
      | ok u t' => rw [hb] at this; exact this
      | error e t' => rw [hb] at this; exact this

end PySC.Logging

namespace PySC.Logging

/-- the handlers of the console -/
def consoleHandlers (made c : Nat) : List Handler :=
  [streamHandler made .stdout (max c DEBUG) (some (INFO - 1)), streamHandler (made + 1) .stdout (max c INFO) (some (WARNING - 1)),
   streamHandler (made + 2) .stdout (max WARNING c) (some (ERROR - 1)), streamHandler (made + 3) .stderr (max ERROR c) none]

theorem consoleHandlers_targets (made c lvl : Nat) :
    ((consoleHandlers made c).filter (fun h => h.accepts lvl)).map Handler.target = if c ≤ lvl ∧ 10 ≤ lvl then [consoleFor lvl] else [] := by
  have a1 : (streamHandler made .stdout (max c DEBUG) (some (INFO - 1))).accepts lvl = decide (c ≤ lvl ∧ 10 ≤ lvl ∧ lvl ≤ 19) := by
    simp [streamHandler, Handler.accepts, DEBUG, INFO, Nat.max_le, and_assoc, Bool.and_assoc]
  have a2 : (streamHandler (made + 1) .stdout (max c INFO) (some (WARNING - 1))).accepts lvl = decide (c ≤ lvl ∧ 20 ≤ lvl ∧ lvl ≤ 29) := by
    simp [streamHandler, Handler.accepts, INFO, WARNING, Nat.max_le, and_assoc, Bool.and_assoc]
  have a3 : (streamHandler (made + 2) .stdout (max WARNING c) (some (ERROR - 1))).accepts lvl = decide (30 ≤ lvl ∧ c ≤ lvl ∧ lvl ≤ 39) := by
    simp [streamHandler, Handler.accepts, WARNING, ERROR, Nat.max_le, and_assoc, Bool.and_assoc]
  have a4 : (streamHandler (made + 3) .stderr (max ERROR c) none).accepts lvl = decide (40 ≤ lvl ∧ c ≤ lvl) := by
    simp [streamHandler, Handler.accepts, ERROR, Nat.max_le]
  unfold consoleHandlers
  simp only [List.filter_cons, List.filter_nil, a1, a2, a3, a4, decide_eq_true_eq]
  by_cases h1 : c ≤ lvl
  · by_cases h2 : 10 ≤ lvl
    · by_cases h3 : 20 ≤ lvl
      · by_cases h4 : 30 ≤ lvl
        · by_cases h5 : 40 ≤ lvl
          · rw [if_neg (by omega), if_neg (by omega), if_neg (by omega), if_pos (by omega), if_pos (by omega)]
            simp [consoleFor, h5, streamHandler]
          · rw [if_neg (by omega), if_neg (by omega), if_pos (by omega), if_neg (by omega), if_pos (by omega)]
            simp [consoleFor, h5, streamHandler]
        · rw [if_neg (by omega), if_pos (by omega), if_neg (by omega), if_neg (by omega), if_pos (by omega)]
          simp [consoleFor, show ¬ 40 ≤ lvl by omega, streamHandler]
      · rw [if_pos (by omega), if_neg (by omega), if_neg (by omega), if_neg (by omega), if_pos (by omega)]
        simp [consoleFor, show ¬ 40 ≤ lvl by omega, streamHandler]
    · rw [if_neg (by omega), if_neg (by omega), if_neg (by omega), if_neg (by omega), if_neg (by omega)]
      rfl
  · rw [if_neg (by omega), if_neg (by omega), if_neg (by omega), if_neg (by omega), if_neg (by omega)]
    rfl

/-- the loggers after the set-up -/
theorem getLogger_handlers (debugFlag : Bool) (levelRoot : Nat) (asked : Option Nat) (s : Loggers) (n : Name) :
    (getLogger debugFlag "__main__" levelRoot asked s).handlers n = if n = [] then consoleHandlers s.made (consoleLevel debugFlag asked) else s.handlers n := by
  by_cases e : n = []
  · subst e; cases asked <;> rfl
  · simp only [getLogger, if_true, setHandlers, setLevel, if_neg e]

theorem ancestors_self (n : Name) : ∃ B, ancestors n = n :: B ∧ ∀ m ∈ B, m <+: n ∧ m ≠ n := by
  refine ⟨(List.range n.length).reverse.map n.take, ?_, ?_⟩
  · unfold ancestors
    rw [List.range_succ]
    simp
  · intro m hm
    simp only [List.mem_map, List.mem_reverse, List.mem_range] at hm
    obtain ⟨k, hk, rfl⟩ := hm
    refine ⟨List.take_prefix _ _, fun e => ?_⟩
    have := congrArg List.length e
    simp only [List.length_take] at this
    omega

theorem flatMap_only_root {s : Loggers} {n : Name} (hn : ∀ m, m <+: n → m ≠ [] → s.handlers m = []) : (ancestors n).flatMap s.handlers = s.handlers [] := by
  obtain ⟨A, hA, hs⟩ := ancestors_prefix (List.nil_prefix (l := n))
  have h0 : ancestors ([] : Name) = [[]] := rfl
  rw [hA, h0, List.flatMap_append]
  have : A.flatMap s.handlers = [] := by
    rw [List.flatMap_eq_nil_iff]
    intro m hm
    exact hn m (mem_ancestors.1 (by rw [hA]; exact List.mem_append_left _ hm)) (fun e => (hs m hm).2 e.symm)
  rw [this]
  simp

end PySC.Logging
