import Verif.Lemmas.Logging
/-
C116: log messages appear once, where they belong, and debug modes leave no trace.
-/
namespace PySC
open Logging

/-- **C116**, the set-up: whatever was set up before, each message of a logger (that has no handlers of its own) at or above the level
asked for appears exactly once on the console, errors on the error stream and the rest on the output stream; other messages do not
appear. -/
theorem C116_shown_once (debugFlag : Bool) (levelRoot : Nat) (asked : Option Nat) (s : Loggers) (n : Name)
    (hn : ∀ m, m <+: n → m ≠ [] → s.handlers m = []) (lvl : Nat) :
    let s' := getLogger debugFlag "__main__" levelRoot asked s
    emit s' n lvl = if effectiveLevel s' n ≤ lvl ∧ consoleLevel debugFlag asked ≤ lvl ∧ 10 ≤ lvl then [consoleFor lvl] else [] := by
  intro s'
  have hh : (ancestors n).flatMap s'.handlers = consoleHandlers s.made (consoleLevel debugFlag asked) := by
    rw [flatMap_only_root (fun m hm hne => by rw [getLogger_handlers, if_neg hne]; exact hn m hm hne), getLogger_handlers, if_pos rfl]
  unfold emit
  rw [hh]
  by_cases he : effectiveLevel s' n ≤ lvl
  · have hne : (consoleHandlers s.made (consoleLevel debugFlag asked)).isEmpty = false := rfl
    dsimp only
    rw [if_pos he, hne, if_neg (by simp), consoleHandlers_targets]
    simp only [he, true_and]
  · rw [if_neg he, if_neg (fun h => he h.1)]

/-- **C116**, the level of loggers: the one set for the logger itself, or else for the nearest of the modules it belongs to, or else the
one of the set-up. -/
theorem C116_level (debugFlag : Bool) (levelRoot : Nat) (asked : Option Nat) (s : Loggers) (n : Name) :
    let s' := getLogger debugFlag "__main__" levelRoot asked s
    (s.level n ≠ 0 → n ≠ [] → effectiveLevel s' n = s.level n) ∧
    (∀ m, m <+: n → m ≠ [] → s.level m ≠ 0 → (∀ p, m <+: p → p <+: n → p ≠ m → s.level p = 0) → effectiveLevel s' n = s.level m) ∧
    ((∀ m, m <+: n → m ≠ [] → s.level m = 0) → effectiveLevel s' n = levelRoot) := by
  intro s'
  have hl : ∀ m, s'.level m = if m = [] then levelRoot else s.level m := by
    intro m
    simp only [s', getLogger, if_true, setHandlers, setLevel]
  have up : ∀ m, m <+: n → (∀ p, m <+: p → p <+: n → p ≠ m → s.level p = 0) → effectiveLevel s' n = effectiveLevel s' m := by
    intro m hm hz
    obtain ⟨A, hA, hs⟩ := ancestors_prefix hm
    rw [effectiveLevel_split hA]
    unfold firstLevel
    have : (A.map s'.level).find? (fun l => l != 0) = none := by
      rw [List.find?_eq_none]
      intro x hx
      obtain ⟨p, hp, rfl⟩ := List.mem_map.1 hx
      have hpn : p <+: n := mem_ancestors.1 (by rw [hA]; exact List.mem_append_left _ hp)
      have hpne : p ≠ [] := by
        rintro rfl
        exact (hs _ hp).2 (List.prefix_nil.1 (hs _ hp).1)
      rw [hl, if_neg hpne, hz p (hs p hp).1 hpn (fun e => (hs p hp).2 e.symm)]
      simp
    rw [this]
    rfl
  refine ⟨?_, ?_, ?_⟩
  · intro h hne
    have e : s'.level n = s.level n := by rw [hl, if_neg hne]
    rw [effectiveLevel_own (by rw [e]; exact h), e]
  · intro m hm hne h hz
    have e : s'.level m = s.level m := by rw [hl, if_neg hne]
    rw [up m hm hz, effectiveLevel_own (by rw [e]; exact h), e]
  · intro hz
    rw [up [] (List.nil_prefix) (fun p _ hp hne => hz p hp hne)]
    unfold effectiveLevel ancestors
    by_cases h0 : levelRoot = 0 <;> simp [hl, h0]

/-- **C116**, debug modes: after a program with debug modes, in any order and nesting and whether it ended normally or with an exception,
messages of all loggers and levels appear as before.  (Missing: log files that cannot be opened, see `C116_violated_file`; and what
happens when levels are changed later, see `C116_violated_later`.) -/
theorem C116_debug_leaves_partial (a : Act) (ho : a.Opens) (ha : Apart a.debugged) (s : Loggers) (hs : Numbered s) :
    SameOutput s (a.run s).state :=
  (run_pinned ha a ho (fun _ h => h) s hs).output ha

/-- **C116**: in a debug mode every message of the logger from DEBUG on is written to the log file exactly once. -/
theorem C116_log_file (module base : Name) (file : String) (s : Loggers) (lvl : Nat) (hl : 10 ≤ lvl)
    (hf : ∀ m, m <+: module ++ base → ∀ h ∈ s.handlers m, h.target ≠ .file file) :
    ∃ m s', enterDebug module base file true s = .ok m s' ∧ (emit s' (module ++ base) lvl).count (.file file) = 1 := by
  refine ⟨_, _, rfl, ?_⟩
  set s' : Loggers := { setHandlers (setLevel s (module ++ base) DEBUG) module
      ((setLevel s (module ++ base) DEBUG).handlers module ++ [fileHandler (setLevel s (module ++ base) DEBUG).made file DEBUG,
        streamHandler ((setLevel s (module ++ base) DEBUG).made + 1) .stdout DEBUG (some DEBUG)]) with made := (setLevel s (module ++ base) DEBUG).made + 2 } with hs'
  have hh : ∀ m, s'.handlers m = if m = module then s.handlers module ++ [fileHandler s.made file DEBUG,
        streamHandler (s.made + 1) .stdout DEBUG (some DEBUG)] else s.handlers m := fun m => rfl
  have he : effectiveLevel s' (module ++ base) ≤ lvl := by
    have e : s'.level (module ++ base) = DEBUG := by simp [hs', setHandlers, setLevel]
    rw [effectiveLevel_own (by rw [e]; decide), e]
    exact hl
  obtain ⟨A, hA, hAs⟩ := ancestors_prefix (List.prefix_append module base)
  obtain ⟨C, hC, hCs⟩ := ancestors_self module
  have none_of : ∀ l : List Handler, (∀ h ∈ l, h.target ≠ .file file) → ((l.filter (fun h => h.accepts lvl)).map Handler.target).count (.file file) = 0 := by
    intro l h
    rw [List.count_eq_zero]
    intro hm
    obtain ⟨x, hx, e⟩ := List.mem_map.1 hm
    exact h x (List.mem_of_mem_filter hx) e
  have hm : ∀ l : List Name, (∀ m ∈ l, m <+: module ++ base ∧ m ≠ module) → ∀ h ∈ l.flatMap s'.handlers, h.target ≠ .file file := by
    intro l hl h hh'
    obtain ⟨m, hm, hx⟩ := List.mem_flatMap.1 hh'
    rw [hh, if_neg (hl m hm).2] at hx
    exact hf m (hl m hm).1 h hx
  have hall : (ancestors (module ++ base)).flatMap s'.handlers = A.flatMap s'.handlers ++ (s.handlers module ++
      [fileHandler s.made file DEBUG, streamHandler (s.made + 1) .stdout DEBUG (some DEBUG)]) ++ C.flatMap s'.handlers := by
    rw [hA, hC, List.flatMap_append, List.flatMap_cons, hh module, if_pos rfl]
    simp only [List.append_assoc, List.cons_append, List.nil_append]
  unfold emit
  rw [if_pos he, hall]
  have hne : (A.flatMap s'.handlers ++ (s.handlers module ++
      [fileHandler s.made file DEBUG, streamHandler (s.made + 1) .stdout DEBUG (some DEBUG)]) ++ C.flatMap s'.handlers).isEmpty = false := by
    simp
  dsimp only
  rw [hne, if_neg (by simp)]
  simp only [List.filter_append, List.map_append, List.count_append]
  rw [none_of _ (hm A (fun m hm => ⟨mem_ancestors.1 (by rw [hA]; exact List.mem_append_left _ hm), fun e => (hAs m hm).2 e.symm⟩)),
    none_of _ (hm C (fun m hm => ⟨(hCs m hm).1.trans (List.prefix_append _ _), (hCs m hm).2⟩)),
    none_of _ (hf module (List.prefix_append _ _))]
  have h1 : (fileHandler s.made file DEBUG).accepts lvl = true := by simp [fileHandler, Handler.accepts, DEBUG, hl]
  simp only [List.filter_cons, List.filter_nil, h1, if_true]
  by_cases h2 : (streamHandler (s.made + 1) .stdout DEBUG (some DEBUG)).accepts lvl = true
  · rw [if_pos h2]; simp [fileHandler, streamHandler]
  · rw [if_neg h2]; simp [fileHandler]

/-- a machine with nothing set up -/
def Example.silent : Loggers := ⟨fun n => if n = [] then 30 else 0, fun _ => [], 0⟩

/-- a session of `python`: set-up with warnings only, a debug mode in one file with a second one, which raises an exception, inside -/
def Example.debugging : Act :=
  .seq (.log ["pySC", "core", "beam"] 10) (.debug ["pySC", "core"] ["beam"] "a.log" true
    (.seq (.log ["pySC", "core", "beam"] 10) (.debug ["pySC"] ["tools"] "b.log" true (.raise .valueError))))

theorem Example.debugging_apart : Apart Example.debugging.debugged := by
  have : ∀ a ∈ Example.debugging.debugged, ∀ b ∈ Example.debugging.debugged, (a.isPrefixOf b = true → a = b) := by decide +kernel
  intro a ha b hb h
  exact this a ha b hb (List.isPrefixOf_iff_prefix.2 h)

theorem Example.silent_numbered (l : Nat) (c : Option Nat) : Numbered (getLogger false "__main__" l c Example.silent) := by
  intro n h hh
  rw [getLogger_handlers] at hh
  by_cases e : n = []
  · rw [if_pos e] at hh
    have hm : (getLogger false "__main__" l c Example.silent).made = 4 := rfl
    rw [hm]
    simp only [consoleHandlers, List.mem_cons, List.not_mem_nil, or_false] at hh
    rcases hh with rfl | rfl | rfl | rfl <;> simp [streamHandler, Example.silent]
  · rw [if_neg e] at hh
    cases hh

/-- a warning and an error appear once each, information does not; in the debug mode debug messages go to the file and the console, and the
session ends with the exception -/
example : (∀ m, m <+: ["pySC", "core", "beam"] → m ≠ [] → Example.silent.handlers m = []) ∧
    (let s := getLogger false "__main__" 20 (some 30) Example.silent
     [10, 20, 30, 40].map (emit s ["pySC", "core", "beam"]) = [[], [], [.stdout], [.stderr]] ∧
     Numbered s ∧ Example.debugging.Opens ∧ Apart Example.debugging.debugged ∧ (Example.debugging.run s).err? = some .valueError ∧
     ((enterDebug ["pySC", "core"] ["beam"] "a.log" true s).state.level ["pySC", "core", "beam"] = 10) ∧
     [10, 20, 30].map (emit (enterDebug ["pySC", "core"] ["beam"] "a.log" true s).state ["pySC", "core", "beam"]) =
       [[.file "a.log", .stdout], [.file "a.log"], [.file "a.log", .stdout]]) :=
  ⟨fun _ _ _ => rfl, by decide +kernel, Example.silent_numbered _ _, ⟨trivial, rfl, trivial, rfl, trivial⟩, Example.debugging_apart, by decide +kernel,
    by decide +kernel, by decide +kernel⟩

/-- **C116** is violated: if the log file of a debug mode cannot be opened, the logger stays at the level DEBUG: information that was not
shown before appears from then on. -/
theorem C116_violated_file :
    let s := getLogger false "__main__" 30 none Example.silent
    let s' := ((Act.debug ["pySC", "core"] ["beam"] "/nowhere/a.log" false (.log ["pySC", "core", "beam"] 10)).run s).state
    emit s ["pySC", "core", "beam"] 20 = [] ∧ emit s' ["pySC", "core", "beam"] 20 = [.stdout] := by
  decide +kernel

/-- **C116** is violated: after a debug mode the logger keeps the level it had, and no longer follows changes of the level for all. -/
theorem C116_violated_later :
    let s := getLogger false "__main__" 30 none Example.silent
    let s' := ((Act.debug ["pySC", "core"] ["beam"] "a.log" true (.log ["pySC", "core", "beam"] 10)).run s).state
    emit (getLogger false "__main__" 20 none s) ["pySC", "core", "beam"] 20 = [.stdout] ∧
    emit (getLogger false "__main__" 20 none s') ["pySC", "core", "beam"] 20 = [] := by
  decide +kernel

/-- **C116** is violated: with a console that shows debug messages, they appear twice in a debug mode. -/
theorem C116_violated_twice :
    let s := getLogger true "__main__" 10 none Example.silent
    emit s ["pySC", "core", "beam"] 10 = [.stdout] ∧
    emit (enterDebug ["pySC", "core"] ["beam"] "a.log" true s).state ["pySC", "core", "beam"] 10 = [.file "a.log", .stdout, .stdout] := by
  decide +kernel

end PySC
