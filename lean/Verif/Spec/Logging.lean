import Verif.Model.Logging
/-
What is shown of log messages (C116).
-/
namespace PySC.Logging

/-- the console a message belongs on -/
def consoleFor (lvl : Nat) : Target := if 40 ≤ lvl then .stderr else .stdout

/-- what the user has asked to see on the console: by default from INFO on, with `python -d` from DEBUG on -/
def consoleLevel (debugFlag : Bool) (asked : Option Nat) : Nat := asked.getD (if debugFlag then 10 else 20)

/-- a message shows on the same targets in both cases, whatever its logger and level -/
def SameOutput (s s' : Loggers) : Prop := ∀ n lvl, emit s n lvl = emit s' n lvl

/-- handlers have been made by someone -/
def Numbered (s : Loggers) : Prop := ∀ n, ∀ h ∈ s.handlers n, h.id < s.made

/-- the loggers whose files use debug modes -/
def Act.debugged : Act → List Name
  | .log _ _ | .raise _ => []
  | .seq a b => a.debugged ++ b.debugged
  | .debug module base _ _ body => (module ++ base) :: body.debugged

/-- all log files can be opened -/
def Act.Opens : Act → Prop
  | .log _ _ | .raise _ => True
  | .seq a b => a.Opens ∧ b.Opens
  | .debug _ _ _ opens body => opens = true ∧ body.Opens

/-- no logger is above another one (files are leaves of the tree of modules) -/
def Apart (l : List Name) : Prop := ∀ a ∈ l, ∀ b ∈ l, a <+: b → a = b

end PySC.Logging
