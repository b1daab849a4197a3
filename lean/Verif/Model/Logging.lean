import Verif.Model.Py
/-
pySC/utils/logging_tools.py: set-up of the loggers and the debug mode, together with the parts of python's `logging` they rest on
(levels and handlers of a tree of loggers).  Levels are natural numbers, 0 is `NOTSET`.  A logger is given by the components of its dotted
name, the root logger by the empty list; loggers which were never asked for have no level and no handlers.  Formats and colours are not
modelled, neither is how the name of a logger is found from the file of the caller.
-/
namespace PySC.Logging

def DEBUG := 10
def INFO := 20
def WARNING := 30
def ERROR := 40

/-- where lines go -/
inductive Target
  | stdout
  | stderr
  | file (name : String)
deriving DecidableEq, Repr

/-- `logging.Handler` with the filter of pySC/utils/logging_tools.py:24-30 -/
structure Handler where
  id : Nat
  target : Target
  level : Nat
  maxLevel : Option Nat
deriving DecidableEq, Repr

abbrev Name := List String

/-- all loggers; `made` counts handlers made so far -/
structure Loggers where
  level : Name → Nat
  handlers : Name → List Handler
  made : Nat

/-- the logger itself, its parent, …, the root logger -/
def ancestors (n : Name) : List Name := (List.range (n.length + 1)).reverse.map n.take

/-- `Logger.getEffectiveLevel` -/
def effectiveLevel (s : Loggers) (n : Name) : Nat := (((ancestors n).map s.level).find? (fun l => l != 0)).getD 0

/-- `Handler.level` and filters -/
def Handler.accepts (h : Handler) (lvl : Nat) : Bool := decide (h.level ≤ lvl) && (match h.maxLevel with | none => true | some m => decide (lvl ≤ m))

/-- `Logger.log`: the targets on which a message of some level appears, in order; without any handler the handler of last resort is used -/
def emit (s : Loggers) (n : Name) (lvl : Nat) : List Target :=
  if effectiveLevel s n ≤ lvl then
    let hs := (ancestors n).flatMap s.handlers
    if hs.isEmpty then (if WARNING ≤ lvl then [.stderr] else [])
    else (hs.filter (fun h => h.accepts lvl)).map Handler.target
  else []

/-- pySC/utils/logging_tools.py:166-174 `stream_handler` (`max_level=0` counts as none) -/
def streamHandler (id : Nat) (target : Target) (level : Nat) (maxLevel : Option Nat) : Handler :=
  ⟨id, target, level, if maxLevel = some 0 then none else maxLevel⟩

/-- pySC/utils/logging_tools.py:157-163 `file_handler` -/
def fileHandler (id : Nat) (name : String) (level : Nat) : Handler := ⟨id, .file name, level, none⟩

/-- `Logger.setLevel` -/
def setLevel (s : Loggers) (n : Name) (l : Nat) : Loggers := { s with level := fun m => if m = n then l else s.level m }

def setHandlers (s : Loggers) (n : Name) (hs : List Handler) : Loggers := { s with handlers := fun m => if m = n then hs else s.handlers m }

/-- pySC/utils/logging_tools.py:92-154 `get_logger` (what it does; it returns the logger of the caller) -/
def getLogger (debugFlag : Bool) (name : String) (levelRoot : Nat) (levelConsole : Option Nat) (s : Loggers) : Loggers :=
  if name = "__main__" then
    let c := match levelConsole with | some c => c | none => if debugFlag then DEBUG else INFO
    let s := setLevel (setHandlers s [] []) [] levelRoot
    { setHandlers s []
        [streamHandler s.made .stdout (max c DEBUG) (some (INFO - 1)),
         streamHandler (s.made + 1) .stdout (max c INFO) (some (WARNING - 1)),
         streamHandler (s.made + 2) .stdout (max WARNING c) (some (ERROR - 1)),
         streamHandler (s.made + 3) .stderr (max ERROR c) none] with made := s.made + 4 }
  else s

/-- what a debug mode remembers: pySC/utils/logging_tools.py:50, 64-66 -/
structure Mode where
  logger : Name
  module : Name
  level : Nat
  fileH : Handler
  consoleH : Handler

/-- pySC/utils/logging_tools.py:41-71 `DebugMode(log_file=...)`, active: `module` and `base` are the two parts of the name of the
logger of the calling file, `opens` says whether the log file can be opened (`OSError` if not) -/
def enterDebug (module base : Name) (file : String) (opens : Bool) : Py Loggers Mode := fun s =>
  let logger := module ++ base
  let cur := effectiveLevel s logger
  let s := setLevel s logger DEBUG
  if opens then
    let fh := fileHandler s.made file DEBUG
    let ch := streamHandler (s.made + 1) .stdout DEBUG (some DEBUG)
    .ok ⟨logger, module, cur, fh, ch⟩ { setHandlers s module (s.handlers module ++ [fh, ch]) with made := s.made + 2 }
  else .error .exception s

/-- `Logger.removeHandler` -/
def removeHandler (s : Loggers) (n : Name) (h : Handler) : Loggers := setHandlers s n ((s.handlers n).filter (fun x => x.id != h.id))

/-- pySC/utils/logging_tools.py:76-87 `DebugMode.__exit__` -/
def exitDebug (m : Mode) (s : Loggers) : Loggers :=
  removeHandler (removeHandler (setLevel s m.logger m.level) m.module m.fileH) m.module m.consoleH

/-- programs that log, raise exceptions and use debug modes -/
inductive Act
  | log (n : Name) (lvl : Nat)
  | raise (e : Err)
  | seq (a b : Act)
  | debug (module base : Name) (file : String) (opens : Bool) (body : Act)

/-- `with DebugMode(...): body`: `__exit__` is called also if the body raises an exception, but not if `__init__` does -/
def Act.run : Act → Py Loggers Unit
  | .log _ _ => fun s => .ok () s
  | .raise e => fun s => .error e s
  | .seq a b => fun s => match a.run s with
    | .ok _ s => b.run s
    | .error e s => .error e s
  | .debug module base file opens body => fun s => match enterDebug module base file opens s with
    | .error e s => .error e s
    | .ok m s => match body.run s with
      | .ok _ s => .ok () (exitDebug m s)
      | .error e s => .error e (exitDebug m s)

end PySC.Logging
