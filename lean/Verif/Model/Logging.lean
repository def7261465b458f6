/-!
Model of `splinepy/utils/log.py`: the logger "splinepy", its handlers, and where a message goes.

Simplified: levels are numbers (debug 10, info 20, warning 30, error 40); handlers of the root logger and formats are left out; files are named by numbers and can always be opened.
-/
namespace Splinepy.Logging

/-- Handlers of the logger: `logging.StreamHandler` (prints), `logging.FileHandler` (a subclass of `StreamHandler`), or a handler of the user that is neither. (Python's `logging`) -/
inductive Handler
  | stream (level : Nat)
  | file (path : Nat)
  | other (id level : Nat)
deriving DecidableEq

/-- The logger. (splinepy/utils/log.py 25) -/
structure Logger where
  level : Nat := 0
  handlers : List Handler := []
deriving DecidableEq

/-- `isinstance(h, logging.StreamHandler)`: true also for `FileHandler`. (splinepy/utils/log.py 43) -/
def Handler.isStream : Handler → Bool
  | .stream _ => true
  | .file _ => true
  | .other _ _ => false

/-- Level of a handler; a new `FileHandler` has none. (splinepy/utils/log.py 52, 60) -/
def Handler.level : Handler → Nat
  | .stream l => l
  | .file _ => 0
  | .other _ l => l

/-- `configure(debug, logfile)`, splinepy/utils/log.py 10-61. -/
def configure (g : Logger) (debug : Bool) (logfile : Option Nat) : Logger :=
  let level := if debug then 10 else 20
  let kept := g.handlers.filter (fun h => !h.isStream) ++ [.stream level]
  ⟨level, kept ++ logfile.toList.map .file⟩

/-- What the user does: `log.configure`, or `logging.getLogger("splinepy").addHandler` with a handler of their own. -/
inductive Op
  | configure (debug : Bool) (logfile : Option Nat)
  | addOther (id level : Nat)

/-- Effect of a call, splinepy/utils/log.py 10-61. -/
def step (g : Logger) : Op → Logger
  | .configure d f => configure g d f
  | .addOther id level => { g with handlers := g.handlers ++ [.other id level] }

/-- A history; `import splinepy` configures once. (splinepy/__init__.py 37) -/
def run (ops : List Op) : Logger := ops.foldl step (configure {} false none)

/-- The handlers that a message of a level reaches: `debug`, `info`, `warning`, `error`. (splinepy/utils/log.py 64-121) -/
def reached (g : Logger) (level : Nat) : List Handler := if g.level ≤ level then g.handlers.filter (fun h => h.level ≤ level) else []

end Splinepy.Logging
