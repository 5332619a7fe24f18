/-
Model of the logging functions of the Python layer: python/bempp/api/utils/logging.py and python/bempp/api/__init__.py:30-39
(the logger of potential operators is in Verif.Model.PyPotential).  Python's `logging` is modelled as documented: a logger with a level and handlers with levels; the
text around a message (time, host) is left out; files are opened for appending.
-/
namespace Verif.Logging

/-- Where a handler writes. -/
inductive Target where
  | console
  | file (name : String)
deriving DecidableEq, Repr

/-- A handler. -/
structure Handler where
  target : Target
  level : Nat

/-- `_LOGGER`, `_console_logging_handler`, and what has been written. -/
structure State where
  level : Nat
  handlers : List Handler
  consoleHandler : Option Handler
  written : Target → List String

/-- The levels `DEBUG` and `INFO`. -/
def DEBUG : Nat := 10
/-- The level `INFO`. -/
def INFO : Nat := 20

/-- `_init_logger` (`logging.py:24-30`) and `__init__.py:30-31`; the `NullHandler` writes nothing. -/
def State.init (written : Target → List String) : State := ⟨DEBUG, [], none, written⟩

/-- A handler writes a message. -/
def emit (level : Nat) (message : String) (w : Target → List String) (h : Handler) : Target → List String :=
  if h.level ≤ level then fun t => if t = h.target then w t ++ [message] else w t else w

/-- What a program calls. -/
inductive Call where
  | log (message : String) (level : Nat)
  | enableConsole (level : Nat)
  | enableFile (name : String) (level : Nat)
  | setLevel (level : Nat)

/-- `log`, `enable_console_logging`, `enable_file_logging`, `set_logging_level` (`logging.py:32-74`). -/
def State.call (st : State) : Call → State
  | .log message level =>
    if st.level ≤ level then { st with written := st.handlers.foldl (emit level message) st.written } else st
  | .enableConsole level =>
    match st.consoleHandler with
    | none => { st with handlers := st.handlers ++ [⟨.console, level⟩], consoleHandler := some ⟨.console, level⟩ }
    | some _ => st
  | .enableFile name level => { st with handlers := st.handlers ++ [⟨.file name, level⟩] }
  | .setLevel level => { st with level := level }

/-- A history. -/
def State.run (st : State) (calls : List Call) : State := calls.foldl State.call st

/-- An exception of the decorated function, or of the decorator. -/
inductive Exn (E : Type) where
  | own (e : E)
  | NameError

/-- `timeit` (`logging.py:77-97`): `verbose` is `global_parameters.verbosity.extended_verbosity`.  The name `bempp` is not defined in the
module: no function binds it for `timed_fun`. -/
def timed {α β E : Type} (verbose : Bool) (f : α → Except E β) (x : α) : Except (Exn E) β :=
  if verbose = false then
    match f x with
    | .ok y => .ok y
    | .error e => .error (.own e)
  else
    match f x with
    | .ok _ => .error .NameError
    | .error e => .error (.own e)

end Verif.Logging
