import Verif.Base.Py
import Mathlib.Logic.Function.Basic

/-!
Model of the logger set-up in `set_calibrator_properties`.  Logger names are taken to be neither empty, "root" nor
dotted, so that the only ancestor of a logger is the root logger.
-/

namespace Rascal

/-- The levels known to `logging.getLevelName` (src/rascal/calibrator.py:895), by their upper-case names; for other
names it returns a text that `setLevel` (896) refuses. -/
def levelName (name : String) : Option Nat :=
  let u := name.toList.map Char.toUpper
  if u = "CRITICAL".toList then some 50
  else if u = "FATAL".toList then some 50
  else if u = "ERROR".toList then some 40
  else if u = "WARNING".toList then some 30
  else if u = "WARN".toList then some 30
  else if u = "INFO".toList then some 20
  else if u = "DEBUG".toList then some 10
  else if u = "NOTSET".toList then some 0
  else none

/-- What matters of a logger (src/rascal/calibrator.py:893-908): its level and the number of its handlers. -/
structure LoggerState where
  level : Nat
  handlers : Nat
  deriving DecidableEq

/-- The loggers of the process, by name, with the level of the root logger, and the names of the loggers of the
calibrators (src/rascal/calibrator.py:893). -/
structure Logs where
  root : Nat
  get : String → LoggerState
  names : List String

/-- Constructing a calibrator (src/rascal/calibrator.py:82), or `set_calibrator_properties` with or without the two
logging arguments (859-867). -/
inductive LogOp
  | new
  | set (i : Nat) (name : Option String) (level : Option String)

/-- `setLevel` and the handler (src/rascal/calibrator.py:896-908). -/
def LoggerState.configure (g : LoggerState) (v : Nat) : LoggerState :=
  ⟨v, if g.handlers = 0 then 1 else g.handlers⟩

/-- The logger part of `set_calibrator_properties` (src/rascal/calibrator.py:893-908) for a logger name and a level. -/
def Logs.configure (L : Logs) (name level : String) : Logs × PyRes Unit :=
  match levelName level with
  | none => (L, .error .valueError)
  | some v => ({ L with get := Function.update L.get name ((L.get name).configure v) }, .ok ())

/-- One call (src/rascal/calibrator.py:82, 859-908): the calibrator has its logger before the level is looked at. -/
def Logs.step (L : Logs) : LogOp → Logs × PyRes Unit
  | .new => Logs.configure { L with names := L.names ++ ["Calibrator"] } "Calibrator" "warning"
  | .set i name level =>
    Logs.configure { L with names := L.names.set i (name.getD "Calibrator") } (name.getD "Calibrator") (level.getD "warning")

/-- A history of calls (src/rascal/calibrator.py:82, 859-908). -/
def Logs.steps (L : Logs) (h : List LogOp) : Logs := h.foldl (fun L o => (L.step o).1) L

/-- How often a message of a level appears when calibrator `i` logs it, as in src/rascal/calibrator.py:930: the logger
does not propagate (894); without a handler Python prints from WARNING on. -/
def Logs.printed (L : Logs) (i : Nat) (msg : Nat) : Nat :=
  match L.names[i]? with
  | none => 0
  | some name =>
    if msg < (if (L.get name).level = 0 then L.root else (L.get name).level) then 0
    else if (L.get name).handlers = 0 then (if msg < 30 then 0 else 1)
    else (L.get name).handlers

end Rascal
