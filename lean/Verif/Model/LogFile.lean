import Verif.Model.LogRead

/-!
# Model of the log file with several handlers (`pvder/exceptionutil.py`, `pvder/utility_classes.py`)

`set_logger` adds one more file handler to the one logger of the tool each time it is called, and every creation of a model calls it.  Each handler holds its own open file and writes
at its own place in it.  Simplified: one character is one byte (ASCII text), and a handler's record reaches the file at once (`FileHandler` flushes after each record).
-/

namespace PvDer
namespace LogFile

open LogRead (Str Rec Level)

/-- A write of `s` at byte `p` of a file opened without appending: a gap behind the end is filled with zero bytes; writing nothing changes nothing (POSIX `write`). -/
def writeAt (file s : Str) (p : Nat) : Str :=
  if s = [] then file else file.take p ++ List.replicate (p - file.length) '\x00' ++ s ++ file.drop (p + s.length)

/-- How a handler has its file open. -/
inductive Mode
  | w | a
  deriving DecidableEq, Repr

/-- A `logging.FileHandler` (exceptionutil.py 68-72). `pos` matters for mode `'w'` only: a file opened for appending is written at its end. -/
structure Handler where
  mode : Mode
  level : Nat
  pos : Nat
  deriving DecidableEq, Repr

/-- The logger with the file all its handlers write to. -/
structure Logger where
  file : Str
  level : Nat
  handlers : List Handler

/-- A record as a line (`Formatter`, with the default format; `terminator`). -/
def line (r : Rec) : Str := r.render ++ ['\n']

/-- One handler writes a record (`Handler.handle`): nothing below its level. -/
def Handler.emit (file : Str) (h : Handler) (r : Rec) : Str × Handler :=
  if h.level ≤ r.level.num then
    match h.mode with
    | .w => (writeAt file (line r) h.pos, { h with pos := h.pos + (line r).length })
    | .a => (file ++ line r, h)
  else (file, h)

/-- All handlers, in the order in which they were added (`Logger.callHandlers`). -/
def emitAll (file : Str) (hs : List Handler) (r : Rec) : Str × List Handler :=
  hs.foldl (fun x h => ((h.emit x.1 r).1, x.2 ++ [(h.emit x.1 r).2])) (file, [])

/-- `logger.info`, `logger.debug`, `logger.error`, `logger.log`: nothing below the level of the logger. -/
def Logger.log (l : Logger) (r : Rec) : Logger :=
  if l.level ≤ r.level.num then { l with file := (emitAll l.file l.handlers r).1, handlers := (emitAll l.file l.handlers r).2 } else l

/-- `set_logger` (exceptionutil.py 64-74): the level of the logger, a further handler of this level; mode `'w'` opens, and so empties, the file at once. -/
def Logger.set (l : Logger) (level : Nat) (mode : Mode) : Logger :=
  { file := match mode with | .w => [] | .a => l.file
    level := level
    handlers := l.handlers ++ [⟨mode, level, 0⟩] }

/-- The logger before `create_logger` (exceptionutil.py 45-58), with what the file held before. -/
def blank (file : Str) : Logger := ⟨file, 0, []⟩

/-- A stretch of a program: `set_logger` with a level, then records.  The first is the import of the package (logutil.py 8-11), each further one the creation of a model with a
verbosity (DER_components.py 56, utility_classes.py 39-44) and everything logged until the next creation. -/
structure Stretch where
  level : Nat
  recs : List Rec

def stretch (mode : Mode) (l : Logger) (s : Stretch) : Logger := s.recs.foldl Logger.log (l.set s.level mode)

/-- A program from the import of the package on; `logConfig['mode']` is `'w'` (defaults.py 92-96). -/
def program (mode : Mode) (file : Str) (ss : List Stretch) : Logger := ss.foldl (stretch mode) (blank file)

/-! ## `ExceptionUtil.log` -/

/-- What a call of `ExceptionUtil.log` does. -/
inductive Outcome
  /-- It returns, having handed this record to the logger. -/
  | logged (level : Nat) (msg : Option Str)
  /-- It re-raises the exception being handled, having logged it, with the message as additional information. -/
  | reraised (reason : Str) (info : Option Str)
  /-- It raises `AttributeError`: there is no traceback to look into; nothing is logged. -/
  | attributeError
  deriving DecidableEq

/-- `log(level, msg)` (exceptionutil.py 106-115, with 79-103) where `handling` is the exception being handled, if any. -/
def logCall (handling : Option Str) (level : Option Nat) (msg : Option Str) : Outcome :=
  let level := match level with | some (n + 1) => n + 1 | _ => Level.error.num
  if level = Level.error.num then
    match handling with
    | some reason => .reraised reason (match msg with | some [] => none | m => m)
    | none => .attributeError
  else .logged level msg

end LogFile
end PvDer
