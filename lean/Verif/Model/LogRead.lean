import Verif.Model.Basic

/-!
# Model of the log file and of reading it back (`pvder/exceptionutil.py`, `pvder/logutil.py`)

Text is a list of characters.  What the Python libraries do with dates and JSON is kept abstract (`Lib`): only that they are partial functions on text, that `json.loads`
undoes `json.dumps` for the dictionaries written here, and that a JSON value does not begin with an ordinary word.  Not modelled: the encoding of the file, format strings with
anything but separators between `%(...)` items on the writing side; several handlers on one logger are in `Model/LogFile.lean`.
-/

namespace PvDer
namespace LogRead

abbrev Str := List Char

/-- `str.split(sep)` for a nonempty separator: scan from the left, cut where the separator begins, go on behind it (`k` characters of it still to be skipped). -/
def splitAux (sep : Str) : Nat → Str → Str → List Str
  | _, acc, [] => [acc.reverse]
  | k + 1, acc, _ :: cs => splitAux sep k acc cs
  | 0, acc, c :: cs => if sep <+: c :: cs then acc.reverse :: splitAux sep (sep.length - 1) [] cs else splitAux sep 0 (c :: acc) cs

def split (sep s : Str) : List Str := splitAux sep 0 [] s

/-- Universal newlines of `open(path)` in text mode (exceptionutil.py 138-139): `\r\n` and `\r` become `\n`. -/
def universal : Str → Str
  | [] => []
  | [c] => if c = '\r' then ['\n'] else [c]
  | c :: d :: r => if c = '\r' then (if d = '\n' then '\n' :: universal r else '\n' :: universal (d :: r)) else c :: universal (d :: r)

/-- The characters at which `str.splitlines` breaks. -/
def isBreak (c : Char) : Bool :=
  c = '\n' || c = '\r' || c = '\x0b' || c = '\x0c' || c = '\x1c' || c = '\x1d' || c = '\x1e' || c = '\u0085' || c = '\u2028' || c = '\u2029'

/-- `str.splitlines()` (after `universal`, so `\r\n` need not be treated): no empty line at the end. -/
def linesAux : Str → Str → List Str
  | acc, [] => if acc = [] then [] else [acc.reverse]
  | acc, c :: cs => if isBreak c then acc.reverse :: linesAux [] cs else linesAux (c :: acc) cs

def splitlines (s : Str) : List Str := linesAux [] s

/-- White space of `str.strip()`. -/
def isSpace (c : Char) : Bool :=
  c = ' ' || c = '\t' || isBreak c || c = '\x1f' || c = '\u00a0' || c = '\u1680' || ('\u2000'.val ≤ c.val && c.val ≤ '\u200a'.val) || c = '\u202f' || c = '\u205f' || c = '\u3000'

def strip (s : Str) : Str := ((s.dropWhile isSpace).reverse.dropWhile isSpace).reverse

/-- `os.path.basename` on POSIX: what follows the last slash. -/
def basename (s : Str) : Str := ((s.reverse.takeWhile (· != '/'))).reverse

/-- The dictionary built by `_get_exception` and `exception_handler` (exceptionutil.py 77-99). -/
structure Err where
  lineno : Nat
  filename : Str
  funcName : Str
  line : Str
  reason : Str
  info : Option Str
  deriving DecidableEq

/-- The characters a JSON value may begin with, as Python reads JSON: white space, object, array, string, number, true, false, null, NaN, Infinity. -/
def jsonStart : Str := " \t\n\r{[\"-0123456789tfnNI".toList

/-- The library functions: `dateutil.parser.parse` (`none`: it raises), `json.dumps` of an error dictionary, `json.loads`, indexing a
decoded value by a key that gives text. -/
structure Lib where
  D : Type
  J : Type
  [decD : DecidableEq D]
  [decJ : DecidableEq J]
  parse : Str → Option D
  loads : Str → Option J
  item : J → Str → Option Str
  dumps : Err → Str
  loads_dumps : ∀ e, ∃ j, loads (dumps e) = some j ∧ item j "filename".toList = some e.filename ∧ item j "funcName".toList = some e.funcName
  /-- An object on one line (`json.dumps` without indentation escapes control characters and, with `ensure_ascii`, everything that is not ASCII). -/
  dumps_shape : ∀ e, ∃ s, dumps e = '{' :: s ++ ['}'] ∧ ∀ c ∈ s, isBreak c = false
  /-- JSON as Python reads it: an object, array, string, number, one of the words true, false, null, NaN, Infinity, after white space. -/
  loads_start : ∀ c s, loads (c :: s) ≠ none → c ∈ jsonStart

/-- What a field of an entry holds after reading. -/
inductive Val (L : Lib)
  | text (s : Str)
  | date (d : L.D)
  | json (j : L.J)

noncomputable instance (L : Lib) : DecidableEq (Val L) := Classical.decEq _

/-- A Python dictionary with text keys, as far as it can be looked into. -/
abbrev Entry (L : Lib) := Str → Option (Val L)

def Entry.set {L : Lib} (e : Entry L) (k : Str) (v : Val L) : Entry L := fun k' => if k' = k then some v else e k'

def kTime : Str := "%(asctime)s".toList
def kName : Str := "%(name)s".toList
def kFile : Str := "%(filename)s".toList
def kFunc : Str := "%(funcName)s".toList
def kLevel : Str := "%(levelname)s".toList
def kMsg : Str := "%(message)s".toList
def kThread : Str := "%(threadName)s".toList
def kProc : Str := "%(process)d".toList

/-- `_defaultFormatterStr`, `_defaultFormatterStrSep` (exceptionutil.py 38-40). -/
def defaultFmt : Str := "%(asctime)s::%(name)s::%(filename)s::%(funcName)s::%(levelname)s::%(message)s::%(threadName)s::%(process)d".toList
def defaultSep : Str := "::".toList

/-- `zip(header, parts)` into a dictionary (exceptionutil.py 145-146). -/
def fill {L : Lib} : List Str → List Str → Entry L → Entry L
  | h :: hs, v :: vs, e => fill hs vs (e.set (strip h) (.text (strip v)))
  | _, _, e => e

/-- `thisLog['%(asctime)s']=parser.parse(...)` (exceptionutil.py 147-148); `none`: it raises. -/
def withDate {L : Lib} (e : Entry L) : Option (Entry L) :=
  match e kTime with
  | none => some e
  | some (.text s) => (L.parse s).map fun d => e.set kTime (.date d)
  | some _ => none

/-- The treatment of entries of level ERROR (exceptionutil.py 149-154). -/
noncomputable def withError {L : Lib} (e : Entry L) : Option (Entry L) :=
  if e kLevel = some (.text "ERROR".toList) then
    match e kMsg with
    | some (.text s) =>
      match L.loads s with
      | none => none
      | some j =>
        let e := e.set kMsg (.json j)
        match (if e kFile = none then some e else (L.item j "filename".toList).map fun f => e.set kFile (.text (basename f))) with
        | none => none
        | some e => if e kFunc = none then some e else (L.item j "funcName".toList).map fun f => e.set kFunc (.text (basename f))
    | _ => none
  else some e

/-- One line (exceptionutil.py 143-154). -/
noncomputable def readLine {L : Lib} (sep : Str) (header : List Str) (line : Str) : Option (Entry L) :=
  (withDate (fill header (split sep line) fun _ => none)).bind withError

/-- `filterResult`: nothing (or anything falsy), a dictionary, or something else that is truthy. -/
inductive Filter (L : Lib)
  | none
  | dict (f : List (Str × Val L))
  | other

/-- `if not entry in thisLog or thisLog[entry]!=filterResult[entry]` for all entries (exceptionutil.py 156-161). An empty dictionary is falsy. -/
noncomputable def Filter.keeps {L : Lib} (f : Filter L) (e : Entry L) : Bool :=
  match f with
  | .dict l => l.all fun kv => decide (e kv.1 = some kv.2)
  | _ => true

/-- `get_logs` on the content of the file, for the format string and separator in force (exceptionutil.py 118-167): `none` if some line makes it raise. -/
noncomputable def getLogs {L : Lib} (fmt sep : Str) (f : Filter L) (file : Str) : Option (List (Entry L)) :=
  ((splitlines (universal file)).mapM (readLine sep (split sep fmt))).map fun l => l.filter f.keeps

/-! ## Writing -/

/-- The levels in use (the tool writes `info`, `debug`, `error`, `log(10, …)`, `log(20, …)`, `log(40, …)`; a level given as another number has the name `Level n` and is not modelled). -/
inductive Level
  | debug | info | warning | error | critical
  deriving DecidableEq, Repr

def Level.num : Level → Nat
  | .debug => 10 | .info => 20 | .warning => 30 | .error => 40 | .critical => 50

/-- `%(levelname)s`. -/
def Level.name : Level → Str
  | .debug => "DEBUG".toList | .info => "INFO".toList | .warning => "WARNING".toList | .error => "ERROR".toList | .critical => "CRITICAL".toList

/-- A logging record: the eight items of the default format. -/
structure Rec where
  time : Str
  name : Str
  file : Str
  func : Str
  level : Level
  msg : Str
  thread : Str
  proc : Str

/-- The items in the order of the default format (exceptionutil.py 38-39). -/
def Rec.items (r : Rec) : List Str := [r.time, r.name, r.file, r.func, r.level.name, r.msg, r.thread, r.proc]

/-- The default formatter: the items with `::` between them. -/
def Rec.render (r : Rec) : Str := defaultSep.intercalate r.items

/-- The file handler: records below the level are dropped, the others appended with a newline (`set_logger`, exceptionutil.py 62-74). -/
def write (level : Nat) (file : Str) (r : Rec) : Str := if level ≤ r.level.num then file ++ r.render ++ ['\n'] else file

/-- A session, from the opening of the file (`mode='w'`, defaults.py 92: empty; with `'a'` the earlier content is kept). -/
def session (level : Nat) (file : Str) (rs : List Rec) : Str := rs.foldl (write level) file

/-! ## Exceptions -/

/-- One guarded function active when an exception passes: where it is, and the items of the record that are not the message. -/
structure Frame where
  lineno : Nat
  filename : Str
  funcName : Str
  line : Str
  time : Str
  name : Str
  thread : Str
  proc : Str

/-- The error dictionary of a frame (exceptionutil.py 77-88): `reason` is the text of the exception. -/
def Frame.err (f : Frame) (reason : Str) : Err := ⟨f.lineno, f.filename, f.funcName, f.line, reason, none⟩

/-- The record written by `exception_handler` (exceptionutil.py 94-101): as the record's own place is `exceptionutil.py`, `exception_handler`, the true place is in the message. -/
def Frame.record (L : Lib) (f : Frame) (reason : Str) : Rec :=
  ⟨f.time, f.name, "exceptionutil.py".toList, "exception_handler".toList, .error, L.dumps (f.err reason), f.thread, f.proc⟩

/-- A call of nested guarded functions, innermost first, in which the innermost body raises `reason`: every function logs and re-raises.  Result: what the caller sees, and the records. -/
def raise (L : Lib) (reason : Str) (fs : List Frame) : Str × List Rec :=
  fs.foldl (fun x f => (x.1, x.2 ++ [f.record L x.1])) (reason, [])

end LogRead
end PvDer
