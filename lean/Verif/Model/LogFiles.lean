import Verif.Model.Basic

/-! What the programs print and what they write to their log files. -/

namespace Oplab

/-- The kinds of messages. (/repo/src/oplab/console.py L61-137) -/
inductive LogKind where
  | log | warn | warnVerbose | error | info | infoVerbose | quit
  deriving DecidableEq, Repr

/-- console.py L61-137: a step of a program, as far as messages are concerned. -/
inductive LogStep where
  /-- `Console.set_verbosity`. -/
  | verbosity (v : Bool)
  /-- `Console.set_logging_file`, and the three lines about version, user and host that it writes. -/
  | openLog (file : String) (header : List String)
  | message (kind : LogKind) (text : String)

/-- The module variables of console.py L24-25, the handlers of the root logger, the files and what was printed. -/
structure LogState where
  verbose : Bool := false
  handlers : List String := []
  files : String → List String := fun _ => []
  screen : List (LogKind × String) := []
  stopped : Bool := false

/-- console.py L72-137: whether a message is printed. -/
def logPrinted (verbose : Bool) : LogKind → Bool
  | .log => false
  | .warnVerbose => verbose
  | .infoVerbose => verbose
  | _ => true

/-- A record goes to every handler of the root logger, in the order in which they were added; each appends it to its file and
flushes it. (console.py L284-303) -/
def logRecord (text : String) (s : LogState) : LogState :=
  { s with files := s.handlers.foldl (fun fs h => fun f => if f = h then fs f ++ [text] else fs f) s.files }

/-- One step. Before the first log file `logger` is `None`, that is, there are no handlers; all levels are let through (L297-298);
`quit` ends the program (L137). A handler appends to its file (`FileHandler` opens with mode "a"), and handlers are only added (L299).
Lines are without their time and level. (console.py L61-137, L284-303) -/
def logApply (s : LogState) (e : LogStep) : LogState :=
  if s.stopped then s
  else match e with
    | .verbosity v => { s with verbose := v }
    | .openLog f header => header.foldl (fun s t => logRecord t s) { s with handlers := s.handlers ++ [f] }
    | .message k t =>
      let s := if logPrinted s.verbose k then { s with screen := s.screen ++ [(k, t)] } else s
      let s := logRecord t s
      if k = .quit then { s with stopped := true } else s

/-- A run, or the part of it before a crash. (console.py) -/
def logRun (s : LogState) (l : List LogStep) : LogState := l.foldl logApply s

/-- auv_nav.py L299-305: the dive in whose processed folder `auv_nav parse` writes its log. -/
def navParseLog (dives : List String) : Res String := pyGet dives 0

/-- correct_images.py L171-192: the dive in whose processed folder `correct_images parse` writes its log: `path` is the variable of
the loop over the dives. -/
def correctParseLog (dives : List String) : Res String :=
  match dives.getLast? with
  | some d => .ok d
  | none => .error .unboundLocal

/-- console.py L271-273: the number of filled places of the progress bar and its number of places. `"x" * n` is empty for negative
`n`. -/
def progressBar (iteration total length : Int) : Res (Nat × Nat) :=
  if total = 0 then .error .zeroDivision
  else
    let filled := Int.fdiv (length * iteration) total
    .ok (filled.toNat, filled.toNat + (length - filled).toNat)

end Oplab
