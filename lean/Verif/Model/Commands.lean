import Verif.Model.Basic

/-!
Model of the entry points of the three programs: /repo/src/auv_nav/auv_nav.py, /repo/src/auv_cal/auv_cal.py and
/repo/src/correct_images/correct_images.py.  `argparse` is a parameter: it turns a list of words into a command or ends the
program.
-/

namespace Oplab

/-- What `parse_args` returns: the function of the subcommand, if one was named, with its arguments, and the suffix.
(correct_images.py L42-138) -/
structure ParsedArgs (C : Type) where
  func : Option C
  suffix : List Char

/-- How a program ends: it shows its help, runs a command, refuses the suffix, or fails. (correct_images.py L139-158) -/
inductive MainResult (C : Type) where
  | help
  | ran (c : C)
  | badSuffix
  | failed (e : Err)

variable {C : Type}

/-- `args.func(args)`. (auv_nav.py L291, auv_cal.py L135) -/
def callFunc (a : ParsedArgs C) : MainResult C :=
  match a.func with
  | some c => .ran c
  | none => .failed .attributeError

/-- auv_nav.py L26-292 `main`: `argv` is `sys.argv`, the name of the program first; the arguments that are parsed are
always those of `sys.argv`. -/
def navMain (parse : List (List Char) → Res (ParsedArgs C)) (argv : List (List Char)) (args : Option (List (List Char))) : MainResult C :=
  if argv.length = 1 ∧ args.isNone then .help
  else
    match parse argv.tail with
    | .ok a => callFunc a
    | .error e => .failed e

/-- auv_cal.py L17-135 `main`. -/
def calMain (parse : List (List Char) → Res (ParsedArgs C)) (argv : List (List Char)) (args : Option (List (List Char))) : MainResult C :=
  if argv.length = 1 ∧ args.isNone then .help
  else
    match parse (args.getD argv.tail) with
    | .ok a => callFunc a
    | .error e => .failed e

/-- correct_images.py L151: the characters that a suffix may have. -/
def suffixChar (c : Char) : Bool :=
  ('a' ≤ c && c ≤ 'z') || ('A' ≤ c && c ≤ 'Z') || c == '-' || c == '_' || ('0' ≤ c && c ≤ '9')

/-- correct_images.py L33-158 `main`.  Without a subcommand there is no `args.suffix`. -/
def correctMain (parse : List (List Char) → Res (ParsedArgs C)) (argv : List (List Char)) (args : Option (List (List Char))) : MainResult C :=
  if argv.length = 1 ∧ args.isNone then .help
  else if argv.length = 2 ∧ argv[1]? ≠ some ['-', 'h'] then
    match parse ["correct".toList, (argv[1]?).getD []] with
    | .ok a =>
      match a.func with
      | some c => .ran c
      | none => .help
    | .error e => .failed e
  else
    match parse argv.tail with
    | .ok a =>
      match a.func with
      | none => .failed .attributeError
      | some c => if a.suffix.all suffixChar then .ran c else .badSuffix
    | .error e => .failed e

end Oplab
