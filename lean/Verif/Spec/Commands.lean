import Verif.Model.Commands

/-!
# Which command is run
-/

namespace Oplab.Spec
open Oplab

/-- An entry point: it gets `argparse`, `sys.argv` and, from another module, a list of arguments. -/
abbrev EntryPoint := (List (List Char) → Res (ParsedArgs Nat)) → List (List Char) → Option (List (List Char)) → MainResult Nat

/-- What a program is asked to do: the arguments it is called with, or else those of the command line. -/
def askedFor (argv : List (List Char)) (args : Option (List (List Char))) : List (List Char) := args.getD argv.tail

/-- Full property: a program runs the command it is asked for. -/
def RunsWhatIsAsked (main : EntryPoint) : Prop :=
  ∀ (parse : List (List Char) → Res (ParsedArgs Nat)) (prog : List Char) (words : List (List Char)) (args : Option (List (List Char))) (c : Nat),
    askedFor (prog :: words) args ≠ [] →
    (∃ a, parse (askedFor (prog :: words) args) = .ok a ∧ a.func = some c ∧ a.suffix = []) → main parse (prog :: words) args = .ran c

/-- A suffix of letters, digits, dashes and underscores. -/
def GoodSuffix (s : List Char) : Prop :=
  ∀ c ∈ s, c ∈ "abcdefghijklmnopqrstuvwxyzABCDEFGHIJKLMNOPQRSTUVWXYZ0123456789-_".toList

end Oplab.Spec
