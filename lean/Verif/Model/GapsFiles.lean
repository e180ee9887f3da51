import Verif.Model.NavFile

/-! The files of a folder of GAPS logs, read one after the other. -/

namespace Oplab

/-- Where a value was read: the name of the file and the number of the line. -/
abbrev GapsSource := List Char × Nat

/-- parse_gaps.py L70-303: the variables of the parser, by the lines they were read from; `none` = not yet assigned. -/
structure GapsVars where
  flag : Nat := 0
  priorShip : Option GapsSource := none
  priorHeading : Option GapsSource := none
  target : Option GapsSource := none
  postShip : Option GapsSource := none
  postHeading : Option GapsSource := none

/-- A fix with the lines its values were read from. (parse_gaps.py L305-469) -/
structure GapsFileFix where
  priorShip : GapsSource
  priorHeading : GapsSource
  target : GapsSource
  postShip : GapsSource
  postHeading : GapsSource
  at_ : GapsSource
  deriving DecidableEq, Repr

/-- parse_gaps.py L81-303: the effect of a line at `i` on the variables (see `gapsRead`). Simplification: the values of a line are
those written in it, that is, the time fields of the telegrams are readable. -/
def gapsReadIn (s : GapsVars) (i : GapsSource) : GapsLine → GapsVars
  | .target valid _ =>
    if s.flag = 2 then
      if valid then { s with target := some i, flag := 3 } else { s with flag := 0 }
    else s
  | .ship =>
    if s.flag < 3 then { s with priorShip := some i, flag := if s.flag < 2 then s.flag + 1 else s.flag }
    else { s with postShip := some i, flag := s.flag + 1 }
  | .heading =>
    if s.flag < 3 then { s with priorHeading := some i, flag := if s.flag < 2 then s.flag + 1 else s.flag }
    else { s with postHeading := some i, flag := s.flag + 1 }
  | .other => s

/-- parse_gaps.py L305-469: output when the flag has reached 5. -/
def gapsEmitIn (s : GapsVars) (i : GapsSource) : Res (GapsVars × List GapsFileFix) :=
  if 5 ≤ s.flag then
    match s.priorShip, s.priorHeading, s.target, s.postShip, s.postHeading with
    | some a, some b, some c, some d, some e => .ok ({ s with flag := 0 }, [⟨a, b, c, d, e, i⟩])
    | _, _, _, _, _ => .error .unboundLocal
  else .ok (s, [])

/-- parse_gaps.py L73-469: the loop over the lines of the file `f`; the variables are handed on. -/
def gapsLines (f : List Char) (s : GapsVars) (i : Nat) : List GapsLine → Res (GapsVars × List GapsFileFix)
  | [] => .ok (s, [])
  | l :: ls => do
    let (s', out) ← gapsEmitIn (gapsReadIn s (f, i) l) (f, i)
    let (s'', rest) ← gapsLines f s' (i + 1) ls
    .ok (s'', out ++ rest)

/-- parse_gaps.py L67-469: the loop over the files: only the flag starts anew (L72). -/
def gapsLoop (s : GapsVars) : List (List Char × List GapsLine) → Res (List GapsFileFix)
  | [] => .ok []
  | (f, ls) :: files => do
    let (s', out) ← gapsLines f { s with flag := 0 } 0 ls
    let rest ← gapsLoop s' files
    .ok (out ++ rest)

/-- `".dat" in name`. (parse_gaps.py L60) -/
def hasDat : List Char → Bool
  | [] => false
  | c :: cs => ['.', 'd', 'a', 't'].isPrefixOf (c :: cs) || hasDat cs

/-- parse_gaps.py L56-469: the fixes of the folder whose entries are listed in this order (`os.listdir`, not sorted). -/
def gapsFolder (listing : List (List Char × List GapsLine)) : Res (List GapsFileFix) :=
  gapsLoop {} (listing.filter fun e => hasDat e.1)

end Oplab
