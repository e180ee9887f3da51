import Verif.Model.PathTree

/-! # What a drawing of a tree of folders should show -/

namespace Oplab.Spec
open Oplab

mutual
/-- An entry and everything in it, each with the names of the folders that hold it, innermost first. -/
def entries (up : List String) : FsTree → List (List String × String)
  | .file n => [(up, n)]
  | .dir n cs => (up, n) :: entriesIn (n :: up) cs
/-- The same for the content of a folder. -/
def entriesIn (up : List String) : List FsTree → List (List String × String)
  | [] => []
  | c :: cs => entries up c ++ entriesIn up cs
end

mutual
/-- The number of folders in an entry, with itself. -/
def folders : FsTree → Nat
  | .file _ => 0
  | .dir _ cs => 1 + foldersIn cs
/-- The number of folders in a folder. -/
def foldersIn : List FsTree → Nat
  | [] => 0
  | c :: cs => folders c + foldersIn cs
end

/-- The place of a line: the names of the folders that hold it, innermost first, and its own. -/
def placeOf (p : PathLine) : List String × String := (p.parents.map (·.1), p.name)

/-- Exactly the entries at a depth below `max` are shown, each once, folders before their content. -/
def ShowsTree (max : Nat) (name : String) (cs : List FsTree) : Prop :=
  ∃ l, showTree max (some (name, cs)) = .ok l ∧
    l.map placeOf = (entries [] (.dir name cs)).filter fun e => decide (e.1.length < max)

end Oplab.Spec
