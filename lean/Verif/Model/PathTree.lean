import Verif.Model.Basic

/-! # Drawing a tree of folders

Model of `DisplayablePath` (/repo/src/auv_nav/tools/displayable_path.py). Line numbers refer to that file. -/

namespace Oplab

/-- What is on the disk. (displayable_path.py L46-50) A folder has its content in the order of `sorted` (L46-49: by path in lower case;
simplification: sorting is left out, and so are folders that cannot be listed). -/
inductive FsTree where
  | file (name : String)
  | dir (name : String) (children : List FsTree)

/-- The name of an entry. (displayable_path.py L29-31) -/
def FsTree.name : FsTree → String
  | .file n => n
  | .dir n _ => n

/-- Whether an entry is a folder. (displayable_path.py L29, L53) -/
def FsTree.isDir : FsTree → Bool
  | .file _ => false
  | .dir _ _ => true

/-- A `DisplayablePath` (displayable_path.py L18-25): its path, whether it is a folder, `is_last`, and `path` and `is_last` of its parents,
nearest first. The path is the list of the names from the root, in reverse. -/
structure PathLine where
  name : String
  isDir : Bool
  last : Bool
  parents : List (String × Bool)

/-- displayable_path.py L22-25: the depth. -/
def PathLine.depth (p : PathLine) : Nat := p.parents.length

/-- displayable_path.py L53-55: `this_depth` after the entry `c`, which is the last one if `last`. -/
def nextDepth (max this : Nat) (c : FsTree) (last : Bool) : Nat :=
  if c.isDir = true ∧ this < max ∧ last = false then this + 1 else this

mutual
/-- displayable_path.py L53-65 of `make_tree`, for one entry of a folder; `this` is `this_depth` after L55. `open_` tells whether it is
listed (L53). -/
def treeNode (max : Nat) (up : List (String × Bool)) (last open_ : Bool) (this : Nat) : FsTree → List PathLine
  | .file n => [⟨n, false, last, up⟩]
  | .dir n cs => ⟨n, true, last, up⟩ :: if open_ = true then treeLoop max ((n, last) :: up) this cs else []
/-- displayable_path.py L50-66: the loop over the entries of a folder. -/
def treeLoop (max : Nat) (up : List (String × Bool)) (this : Nat) : List FsTree → List PathLine
  | [] => []
  | c :: cs =>
    treeNode max up cs.isEmpty (decide (this < max)) (nextDepth max this c cs.isEmpty) c ++ treeLoop max up (nextDepth max this c cs.isEmpty) cs
end

/-- displayable_path.py L33-66 `make_tree` of a folder. -/
def makeTree (max : Nat) (name : String) (cs : List FsTree) : List PathLine := treeNode max [] false true 0 (.dir name cs)

/-- displayable_path.py L27-31 `displayname`. -/
def PathLine.label (p : PathLine) : List Char := p.name.toList ++ if p.isDir = true then ['/'] else []

/-- displayable_path.py L15-16 and L98-105: what is drawn for a parent. -/
def parentPrefix (last : Bool) : List Char := if last = true then "    ".toList else "│   ".toList

/-- displayable_path.py L86-107 `displayable`. The root is left out of the parents (L99). -/
def PathLine.text (p : PathLine) : List Char :=
  match p.parents with
  | [] => p.label
  | _ => (p.parents.dropLast.reverse.flatMap fun a => parentPrefix a.2) ++
      (if p.last = true then "└──".toList else "├──".toList) ++ ' ' :: p.label

/-- displayable_path.py L68-77 `show_tree`: the paths that are printed; without a root the class has no attribute `path`. -/
def showTree (max : Nat) (root : Option (String × List FsTree)) : Res (List PathLine) :=
  match root with
  | none => .error .attributeError
  | some (n, cs) => .ok ((makeTree max n cs).filter fun p => decide (p.depth < max))

end Oplab
