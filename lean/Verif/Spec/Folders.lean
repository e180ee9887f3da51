import Verif.Model.Folders

/-! Vocabulary for the folder properties. -/

namespace Oplab.Spec

/-- The three folder keywords of a dataset. -/
def isKeyword (s : String) : Prop := s = "raw" ∨ s = "processed" ∨ s = "configuration"

/-- `path` is `pre / k / post`, with `k` its only keyword. -/
structure OneKeyword (path pre post : PathParts) (k : String) : Prop where
  split : path = pre ++ k :: post
  keyword : isKeyword k
  before : ∀ s ∈ pre, ¬ isKeyword s
  after : ∀ s ∈ post, ¬ isKeyword s

/-- `path` names a file below a directory with the given children. -/
inductive FileBelow : List FsNode → PathParts → Prop
  | here {cs n} (h : FsNode.file n ∈ cs) : FileBelow cs [n]
  | sub {cs n sub p} (h : FsNode.dir n sub ∈ cs) (h' : FileBelow sub p) : FileBelow cs (n :: p)

end Oplab.Spec
