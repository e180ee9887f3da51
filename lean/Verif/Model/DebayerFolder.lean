import Verif.Model.Attenuation

/-! Debayering the images of a folder with several workers. -/

namespace Oplab

/-- A file: its folder and its name. -/
abbrev PicFile := String × List Char

/-- The name of a file with stem and extension; `Path.stem` of it is the stem if the extension has no dot.
(/repo/src/scripts/debayer_folder.py L50, L67) -/
def picName (stem ext : List Char) : List Char := stem ++ '.' :: ext

/-- debayer_folder.py L53-66: what is done for a pattern: a conversion, nothing at all, or (pattern not supported) the attempt to
write `None`, which OpenCV refuses. -/
def debayerMode (pattern : String) : Res (Option BayerCode) :=
  if pattern = "rggb" ∨ pattern = "RGGB" then .ok (some .bg)
  else if pattern = "grbg" ∨ pattern = "GRBG" then .ok (some .gb)
  else if pattern = "bggr" ∨ pattern = "BGGR" then .ok (some .rg)
  else if pattern = "gbrg" ∨ pattern = "GBRG" then .ok (some .gr)
  else if pattern = "mono" ∨ pattern = "MONO" then .ok none
  else .error .assertion

/-- debayer_folder.py L72-96: the arguments. -/
structure DebayerArgs where
  src : String
  ext : List Char
  pattern : String
  out : String

/-- debayer_folder.py L49-68: the two effects of a worker: it reads the image with a stem, and writes its result. -/
inductive DebayerStep where
  | read (stem : List Char)
  | write (stem : List Char)
  deriving DecidableEq

/-- The image that a step belongs to. (debayer_folder.py L49-68) -/
def DebayerStep.stem : DebayerStep → List Char
  | .read s => s
  | .write s => s

/-- The files, and the results that workers have computed and not yet written. (debayer_folder.py L49-68) -/
structure DebayerState (P : Type) where
  files : PicFile → Option P
  done : List Char → Option P

/-- debayer_folder.py L49-68: a step. `conv` is OpenCV's conversion, with `none` for an image it refuses; a missing image is `None`,
which it refuses, too. -/
def debayerStep {P : Type} (conv : BayerCode → P → Option P) (a : DebayerArgs) (s : DebayerState P) : DebayerStep → Res (DebayerState P)
  | .read stem => do
    let mode ← debayerMode a.pattern
    match mode with
    | none => .ok s
    | some code =>
      match (s.files (a.src, picName stem a.ext)).bind (conv code) with
      | none => .error .assertion
      | some p => .ok { s with done := fun t => if t = stem then some p else s.done t }
  | .write stem =>
    match s.done stem with
    | none => .ok s
    | some p => .ok { s with files := fun f => if f = (a.out, picName stem ['p', 'n', 'g']) then some p else s.files f }

/-- debayer_folder.py L97-101: the steps of all workers, in the order in which they happen. -/
def debayerSteps {P : Type} (conv : BayerCode → P → Option P) (a : DebayerArgs) (s : DebayerState P) : List DebayerStep → Res (DebayerState P)
  | [] => .ok s
  | e :: l => do
    let s' ← debayerStep conv a s e
    debayerSteps conv a s' l

/-- debayer_folder.py L72-101: a run, from the files at its beginning. -/
def debayerRun {P : Type} (conv : BayerCode → P → Option P) (a : DebayerArgs) (files : PicFile → Option P) (steps : List DebayerStep) :
    Res (PicFile → Option P) := do
  let s ← debayerSteps conv a ⟨files, fun _ => none⟩ steps
  .ok s.files

end Oplab
