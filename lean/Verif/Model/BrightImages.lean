import Verif.Model.Correct

/-! # Lists of images with artefacts

Models /repo/src/scripts/compute_max_brightness.py and /repo/src/scripts/find_images_with_artefacts.py, with the command that the latter prints for
making a list of the other images, which correct_images then takes as the user's list of images for `parse` (`trimRows` in `Model/Correct.lean`). -/

namespace Oplab
variable {K : Type} [Field K] [LinearOrder K]

/-- What `imageio.v2.imread` gives (/repo/src/scripts/compute_max_brightness.py L55): two axes for grey images, otherwise rows of pixels with
channels. -/
inductive BrightImg (K : Type) where
  | grey (rows : List (List K))
  | colour (rows : List (List (List K)))

/-- `img.mean(axis=2)` for one pixel (/repo/src/scripts/compute_max_brightness.py L57). -/
def channelMean (px : List K) : K := px.sum / px.length

/-- compute_max_brightness.py L57-58: `img.mean(axis=2).max()`. A grey image has no third axis; an image without pixels has no maximum. -/
def brightMax : BrightImg K → Res K
  | .grey _ => .error .valueError
  | .colour rows =>
    match rows.flatten.map channelMean with
    | [] => .error .valueError
    | m :: ms => .ok (ms.foldl max m)

/-- compute_max_brightness.py L54-58: the loop over the images. -/
def brightLoop (load : String → Res (BrightImg K)) : List String → Res (List (String × K))
  | [] => .ok []
  | p :: ps => do
    let img ← load p
    let m ← brightMax img
    let rest ← brightLoop load ps
    .ok ((p, m) :: rest)

/-- compute_max_brightness.py L49-61: the table, first the jpg files of the folder, then the png files. -/
def brightTable (load : String → Res (BrightImg K)) (jpgs pngs : List String) : Res (List (String × K)) := brightLoop load (jpgs ++ pngs)

/-- How `to_csv` writes a text: in quotes, with quotes doubled, if it has a comma, a quote or a line break
(/repo/src/scripts/find_images_with_artefacts.py L59-61). -/
def csvText (s : String) : String :=
  if s.toList.any (fun c => c == ',' || c == '"' || c == '\n' || c == '\r') then
    String.ofList ('"' :: s.toList.flatMap (fun c => if c == '"' then ['"', '"'] else [c]) ++ ['"'])
  else s

/-- find_images_with_artefacts.py L53-61: the lines of the list. Reading the table back gives what was written. -/
def brightList (threshold : K) (table : List (String × K)) : List String :=
  (table.filter fun r => threshold < r.2).map fun r => csvText r.1

/-- `grep` at one place of a line: a dot stands for any character (the command in /repo/src/scripts/find_images_with_artefacts.py L65-69; paths
with other special characters are left out). -/
def dotPrefix : List Char → List Char → Bool
  | [], _ => true
  | _ :: _, [] => false
  | p :: ps, c :: cs => (p == '.' || p == c) && dotPrefix ps cs

/-- A line in which `grep` finds a pattern (/repo/src/scripts/find_images_with_artefacts.py L65-69). -/
def grepFinds (pattern line : String) : Bool := line.toList.tails.any (dotPrefix pattern.toList)

/-- `grep -v -f outlier_images.txt full_file_list.txt` (/repo/src/scripts/find_images_with_artefacts.py L65-69). -/
def grepWithout (patterns lines : List String) : List String := lines.filter fun l => !patterns.any fun p => grepFinds p l

end Oplab
