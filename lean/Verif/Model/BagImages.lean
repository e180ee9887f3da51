import Verif.Model.SensorFrom
import Verif.Model.CalText

/-! # Images taken out of ROS bags, and read again by `auv_nav parse`

Models /repo/src/scripts/extract_rosbag_images.py and `parse_rosbag_extracted_images` of /repo/src/auv_nav/parsers/parse_rosbag.py. -/

namespace Oplab

/-- The name of the file of an image with the stamp `ns`, in nanoseconds: `str(msg.header.stamp)` is their decimal number
(/repo/src/scripts/extract_rosbag_images.py L29-33). -/
def extractName (ns : ℕ) : Text :=
  let s := decDigits ns
  "frame".toList ++ s.take (s.length - 9) ++ ".".toList ++ s.drop (s.length - 9) ++ ".png".toList

/-- extract_rosbag_images.py L27-34: the images of one bag are written in order; a file that exists is replaced. `fs` is the folder: image by
name. -/
def extractBag {I : Type} (fs : Text → Option I) : List (ℕ × I) → Text → Option I
  | [] => fs
  | m :: ms => extractBag (fun n => if n = extractName m.1 then some m.2 else fs n) ms

/-- extract_rosbag_images.py L23-37: all bags, one after the other. -/
def extractRun {I : Type} (fs : Text → Option I) (bags : List (List (ℕ × I))) : Text → Option I := bags.foldl extractBag fs

/-- `float` of a text (/repo/src/auv_nav/parsers/parse_rosbag.py L280-283). Simplified: digits with at most one point; other texts that Python
accepts (signs, exponents, blanks, names of special values) are errors here. -/
def readDecimal (t : Text) : Option ℚ :=
  let a := t.takeWhile (· ≠ '.')
  let b := (t.dropWhile (· ≠ '.')).drop 1
  if a ++ b ≠ [] ∧ (a ++ b).all Char.isDigit then some ((digitsValue (a ++ b) : ℚ) / 10 ^ b.length) else none

/-- parse_rosbag.py L268-274, L280-283: the time in a name, `name[5:-5]`. -/
def extractedTime (name : Text) : Option ℚ := readDecimal ((name.take (name.length - 5)).drop 5)

/-- A record of a pair: time and file for each camera (parse_rosbag.py L290-311). -/
structure BagPair where
  t1 : ℚ
  file1 : Text
  t2 : ℚ
  file2 : Text
deriving DecidableEq

/-- `float` of one name, or 0 if it fails, which `parseExtracted` excludes (parse_rosbag.py L280-283). -/
def nameTime (n : Text) : ℚ := (extractedTime n).getD 0

/-- parse_rosbag.py L228-311 for the format "oplab": `names` is the listing of the folder. The times of all names are read in the first round
of the loop, so that one that is not a number ends the parser. -/
def parseExtracted (names : List Text) : Res (List BagPair) :=
  let files := names.filter fun n => ¬ (".txt".toList <:+: n) ∧ ¬ ("._".toList <:+: n)
  match allSome extractedTime files with
  | none => .error .valueError
  | some _ => .ok ((extractedPairs nameTime names).map fun p => ⟨nameTime p.1, p.1, nameTime p.2, p.2⟩)

end Oplab
