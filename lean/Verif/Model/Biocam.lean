import Verif.Model.Time
import Verif.Model.Parsers
import Verif.Model.Sonardyne

/-! # The parser of BioCam images

File `/repo/src/auv_nav/parsers/parse_biocam_images.py`. Text is a list of characters; times are exact rationals. The lists of files
that `glob` finds are parameters. The lists of time stamps are global variables in the code; here they start empty (the first dive that
is parsed by the program; see `Model/Parsers.lean` for the later ones). -/

namespace Oplab

/-- parse_biocam_images.py L44-47: microseconds from a fraction of six or three digits; otherwise `usec` stays unbound. -/
def biocamFraction (frac : List Char) : Res (Option Nat) :=
  if frac.length = 6 then (pyInt (slice frac 0 6)).map some
  else if frac.length = 3 then (pyInt (slice frac 0 3)).map fun n => some (n * 1000)
  else .ok none

/-- parse_biocam_images.py L32-56 `time_from_string`: a date before 2000 gives 0; a fraction that has neither six nor three characters
leaves `usec` unbound. -/
def biocamTime (date time frac : List Char) (tz offset : ℚ) : Res ℚ := do
  let yyyy ← pyInt (slice date 0 4)
  let mm ← pyInt (slice date 4 6)
  let dd ← pyInt (slice date 6 8)
  let hour ← pyInt (slice time 0 2)
  let mins ← pyInt (slice time 2 4)
  let secs ← pyInt (slice time 4 6)
  let usec ← biocamFraction frac
  if yyyy < 2000 then .ok 0
  else do
    let e ← dateTimeToEpoch ⟨yyyy, mm, dd, hour, mins, secs, 0⟩ tz
    match usec with
    | none => .error .unboundLocal
    | some u => .ok (e + u / 1000000 + offset)

/-- parse_biocam_images.py L59-87 `biocam_timestamp_from_filename`: the time of the computer and that of the camera. -/
def biocamStamp (name : List Char) (tz offset : ℚ) : Res (ℚ × ℚ) := do
  let parts := splitAtSep (· = '_') (stripBlanks name)
  if 4 < parts.length then do
    let d ← pyGet parts 0
    let t ← pyGet parts 1
    let f ← pyGet parts 2
    let cd ← pyGet parts 3
    let ct ← pyGet parts 4
    let cf ← pyGet parts 5
    let pc ← biocamTime d t f tz offset
    let cam ← biocamTime cd ct cf tz offset
    .ok (pc, cam)
  else do
    let d ← pyGet parts 1
    let t ← pyGet parts 2
    let f ← pyGet parts 3
    let pc ← biocamTime d t f tz offset
    let cam ← biocamTime d t f tz offset
    .ok (pc, cam)

/-- `Path(p).name` for a path of a file. (parse_biocam_images.py L177, L183, L247) -/
def baseName (p : List Char) : List Char := (splitAtSep (· = '/') p).getLastD []

/-- What `glob` finds for the two cameras: strobed images, laser images and images of the laser calibration.
(parse_biocam_images.py L136-150) -/
structure BioFiles where
  strobe1 : List (List Char)
  laser1 : List (List Char)
  calib1 : List (List Char)
  strobe2 : List (List Char)
  laser2 : List (List Char)
  calib2 : List (List Char)

/-- Python `sub in text`. (parse_biocam_images.py L152-158) -/
def hasText (sub text : List Char) : Bool := decide (sub <:+: text)

/-- The endings that are looked for. (parse_biocam_images.py L153-158) -/
def txtMark : List Char := ['.', 't', 'x', 't']
def hiddenMark : List Char := ['.', '_']
def jpgMark : List Char := ['.', 'j', 'p', 'g']

/-- parse_biocam_images.py L145-147, L152-154: the images of the first camera. -/
def BioFiles.camera1 (f : BioFiles) : List (List Char) :=
  (f.strobe1 ++ f.laser1 ++ f.calib1).filter fun p => !hasText txtMark p && !hasText hiddenMark p

/-- parse_biocam_images.py L148-150, L155-157: the images of the second camera. -/
def BioFiles.camera2 (f : BioFiles) : List (List Char) :=
  (f.strobe2 ++ f.laser2 ++ f.calib2).filter fun p => !hasText txtMark p && !hasText jpgMark p

/-- parse_biocam_images.py L148-150, L158: the laser images. -/
def BioFiles.camera3 (f : BioFiles) : List (List Char) :=
  (f.strobe2 ++ f.laser2 ++ f.calib2).filter fun p => hasText jpgMark p

/-- An image with the times of its name. -/
structure BioShot where
  file : List Char
  pc : ℚ
  cam : ℚ
deriving DecidableEq

/-- A record of the parser in the oplab format: a pair of images or a laser image. Only the times and files are kept; the constant
words are left out, and so is the shortening of the paths to those below the raw folder. (parse_biocam_images.py L195-221, L249-265) -/
inductive BioRecord where
  | image (left right : BioShot)
  | laser (shot : BioShot)
deriving DecidableEq

/-- parse_biocam_images.py L175-186: the times of a list of images. -/
def bioShots (tz offset : ℚ) : List (List Char) → Res (List BioShot)
  | [] => .ok []
  | p :: ps => do
    let t ← biocamStamp (baseName p) tz offset
    let rest ← bioShots tz offset ps
    .ok (⟨p, t.1, t.2⟩ :: rest)

/-- parse_biocam_images.py L29: the tolerance. -/
def bioTolerance : ℚ := 1 / 20

/-- parse_biocam_images.py L175-194: the pairs of images. The indices are always those of images, so the case of a missing one does
not occur. -/
def bioPairs (tz offset : ℚ) (f : BioFiles) : Res (List (BioShot × BioShot)) := do
  let left ← bioShots tz offset f.camera1
  let right ← bioShots tz offset f.camera2
  let pairs ← biocamPairs bioTolerance (left.map BioShot.pc) (right.map BioShot.pc)
  .ok (pairs.filterMap fun ij =>
    match left[ij.1]?, right[ij.2]? with
    | some a, some b => some (a, b)
    | _, _ => none)

/-- parse_biocam_images.py L99-269 in the oplab format. -/
def biocamOplab (tz offset : ℚ) (f : BioFiles) : Res (List BioRecord) := do
  let pairs ← bioPairs tz offset f
  let lasers ← bioShots tz offset f.camera3
  .ok (pairs.map (fun p => .image p.1 p.2) ++ lasers.map .laser)

/-- parse_biocam_images.py L99-269 in the acfr format: the time and file of each line. For a laser image the code appends a dictionary
to a text (L265): `AttributeError`. -/
def biocamAcfr (tz offset : ℚ) (f : BioFiles) : Res (List (ℚ × List Char)) := do
  let pairs ← bioPairs tz offset f
  match f.camera3 with
  | [] => .ok (pairs.flatMap fun p => [(p.1.pc, p.1.file), (p.2.pc, p.2.file)])
  | p :: _ => do
    let _ ← biocamStamp (baseName p) tz offset
    .error .attributeError

end Oplab
