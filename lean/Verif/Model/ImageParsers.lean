import Verif.Model.Time
import Verif.Model.Interpolate

/-! # Parsers of image lists, tides and the AE2000 logs

Files in `/repo/src/auv_nav/parsers`. Text is a list of characters; times are exact rationals. -/

namespace Oplab

/-! ## SeaXerocks (parse_seaxerocks_images.py) -/

/-- The time of a row of FileTime.csv: parse_seaxerocks_images.py L114-143 and L251-276 (the laser camera has its own offset). -/
def fileTimeStamp (date time ms : List Char) (tz offset : ℚ) : Res ℚ := do
  let yyyy ← pyInt (slice date 0 4)
  let mm ← pyInt (slice date 4 6)
  let dd ← pyInt (slice date 6 8)
  let hour ← pyInt (slice time 0 2)
  let mins ← pyInt (slice time 2 4)
  let secs ← pyInt (slice time 4 6)
  let msec ← pyInt (slice ms 0 3)
  let e ← dateTimeToEpoch ⟨yyyy, mm, dd, hour, mins, secs, 0⟩ tz
  .ok (e + msec / 1000 + offset)

/-- The word in the header. -/
def dateWord : List Char := ['d', 'a', 't', 'e']

/-- parse_seaxerocks_images.py L105-143: the rows of the file of the stereo cameras, each a list of fields; a row with fewer than
four fields is an `IndexError`. -/
def stereoRows (tz offset : ℚ) : List (List (List Char)) → Res (List (List Char × ℚ))
  | [] => .ok []
  | row :: rest =>
    match row with
    | i :: d :: t :: ms :: _ =>
      if d = dateWord then stereoRows tz offset rest
      else do
        let e ← fileTimeStamp d t ms tz offset
        let r ← stereoRows tz offset rest
        .ok ((i, e) :: r)
    | _ => .error .indexError

/-- parse_seaxerocks_images.py L243-277: the same for the laser camera, where short rows are skipped. -/
def laserRows (tz offset : ℚ) : List (List (List Char)) → Res (List (List Char × ℚ))
  | [] => .ok []
  | row :: rest =>
    match row with
    | i :: d :: t :: ms :: _ =>
      if d = dateWord then laserRows tz offset rest
      else do
        let e ← fileTimeStamp d t ms tz offset
        let r ← laserRows tz offset rest
        .ok ((i, e) :: r)
    | _ => laserRows tz offset rest

/-- `"{}.raw".format(i).split(".")[0]` (parse_seaxerocks_images.py L145-153). -/
def rawStem (i : List Char) : List Char := i.takeWhile fun c => c ≠ '.'

/-- Python's `<` on texts. -/
def textLess : List Char → List Char → Bool
  | _, [] => false
  | [], _ :: _ => true
  | a :: as, b :: bs => if a.toNat < b.toNat then true else if b.toNat < a.toNat then false else textLess as bs

/-- parse_seaxerocks_images.py L155-191: the loop that looks for the time of each image, `j` being a Python index. -/
def matchTimes (idx : List (List Char)) (times : List ℚ) : List (List Char) → Int → Res (List ℚ)
  | [], _ => .ok []
  | c :: cs, j => do
    let s ← pyGet idx j
    if c = s then do
      let t ← pyGet times j
      let r ← matchTimes idx times cs (j + 1)
      .ok (t :: r)
    else if textLess c s then matchTimes idx times cs (j + 1)
    else matchTimes idx times cs (j - 1)

/-- A pair of images: times of the two cameras and the name of the files. -/
structure StereoImage where
  t1 : ℚ
  t2 : ℚ
  name : List Char
  deriving DecidableEq

/-- parse_seaxerocks_images.py L193-241 (oplab format): the records; times are indexed by the place of the image. -/
def stereoRecords (off1 off2 : ℚ) (names : List (List Char)) (times : List ℚ) : Nat → Res (List StereoImage)
  | i =>
    match names with
    | [] => .ok []
    | n :: ns => do
      let t ← pyGet times i
      let r ← stereoRecords off1 off2 ns times (i + 1)
      .ok (⟨t + off1, t + off2, n ++ ['.', 'r', 'a', 'w']⟩ :: r)

/-- parse_seaxerocks_images.py L101-241: the stereo images of a dive. -/
def seaxerocksStereo (tz offset off1 off2 : ℚ) (rows : List (List (List Char))) : Res (List StereoImage) := do
  let r ← stereoRows tz offset rows
  let times ← matchTimes (r.map fun p => p.1) (r.map fun p => p.2) ((r.map fun p => p.1).map rawStem) 0
  stereoRecords off1 off2 (r.map fun p => p.1) times 0

/-- The path of a laser image: folder, number, extension. (parse_seaxerocks_images.py L409-418 `build_image_path`) -/
def laserPath (number : List Char) (s : Nat) (ext : String) : List Char × List Char × String := (slice number s (s + 3), number, ext)

/-- parse_seaxerocks_images.py L334-406 `determine_extension_and_images_per_folder`: from the last image. -/
def laserConvention (isFile : List Char × List Char × String → Bool) (last : List Char) : Nat × String :=
  if isFile (laserPath last 0 "jpg") then (0, "jpg")
  else if isFile (laserPath last 1 "jpg") then (1, "jpg")
  else if isFile (laserPath last 0 "tif") then (0, "tif")
  else if isFile (laserPath last 1 "tif") then (1, "tif")
  else (0, "jpg")

/-- parse_seaxerocks_images.py L280-298: the paths of all laser images. -/
def laserFiles (isFile : List Char × List Char × String → Bool) (numbers : List (List Char)) : List (List Char × List Char × String) :=
  match numbers.getLast? with
  | none => []
  | some last => numbers.map fun n => laserPath n (laserConvention isFile last).1 (laserConvention isFile last).2

/-- parse_seaxerocks_images.py L300-327: the records of the laser camera; the loop compares the list of numbers with itself. -/
def seaxerocksLaser (isFile : List Char × List Char × String → Bool) (tz offset : ℚ) (rows : List (List (List Char))) :
    Res (List (ℚ × (List Char × List Char × String))) := do
  let r ← laserRows tz offset rows
  let times ← matchTimes (r.map fun p => p.1) (r.map fun p => p.2) (r.map fun p => p.1) 0
  .ok (times.zip (laserFiles isFile (r.map fun p => p.1)))

/-! ## NTNU stereo images (parse_ntnu_stereo.py) -/

/-- parse_ntnu_stereo.py L31-45 `timestamp_from_filename`, e.g. for 210420-160550.7607L.jpg. -/
def ntnuTime (name : List Char) (tz offset : ℚ) : Res ℚ := do
  let yy ← pyInt (slice name 0 2)
  let mm ← pyInt (slice name 2 4)
  let dd ← pyInt (slice name 4 6)
  let hour ← pyInt (slice name 7 9)
  let mins ← pyInt (slice name 9 11)
  let secs ← pyInt (slice name 11 13)
  let msec ← pyInt (slice name 14 18)
  let e ← dateTimeToEpoch ⟨2000 + yy, mm, dd, hour, mins, secs, 0⟩ tz
  .ok (e + msec / 1000 + offset)

/-! ## Voyis images (parse_voyis.py) -/

/-- An image found by `glob`: the name of the file and its path relative to the dive (parse_voyis.py L64-65, L93-94). -/
structure VoyisImage where
  name : List Char
  path : List Char
  deriving DecidableEq

/-- parse_voyis.py L69-72 and L97-100: the variable `epoch` after the test of the name; `none` is an unbound variable. The test of both branches
is on three characters. -/
def voyisEpoch (k : Nat) (pps sys : List Char → Res ℚ) (epoch : Option ℚ) (name : List Char) : Res (Option ℚ) :=
  if slice name k (k + 3) = ['P', 'P', 'S'] then (pps name).map some
  else if slice name k (k + 3) = ['S', 'Y', 'S', 'T', 'E', 'M'] then (sys name).map some
  else .ok epoch

/-- parse_voyis.py L68-86 and L96-114: the loop over the images. `paths` is the list the file names are taken from, `i` the place in it. The
records (time, file name) and the last value of `epoch`. -/
def voyisLoop (k : Nat) (pps sys : List Char → Res ℚ) (offset : ℚ) (paths : List (List Char)) :
    Nat → Option ℚ → List VoyisImage → Res (List (ℚ × List Char) × Option ℚ)
  | _, epoch, [] => .ok ([], epoch)
  | i, epoch, n :: rest => do
    let e ← voyisEpoch k pps sys epoch n.name
    match e with
    | none => .error .unboundLocal
    | some t => do
      let p ← pyGet paths (i : Int)
      let r ← voyisLoop k pps sys offset paths (i + 1) (some t) rest
      .ok ((t + offset, p) :: r.1, r.2)

/-- parse_voyis.py L58: the offset that is added to the times. -/
def voyisOffset (tzHours timeoffset : ℚ) : ℚ := -tzHours * 60 * 60 - timeoffset

/-- parse_voyis.py L57-117, with stills and laser cameras in mission.yaml. Both loops take the file names from the list of stills (L82,
L110). -/
def parseVoyis (pps sys lpps lsys : List Char → Res ℚ) (tz timeoffset : ℚ) (stills laser : List VoyisImage) :
    Res (List (ℚ × List Char)) := do
  let a ← voyisLoop 15 pps sys (voyisOffset tz timeoffset) (stills.map fun m => m.path) 0 none stills
  let b ← voyisLoop 16 lpps lsys (voyisOffset tz timeoffset) (stills.map fun m => m.path) 0 a.2 laser
  .ok (a.1 ++ b.1)

/-! ## Fractions of seconds -/

/-- `int(text) / 1000`: parse_ae2000.py L115-123, parse_NOC_nmea.py L64-68. -/
def fractionRead (digits : List Char) : Res ℚ := do
  let n ← pyInt digits
  .ok ((n : ℚ) / 1000)

/-! ## AE2000 (parse_ae2000.py) -/

section
variable {K : Type} [Field K] [LinearOrder K] [IsStrictOrderedRing K]

/-- parse_ae2000.py L222-227 and L410-415: the heading with the offset of the sensor. -/
def offsetHeading (heading offset : K) : K :=
  let h := heading + offset
  let h := if h > 360 then h - 360 else h
  if h < 0 then h + 360 else h

/-- parse_ae2000.py L280-305 (format oplab): the depths that are kept; `none` is not a number. Rows are (time, depth). -/
def ae2000Depths (previous : K) : List (K × Option K) → List (K × K)
  | [] => []
  | (t, d) :: rest =>
    match d with
    | none => ae2000Depths previous rest
    | some d =>
      if d ≤ 0 then ae2000Depths previous rest
      else if d = previous then ae2000Depths previous rest
      else (t, d) :: ae2000Depths d rest

end

/-! ## Tides (parse_tide_CTI.py) -/

/-- parse_tide_CTI.py L74-76: the text between the first two commas. If there is no second comma, `find` gives -1 and
the last character of the line (the line break) is dropped. -/
def tideHeightText (line : List Char) : List Char :=
  let rest := if ',' ∈ line then (line.dropWhile fun c => c ≠ ',').drop 1 else line
  if ',' ∈ rest then rest.takeWhile fun c => c ≠ ',' else rest.dropLast

/-- parse_tide_CTI.py L57-77: one line, as (time, height, standard deviation). `toFloat` is Python's `float`; the factor is the offset of
mission.yaml (L29). -/
def tideLine (toFloat : List Char → Option ℚ) (tz offset factor : ℚ) (line : List Char) : Res (ℚ × ℚ × ℚ) := do
  let yyyy ← pyInt (slice line 0 4)
  let mm ← pyInt (slice line 5 7)
  let dd ← pyInt (slice line 8 10)
  let hour ← pyInt (slice line 11 13)
  let mins ← pyInt (slice line 14 16)
  let secs ← pyInt (slice line 17 19)
  let e ← dateTimeToEpoch ⟨yyyy, mm, dd, hour, mins, secs, 0⟩ tz
  match toFloat (tideHeightText line) with
  | none => .error .valueError
  | some h => .ok (e + offset, h, h * factor)

/-- parse_tide_CTI.py L52-80: a file; six lines are skipped. -/
def tideFile (toFloat : List Char → Option ℚ) (tz offset factor : ℚ) (lines : List (List Char)) : Res (List (ℚ × ℚ × ℚ)) :=
  (lines.drop 6).mapM (tideLine toFloat tz offset factor)

end Oplab
