import Verif.Model.Biocam
import Verif.Model.ImageParsers
import Verif.Model.Parse
import Verif.Model.Sonardyne

/-!
Model of /repo/src/auv_nav/parsers/parse_acfr_images.py and parse_ntnu_stereo.py from the listing of the folder to the
records, and of the calls one process makes one after the other.
-/

namespace Oplab

/-- parse_acfr_images.py L26-48 `acfr_timestamp_from_filename`, e.g. for PR_20180811_153729_762_LC16.tif.  Exact rationals. -/
def acfrTime (tz offset : ℚ) (name : List Char) : Res ℚ :=
  match splitAtSep (· == '_') (stripBlanks name) with
  | _ :: date :: time :: ms :: _ => do
    let yyyy ← pyInt (slice date 0 4)
    let mm ← pyInt (slice date 4 6)
    let dd ← pyInt (slice date 6 8)
    let hour ← pyInt (slice time 0 2)
    let mins ← pyInt (slice time 2 4)
    let secs ← pyInt (slice time 4 6)
    let msec ← pyInt (slice ms 0 3)
    let e ← dateTimeToEpoch ⟨yyyy, mm, dd, hour, mins, secs, 0⟩ tz
    .ok (e + msec / 1000 + offset)
  | _ => .error .indexError

/-- An image of the listing: its name and the text the record gives for it (parse_acfr_images.py L149, parse_ntnu_stereo.py
L90-91). -/
structure StereoPic where
  name : List Char
  shown : List Char
  deriving DecidableEq

/-- parse_acfr_images.py L89-101: the images of a camera in the listing of the folder. -/
def acfrPics (folder label : List Char) (names : List (List Char)) : List StereoPic :=
  (names.filter fun n => hasText label n && !hasText txtMark n && !hasText hiddenMark n).map
    fun n => ⟨n, folder ++ '/' :: n⟩

/-- A file below the folder: its path relative to the dive and its name; directories are left out (parse_ntnu_stereo.py
L90, L93 `is_file`). -/
structure NtnuPath where
  rel : List Char
  name : List Char
  isFile : Bool

/-- parse_ntnu_stereo.py L89-94: the images of a camera; `side` is L or R. -/
def ntnuPics (side : Char) (paths : List NtnuPath) : List StereoPic :=
  (paths.filter fun p => decide (side :: jpgMark <:+ p.name) && p.isFile).map fun p => ⟨p.name, p.rel⟩

/-- parse_acfr_images.py L112-122 and parse_ntnu_stereo.py L100-110: the times of the images are appended to a list of the
module; when a name cannot be read the times before it stay in the list. -/
def stereoStamps (time : List Char → Res ℚ) (st : List ℚ) : List StereoPic → List ℚ × Option Err
  | [] => (st, none)
  | p :: ps =>
    match time p.name with
    | .ok t => stereoStamps time (st ++ [t]) ps
    | .error e => (st, some e)

/-- A pair of images with its two times (parse_acfr_images.py L139-161). -/
structure StereoShot where
  t1 : ℚ
  pic1 : StereoPic
  t2 : ℚ
  pic2 : StereoPic
  deriving DecidableEq

/-- parse_acfr_images.py L124-138, parse_ntnu_stereo.py L112-126: the pairs; the times are looked up by the number of the
image. -/
def stereoShots (times1 times2 : List ℚ) (pics1 pics2 : List StereoPic) : Res (List StereoShot) := do
  let pairs ← acfrPairs (1 / 20) times1 times2
  .ok (pairs.filterMap fun p =>
    match times1[p.1]?, pics1[p.1]?, times2[p.2]?, pics2[p.2]? with
    | some t1, some f1, some t2, some f2 => some ⟨t1, f1, t2, f2⟩
    | _, _, _, _ => none)

/-- parse_acfr_images.py L108-161 and parse_ntnu_stereo.py L96-147: one call, with the lists of the module before it; the
lists after it and the pairs. -/
def stereoCall (time : List Char → Res ℚ) (pics1 pics2 : List StereoPic) (st : StampLists ℚ) :
    StampLists ℚ × Res (List StereoShot) :=
  match stereoStamps time st.cam1 pics1 with
  | (c1, some e) => (⟨c1, st.cam2⟩, .error e)
  | (c1, none) =>
    match stereoStamps time st.cam2 pics2 with
    | (c2, some e) => (⟨c1, c2⟩, .error e)
    | (c2, none) => (⟨c1, c2⟩, stereoShots (c1.take pics1.length) (c2.take pics2.length) pics1 pics2)

/-- The settings and the folder of a dive with ACFR images (parse_acfr_images.py L58-62, L89-90): time zone in hours, which
mission.yaml always holds as a number once it is loaded, time offset, folder, labels of the cameras and listing. -/
structure AcfrDive where
  tz : ℚ
  offset : ℚ
  folder : List Char
  label1 : List Char
  label2 : List Char
  names : List (List Char)

/-- parse_acfr_images.py L51-161 `parse_acfr_images`: without an image of the second camera those of the first are used. -/
def acfrCall (d : AcfrDive) : StampLists ℚ → StampLists ℚ × Res (List StereoShot) :=
  let pics1 := acfrPics d.folder d.label1 d.names
  let pics2 := acfrPics d.folder d.label2 d.names
  stereoCall (acfrTime d.tz d.offset) pics1 (if pics2.length = 0 then pics1 else pics2)

/-- The settings of a dive with NTNU stereo images and the files below its folder (parse_ntnu_stereo.py L55-59, L86-93). -/
structure NtnuDive where
  tz : ℚ
  offset : ℚ
  paths : List NtnuPath

/-- parse_ntnu_stereo.py L48-147 `parse_ntnu_stereo_images`. -/
def ntnuCall (d : NtnuDive) : StampLists ℚ → StampLists ℚ × Res (List StereoShot) :=
  stereoCall (fun n => ntnuTime n d.tz d.offset) (ntnuPics 'L' d.paths) (ntnuPics 'R' d.paths)

/-- /repo/src/auv_nav/parse.py L100-104: the dives of a command one after the other in one process, the image parsers in its
threads: what each call gives. -/
def stereoCalls {D : Type} (call : D → StampLists ℚ → StampLists ℚ × Res (List StereoShot)) (st : StampLists ℚ) :
    List D → List (Res (List StereoShot))
  | [] => []
  | d :: ds => (call d st).2 :: stereoCalls call (call d st).1 ds

/-- parse_acfr_images.py L163-183, parse_ntnu_stereo.py L149-169: a line of the ACFR format; `num` is `str(float(…))`. -/
def visLine (num : ℚ → List Char) (t : ℚ) (p : StereoPic) : List Char :=
  ['V', 'I', 'S', ':', ' '] ++ num t ++ [' ', '['] ++ num t ++ [']', ' '] ++ p.name
    ++ [' ', 'e', 'x', 'p', ':', ' ', '0', '\n']

/-- parse_acfr_images.py L108-110, L162-184: the text of the ACFR format. -/
def visText (num : ℚ → List Char) (shots : List StereoShot) : List Char :=
  shots.foldl (fun text s => text ++ visLine num s.t1 s.pic1 ++ visLine num s.t2 s.pic2) []

end Oplab
