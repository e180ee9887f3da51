import Verif.Model.Basic

/-! Which parser `auv_nav parse` runs for which part of mission.yaml, and which files the parser then reads. -/

namespace Oplab

/-- The parts of mission.yaml that `parse` looks at. (/repo/src/oplab/mission.py L297-306) -/
inductive Sec
  | image | usbl | velocity | orientation | depth | altitude | tide
deriving DecidableEq, Repr

/-- A part of mission.yaml: whether it is there, its format, folder and file name.  Without it the texts are empty.  Of the image part the folder is
that of the first camera. (mission.py L237-258, L170-188) -/
structure SecCfg where
  present : Bool
  format : String
  folder : String
  file : String
deriving DecidableEq

/-- The parser functions. (/repo/src/auv_nav/parse.py L17-46) -/
inductive Parser
  | acfrImages | seaxerocks | biocam | ntnuStereo | rosbagImages | rosbag | gopro | voyis
  | gaps | usblDump | nmea | eiva | koyo21 | alr | mrt | gga | gga2 | gga3 | gga4
  | phins | ae2000 | autosub | rdi | ntnuDvl | polpred | cti
deriving DecidableEq, Repr

/-- A call of a parser: `category` as it is passed, and the number of arguments. (parse.py L254-653) -/
structure ParseTask where
  parser : Parser
  category : String
  args : Nat
deriving DecidableEq

/-- parse.py L255-314: the formats that are compared in turn, and the call for each. -/
def imageCalls : List (String × ParseTask) :=
  [("acfr_standard", ⟨.acfrImages, "images", 5⟩),
    ("unagi", ⟨.acfrImages, "images", 5⟩),
    ("seaxerocks_3", ⟨.seaxerocks, "images", 5⟩),
    ("biocam", ⟨.biocam, "images", 5⟩),
    ("biocam4000_15c", ⟨.biocam, "images", 5⟩),
    ("ntnu_stereo", ⟨.ntnuStereo, "images", 5⟩),
    ("rosbag_extracted_images", ⟨.rosbagImages, "images", 5⟩),
    ("rosbag", ⟨.rosbag, "images", 5⟩),
    ("stereo_gopro", ⟨.gopro, "images", 5⟩),
    ("voyis", ⟨.voyis, "images", 5⟩)]

/-- parse.py L315-403: `alr2` has a sixth argument. -/
def usblCalls : List (String × ParseTask) :=
  [("gaps", ⟨.gaps, "usbl", 5⟩),
    ("usbl_dump", ⟨.usblDump, "usbl", 5⟩),
    ("NOC_nmea", ⟨.nmea, "usbl", 5⟩),
    ("eiva_navipac", ⟨.eiva, "usbl", 5⟩),
    ("rosbag", ⟨.rosbag, "usbl", 5⟩),
    ("koyo21rov", ⟨.koyo21, "usbl", 5⟩),
    ("alr", ⟨.alr, "usbl", 5⟩),
    ("alr2", ⟨.alr, "usbl", 6⟩),
    ("sonardyne_mrt", ⟨.mrt, "usbl", 5⟩),
    ("sonardyne_gga", ⟨.gga, "usbl", 5⟩),
    ("sonardyne_gga2", ⟨.gga2, "usbl", 5⟩),
    ("sonardyne_gga3", ⟨.gga3, "usbl", 5⟩),
    ("sonardyne_gga4", ⟨.gga4, "usbl", 5⟩)]

/-- parse.py L405-467. -/
def velocityCalls : List (String × ParseTask) :=
  [("phins", ⟨.phins, "velocity", 5⟩),
    ("ae2000", ⟨.ae2000, "velocity", 5⟩),
    ("alr", ⟨.alr, "velocity", 5⟩),
    ("autosub", ⟨.autosub, "velocity", 5⟩),
    ("rdi", ⟨.rdi, "velocity", 5⟩),
    ("ntnu_dvl", ⟨.ntnuDvl, "velocity", 5⟩),
    ("rosbag", ⟨.rosbag, "velocity", 5⟩),
    ("koyo21rov", ⟨.koyo21, "velocity", 5⟩)]

/-- parse.py L469-532. -/
def orientationCalls : List (String × ParseTask) :=
  [("phins", ⟨.phins, "orientation", 5⟩),
    ("ae2000", ⟨.ae2000, "orientation", 5⟩),
    ("alr", ⟨.alr, "orientation", 5⟩),
    ("koyo21rov", ⟨.koyo21, "orientation", 5⟩),
    ("autosub", ⟨.autosub, "orientation", 5⟩),
    ("rdi", ⟨.rdi, "orientation", 5⟩),
    ("eiva_navipac", ⟨.eiva, "orientation", 5⟩),
    ("rosbag", ⟨.rosbag, "orientation", 5⟩)]

/-- parse.py L534-583. -/
def depthCalls : List (String × ParseTask) :=
  [("phins", ⟨.phins, "depth", 5⟩),
    ("ae2000", ⟨.ae2000, "depth", 5⟩),
    ("alr", ⟨.alr, "depth", 5⟩),
    ("koyo21rov", ⟨.koyo21, "depth", 5⟩),
    ("autosub", ⟨.autosub, "depth", 5⟩),
    ("gaps", ⟨.gaps, "depth", 5⟩),
    ("eiva_navipac", ⟨.eiva, "depth", 5⟩),
    ("rosbag", ⟨.rosbag, "depth", 5⟩)]

/-- parse.py L585-645. -/
def altitudeCalls : List (String × ParseTask) :=
  [("phins", ⟨.phins, "altitude", 5⟩),
    ("ae2000", ⟨.ae2000, "altitude", 5⟩),
    ("alr", ⟨.alr, "altitude", 5⟩),
    ("koyo21rov", ⟨.koyo21, "altitude", 5⟩),
    ("autosub", ⟨.autosub, "altitude", 5⟩),
    ("rdi", ⟨.rdi, "altitude", 5⟩),
    ("ntnu_dvl", ⟨.ntnuDvl, "altitude", 5⟩),
    ("rosbag", ⟨.rosbag, "altitude", 5⟩)]

/-- parse.py L647-655: called at once, not in the pool. -/
def tideCalls : List (String × ParseTask) :=
  [("NOC_polpred", ⟨.polpred, "tide", 5⟩),
    ("NOC_CTI", ⟨.cti, "tide", 5⟩)]

/-- One part: nothing if it is not there, `Console.quit` if its format is not known. (parse.py L254-655) -/
def secTask (c : SecCfg) (calls : List (String × ParseTask)) : Res (List ParseTask) :=
  if c.present = false then .ok []
  else match calls.find? fun e => c.format = e.1 with
    | some e => .ok [e.2]
    | none => .error .quit

/-- parse.py L254-655: all calls, in their order. -/
def parseTasks (m : Sec → SecCfg) : Res (List ParseTask) := do
  let a ← secTask (m .image) imageCalls
  let b ← secTask (m .usbl) usblCalls
  let c ← secTask (m .velocity) velocityCalls
  let d ← secTask (m .orientation) orientationCalls
  let e ← secTask (m .depth) depthCalls
  let f ← secTask (m .altitude) altitudeCalls
  let g ← secTask (m .tide) tideCalls
  .ok (a ++ b ++ c ++ d ++ e ++ f ++ g)

/-! ## What the parsers do with their category -/

/-- Where a parser reads and what it writes: a folder, a file in it (`none`: files of the folder that are listed), and the category of the records. -/
structure Source where
  folder : String
  file : Option String
  records : String
deriving DecidableEq

/-- The constants of `Category`. (/repo/src/auv_nav/sensors.py L63-71) -/
def catUsbl : String := "usbl"
/-- sensors.py L63-71. -/
def catVelocity : String := "velocity"
/-- sensors.py L63-71. -/
def catOrientation : String := "orientation"
/-- sensors.py L63-71. -/
def catDepth : String := "depth"
/-- sensors.py L63-71. -/
def catAltitude : String := "altitude"
/-- sensors.py L63-71. -/
def catTide : String := "tide"
/-- sensors.py L63-71. -/
def catImages : String := "images"

/-- A file that is named by one part of mission.yaml. -/
def named (c : SecCfg) (records : String) : Source := ⟨c.folder, some c.file, records⟩

/-- The files of the folder of one part of mission.yaml. -/
def listed (c : SecCfg) (records : String) : Source := ⟨c.folder, none, records⟩

/-- What a parser that is called with `category` reads and writes.  An error stands for a call that ends before a file is read; parsers that read a file and then
write nothing for the category are given as `indexError`, as nothing of that kind is called.
parse_acfr_images.py L55-60, L145, parse_seaxerocks_images.py L27-36, parse_biocam_images.py L103-109, parse_ntnu_stereo.py L52-57, parse_rosbag.py L170-219, L232-235,
parse_stereo_gopro.py L21-25, parse_voyis.py L30-83 (whose folders are named in camera.yaml; here they are taken to be those of the image part), parse_gaps.py L34-58, L379-429, parse_usbl_dump.py L33-56, parse_NOC_nmea.py L22-43,
parse_eiva_navipac.py L18-28, L52-97, parse_koyo21rov.py L25-62, L103-192, parse_alr.py L23-24, L56, L80-151, parse_sonardyne_mrt.py L622-633 and the
parsers after it, parse_phins.py L69-70, L189-223, parse_ae2000.py L31-72, parse_autosub.py L23-24, L48-90, parse_rdi.py L46-62, parse_ntnu_dvl.py L87-88, L115-147,
parse_NOC_polpred.py L24-36, parse_tide_CTI.py L23-34. -/
def source (m : Sec → SecCfg) (p : Parser) (category : String) : Res Source :=
  match p with
  | .acfrImages | .seaxerocks | .biocam | .ntnuStereo | .rosbagImages | .gopro | .voyis => .ok (listed (m .image) "image")
  | .rosbag =>
    if category = catOrientation then .ok (listed (m .orientation) catOrientation)
    else if category = catVelocity then .ok (listed (m .velocity) catVelocity)
    else if category = catDepth then .ok (listed (m .depth) catDepth)
    else if category = catAltitude then .ok (listed (m .altitude) catAltitude)
    else if category = catUsbl then .ok (listed (m .usbl) catUsbl)
    else if category = catImages then .ok (listed (m .image) "image")
    else .error .quit
  | .gaps =>
    if category = catUsbl then .ok (listed (m .usbl) category)
    else if category = catDepth then .ok (listed (m .usbl) catDepth)
    else .error .indexError
  | .usblDump => .ok (named (m .usbl) category)
  | .nmea => if category = catUsbl then .ok (listed (m .usbl) catUsbl) else .error .indexError
  | .eiva =>
    if category = catOrientation then .ok (listed (m .orientation) catOrientation)
    else if category = catDepth then .ok (listed (m .depth) catDepth)
    else if category = catUsbl then .ok (listed (m .usbl) catUsbl)
    else .error .typeError
  | .koyo21 =>
    if category = catUsbl then .ok (named (m .usbl) catUsbl)
    else if category = catVelocity then .ok (named (m .velocity) catVelocity)
    else if category = catOrientation then .ok (named (m .orientation) catOrientation)
    else if category = catDepth then .ok (named (m .orientation) catDepth)
    else if category = catAltitude then .ok (named (m .orientation) catAltitude)
    else .error .indexError
  | .alr =>
    if category = catVelocity then .ok (named (m .velocity) catVelocity)
    else if category = catOrientation then .ok (named (m .velocity) catOrientation)
    else if category = catDepth then .ok (named (m .velocity) catDepth)
    else if category = catAltitude then .ok (named (m .velocity) catAltitude)
    else if category = catUsbl then .ok (named (m .velocity) catUsbl)
    else .error .indexError
  | .mrt | .gga | .gga2 | .gga3 | .gga4 => .ok (named (m .usbl) catUsbl)
  | .phins =>
    if category = catVelocity then .ok (named (m .velocity) catVelocity)
    else if category = catOrientation then .ok (named (m .velocity) catOrientation)
    else if category = catDepth then .ok (named (m .velocity) catDepth)
    else if category = catAltitude then .ok (named (m .velocity) catAltitude)
    else .error .indexError
  | .ae2000 =>
    if category = catVelocity then .ok ⟨(m .velocity).folder, some (m .velocity).file, category⟩
    else if category = catAltitude then .ok ⟨(m .velocity).folder, some (m .altitude).file, category⟩
    else if category = catOrientation then .ok ⟨(m .velocity).folder, some (m .orientation).file, category⟩
    else if category = catDepth then .ok ⟨(m .velocity).folder, some (m .depth).file, category⟩
    else .error .unboundLocal
  | .autosub =>
    if category = catVelocity then .ok (named (m .velocity) catVelocity)
    else if category = catOrientation then .ok (named (m .velocity) catOrientation)
    else if category = catDepth then .ok (named (m .velocity) catDepth)
    else if category = catAltitude then .ok (named (m .velocity) catAltitude)
    else .error .indexError
  | .rdi =>
    if category = catVelocity then .ok (named (m .velocity) catVelocity)
    else if category = catOrientation then .ok (named (m .orientation) catOrientation)
    else if category = catAltitude then .ok (named (m .altitude) catAltitude)
    else .error .indexError
  | .ntnuDvl =>
    if category = catVelocity then .ok (listed (m .velocity) catVelocity)
    else if category = catAltitude then .ok (listed (m .velocity) catAltitude)
    else .error .quit
  | .polpred | .cti => if category = catTide then .ok (listed (m .tide) catTide) else .error .unboundLocal

/-- A call: each of the functions has five parameters, with another number of arguments Python raises `TypeError`. (parse.py L362-368, /repo/src/auv_nav/parsers/parse_alr.py L18) -/
def runTask (m : Sec → SecCfg) (t : ParseTask) : Res Source :=
  if t.args ≠ 5 then .error .typeError else source m t.parser t.category

end Oplab
