import Mathlib.Algebra.Field.Defs
import Verif.Model.Basic

/-! ACFR files: pose files, combined RAW file. -/

namespace Oplab

section Pose
variable {K : Type} [Field K]

/-- A blank-separated token of a line: a printed number or a word. Printing and reading a number is taken to be
exact (Python's `str`/`float` round trip). -/
inductive Tok (K : Type) where
  | num (k : K)
  | word (s : String)
  deriving DecidableEq

/-- `float(parts[i])` on a line. (acfr_vehicle_pose.py L104-113, acfr_stereo_pose.py L124-137) -/
def tokFloat (line : List (Tok K)) (i : Nat) : Res K :=
  match line[i]? with
  | none => .error .indexError
  | some (.num k) => .ok k
  | some (.word _) => .error .valueError

/-- `str(parts[i])`, for an item that is a word (file names made of digits only are not represented).
(acfr_stereo_pose.py L133-134) -/
def tokWord (line : List (Tok K)) (i : Nat) : Res String :=
  match line[i]? with
  | some (.word s) => .ok s
  | some (.num _) => .error .valueError
  | none => .error .indexError

/-- A pose of a track as far as the pose files carry it. -/
structure Pose (K : Type) where
  stamp : K
  lat : K
  lon : K
  north : K
  east : K
  depth : K
  roll : K
  pitch : K
  yaw : K
  alt : K
  deriving DecidableEq

/-- A parsed pose file: origin (if read) and entries. -/
structure PoseFile (K E : Type) where
  lat : Option K := none
  lon : Option K := none
  entries : List E := []
  deriving DecidableEq

/-- Line of a pose: /repo/src/auv_nav/parsers/acfr_vehicle_pose.py L216-239. The angles are written as they are, in
degrees. -/
def poseTokens (i : Nat) (p : Pose K) : List (Tok K) :=
  [.num i, .num p.stamp, .num p.lat, .num p.lon, .num p.north, .num p.east, .num p.depth, .num p.roll, .num p.pitch,
    .num p.yaw, .num p.alt]

/-- acfr_vehicle_pose.py L206-239 `AcfrVehiclePoseWriter.write`; the header L15-60 has 43 lines (its text does not
matter here). -/
def writeVehiclePose (lat lon : K) (track : List (Pose K)) : List (List (Tok K)) :=
  List.replicate 43 [.word "%"] ++ [[.word "ORIGIN_LATITUDE", .num lat], [.word "ORIGIN_LONGITUDE", .num lon]]
    ++ track.mapIdx poseTokens

/-- acfr_vehicle_pose.py L99-113 `AcfrVehiclePose.parse` followed by L177-197 `get_dead_reckoning` for the entry.
`deg` is the factor 180/π of `math.degrees`. A wrong number of items is only reported. -/
def readVehicleEntry (deg : K) (line : List (Tok K)) : Res (Pose K) := do
  let _ ← tokFloat line 0
  let stamp ← tokFloat line 1
  let lat ← tokFloat line 2
  let lon ← tokFloat line 3
  let x ← tokFloat line 4
  let y ← tokFloat line 5
  let z ← tokFloat line 6
  let ax ← tokFloat line 7
  let ay ← tokFloat line 8
  let az ← tokFloat line 9
  let alt ← tokFloat line 10
  .ok ⟨stamp, lat, lon, x, y, z, ay * deg, -(ax * deg), az * deg, alt⟩

/-- The parsing loops L158-172 (and acfr_stereo_pose.py L186-199): line number `latLine` holds the latitude of the origin,
`lonLine` its longitude, lines after `lonLine` are entries; `i` is the number of the next line. -/
def readPoseLines {E} (latLine lonLine : Nat) (entry : List (Tok K) → Res E) (i : Nat) (f : PoseFile K E) :
    List (List (Tok K)) → Res (PoseFile K E)
  | [] => .ok f
  | l :: ls => do
    let f ← if i = latLine then do let v ← tokFloat l 1; .ok { f with lat := some v } else .ok f
    let f ← if i = lonLine then do let v ← tokFloat l 1; .ok { f with lon := some v } else .ok f
    let f ← if i > lonLine then do let e ← entry l; .ok { f with entries := f.entries ++ [e] } else .ok f
    readPoseLines latLine lonLine entry (i + 1) f ls

/-- `AcfrVehiclePoseParser(...)`, `get_dead_reckoning()`. (acfr_vehicle_pose.py L147-197) -/
def readVehiclePose (deg : K) (lines : List (List (Tok K))) : Res (PoseFile K (Pose K)) :=
  readPoseLines 44 45 (readVehicleEntry deg) 0 {} lines

/-- A stereo pair of a track. -/
structure StereoPose (K : Type) where
  pose : Pose K
  left : String
  right : String
  deriving DecidableEq

/-- acfr_stereo_pose.py L262-304 `AcfrStereoPoseWriter.write` on zipped camera lists; the header L15-70 has 55 lines.
File names are given without folder (L275-276). -/
def writeStereoPose (lat lon : K) (track : List (StereoPose K)) : List (List (Tok K)) :=
  List.replicate 55 [.word "%"] ++ [[.word "ORIGIN_LATITUDE", .num lat], [.word "ORIGIN_LONGITUDE", .num lon]]
    ++ track.mapIdx fun i s =>
      [.num i, .num s.pose.stamp, .num s.pose.lat, .num s.pose.lon, .num s.pose.north, .num s.pose.east,
        .num s.pose.depth, .num s.pose.roll, .num s.pose.pitch, .num s.pose.yaw, .word s.left, .word s.right,
        .num s.pose.alt, .num 0, .num 0]

/-- acfr_stereo_pose.py L119-137 `AcfrStereoPose.parse` and L204-259 `get_cameras` for the entry. -/
def readStereoEntry (deg : K) (line : List (Tok K)) : Res (StereoPose K) := do
  let _ ← tokFloat line 0
  let stamp ← tokFloat line 1
  let lat ← tokFloat line 2
  let lon ← tokFloat line 3
  let x ← tokFloat line 4
  let y ← tokFloat line 5
  let z ← tokFloat line 6
  let ax ← tokFloat line 7
  let ay ← tokFloat line 8
  let az ← tokFloat line 9
  let left ← tokWord line 10
  let right ← tokWord line 11
  let alt ← tokFloat line 12
  let _ ← tokFloat line 13
  let _ ← tokFloat line 14
  .ok ⟨⟨stamp, lat, lon, x, y, z, ay * deg, -(ax * deg), az * deg + 90, alt⟩, left, right⟩

/-- `AcfrStereoPoseParser(...)`, `get_cameras()`. (acfr_stereo_pose.py L175-259) -/
def readStereoPose (deg : K) (lines : List (List (Tok K))) : Res (PoseFile K (StereoPose K)) :=
  readPoseLines 55 56 (readStereoEntry deg) 0 {} lines

end Pose

/-! ## Combined RAW file -/

/-- A measurement handed to the writer; `α` stands for its contents. -/
inductive RawMeas (α : Type) where
  | velocity (v : α)
  | altitude (a : α)
  | orientation (o : α)
  | depth (d : α)
  | usbl (u : α)
  /-- a camera record; `laser`: its file name contains "xxx" -/
  | camera (laser : Bool) (c : α)
  /-- inertial velocity, payload, unsupported types -/
  | ignored
  deriving DecidableEq

/-- A record of the file. -/
inductive RawOut (α : Type) where
  | rdi (v a o : α)
  | compass (o : α)
  | parosci (d : α)
  | ssbl (u : α)
  | vis (c : α)
  deriving DecidableEq

/-- Fields of the writer: `rdi_altitude`, `rdi_orientation`. -/
structure RawState (α : Type) where
  alt : Option α := none
  ori : Option α := none

/-- /repo/src/auv_nav/parsers/acfr_combined_raw.py L66-103 `rdi_ready`, `add`. -/
def rawAdd {α} (s : RawState α) : RawMeas α → RawState α × Option (RawOut α)
  | .velocity v =>
    match s.alt, s.ori with
    | some a, some o => ({}, some (.rdi v a o))
    | _, _ => (s, none)
  | .altitude a => ({ s with alt := some a }, none)
  | .orientation o => ({ s with ori := some o }, some (.compass o))
  | .depth d => (s, some (.parosci d))
  | .usbl u => (s, some (.ssbl u))
  | .camera laser c => (s, if laser then none else some (.vis c))
  | .ignored => (s, none)

/-- Adding measurements one after the other: the output of each call. (repeated `add`, acfr_combined_raw.py L69-103) -/
def rawRun {α} (s : RawState α) : List (RawMeas α) → List (Option (RawOut α))
  | [] => []
  | m :: ms => (rawAdd s m).2 :: rawRun (rawAdd s m).1 ms

/-- The written file. (what the calls of L69-103 of acfr_combined_raw.py wrote) -/
def rawFile {α} (ms : List (RawMeas α)) : List (RawOut α) := (rawRun {} ms).filterMap id

end Oplab
