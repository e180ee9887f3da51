import Verif.Model.Acfr
import Verif.Model.Interpolate
import Verif.Model.Biocam

/-! # The laser poses of `auv_nav convert acfr`

Models /repo/src/auv_nav/convert.py L156-205, after the poses of the cameras are written. The text of the rows is in Model.CsvLoad. -/

namespace Oplab
variable {K : Type} [Field K] [LinearOrder K]

/-- The parts of a record of nav_standard.json that are read (convert.py L194-202): time, category, and the name of the file if it has one. -/
structure NavStandardRec (K : Type) where
  t : K
  category : List Char
  filename : Option String

/-- The left camera of a stereo pose as a state to interpolate from (/repo/src/auv_nav/parsers/acfr_stereo_pose.py L208-240); velocities are 0. -/
def stereoCamPose (s : StereoPose K) : CamPose K :=
  { filename := s.left, t := s.pose.stamp, northings := s.pose.north, eastings := s.pose.east, depth := s.pose.depth,
    latitude := s.pose.lat, longitude := s.pose.lon, roll := s.pose.roll, pitch := s.pose.pitch, yaw := s.pose.yaw,
    vx := 0, vy := 0, vz := 0, altitude := s.pose.alt }

/-- convert.py L192-204: the loop over the records; the rows written and the error that ended it, if any. -/
def laserLoop (start finish : K) (cams : List (CamPose K)) : List (NavStandardRec K) → List (CamPose K) × Option Err
  | [] => ([], none)
  | r :: rest =>
    if start ≤ r.t ∧ r.t ≤ finish ∧ hasText "laser".toList r.category = true then
      match r.filename with
      | none => ([], some .keyError)
      | some f =>
        match interpolateCamera r.t cams f with
        | .error e => ([], some e)
        | .ok c =>
          let o := laserLoop start finish cams rest
          (c :: o.1, o.2)
    else laserLoop start finish cams rest

/-- What is in auv_acfr_laser.csv after the run: `none` if it was not opened, or else the rows after the header, which is missing if there is
no pose. (convert.py L156-205) -/
structure LaserCsv (K : Type) where
  rows : Option (List (CamPose K))
  error : Option Err

/-- convert.py L156-205: the laser file; `present` says that it exists. The window is from the second record of nav_standard.json, the first
after the origin, to the last. -/
def acfrLaser (present force : Bool) (recs : List (NavStandardRec K)) (cams : List (CamPose K)) : LaserCsv K :=
  if present = true ∧ force = false then ⟨none, some .quit⟩
  else
    match recs[1]?, recs.getLast? with
    | some a, some b =>
      if cams = [] then ⟨some [], some .indexError⟩
      else
        let o := laserLoop a.t b.t cams recs
        ⟨some o.1, o.2⟩
    | _, _ => ⟨none, some .indexError⟩

/-- convert.py L143-205 from the text of the stereo pose file: the poses that are read, and the laser file. -/
def acfrLaserRun (deg : K) (lines : List (List (Tok K))) (present force : Bool) (recs : List (NavStandardRec K)) : Res (LaserCsv K) := do
  let p ← readStereoPose deg lines
  .ok (acfrLaser present force recs (p.entries.map stereoCamPose))

end Oplab
