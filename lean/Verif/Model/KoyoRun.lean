import Verif.Model.KoyoClean

/-! # The conversion of a dive of the ROV of 2020 as a whole

`koyo20rov_to_oplab` of /repo/src/auv_nav/convert.py L37-51: /repo/src/auv_nav/parsers/koyo20rov.py with the parts of `Koyo20.lean` and
`KoyoClean.lean`. Texts of the output are left out: a line holds the values listed here. Numbers that are not a number are not modelled. -/

namespace Oplab

/-- koyo20rov.py L190-214 `RovPos` without its time. -/
structure RovShip where
  depth : ℝ
  altitude : ℝ
  lat : ℝ
  lon : ℝ

/-- koyo20rov.py L134-157 `RovRot` without its time. -/
structure RovTurn where
  heading : ℝ
  pitch : ℝ
  roll : ℝ

/-- koyo20rov.py L26-53 `RovCam` as read: time and number of an image. -/
structure RovImage where
  t : ℝ
  index : ℕ

/-- A line of the outputs (koyo20rov.py L1025-1032, L1045-1052, L1065-1072). -/
structure RovLine where
  path : List Char
  pose : RovPose
  t : ℝ
  lat : ℝ
  lon : ℝ

/-- koyo20rov.py L444-461: altitudes and depths of zero are replaced in the sorted records. -/
noncomputable def rovFill (l : List (ℝ × RovShip)) : List (ℝ × RovShip) :=
  let ts := l.map Prod.fst
  let a := fillMissing ts (l.map fun r => r.2.altitude)
  let d := fillMissing ts (l.map fun r => r.2.depth)
  (l.zip (d.zip a)).map fun r => (r.1.1, { r.1.2 with depth := r.2.1, altitude := r.2.2 })

/-- koyo20rov.py L376-461: the records of the ship of all files. -/
noncomputable def rovShipLog (files : List (List (Option (ℝ × RovShip)))) : Res (List (ℝ × RovShip)) := do
  let l ← shipRecords files
  .ok (rovFill l)

/-- koyo20rov.py L463-491: rows with a number in the column `index`, in order of time (stable). Rows without one are `none`. -/
noncomputable def rovTurnLog (rows : List (Option (ℝ × RovTurn))) : List (ℝ × RovTurn) :=
  (rows.filterMap id).insertionSort fun a b => a.1 ≤ b.1

/-- koyo20rov.py L493-518 and L520-545: the images of a list of files with their times, in order of time (stable). -/
noncomputable def rovImageLog (rows : List (Option RovImage)) : List RovImage :=
  (rows.filterMap id).insertionSort fun a b => a.t ≤ b.t

/-- koyo20rov.py L728-755: the values of the ship at the time `q` of an image, between the records `j - 1` and `j`. -/
noncomputable def rovShipAt (pos : List (ℝ × RovShip)) (q : ℝ) (j : ℕ) : Option RovShip := do
  let lat ← koyoValue (pos.map fun r => (r.1, r.2.lat)) q j
  let lon ← koyoValue (pos.map fun r => (r.1, r.2.lon)) q j
  let depth ← koyoValue (pos.map fun r => (r.1, r.2.depth)) q j
  let altitude ← koyoValue (pos.map fun r => (r.1, r.2.altitude)) q j
  some ⟨depth, altitude, lat, lon⟩

/-- koyo20rov.py L792-812: the attitude at the time `q` of an image. -/
noncomputable def rovTurnAt (rot : List (ℝ × RovTurn)) (q : ℝ) (j : ℕ) : Option RovTurn := do
  let heading ← koyoValue (rot.map fun r => (r.1, r.2.heading)) q j
  let pitch ← koyoValue (rot.map fun r => (r.1, r.2.pitch)) q j
  let roll ← koyoValue (rot.map fun r => (r.1, r.2.roll)) q j
  some ⟨heading, pitch, roll⟩

/-- koyo20rov.py L695-757 `interpolate_vector_pos` from the first record `f` to the last one `l`. -/
noncomputable def rovShips (pos : List (ℝ × RovShip)) (f l : ℝ) (images : List RovImage) : List (Option RovShip) :=
  let qs := images.map RovImage.t
  (qs.zip (koyoLoop (pos.map Prod.fst) f l 0 qs)).map fun p => p.2.bind (rovShipAt pos p.1)

/-- koyo20rov.py L759-814 `interpolate_vector_rot`. -/
noncomputable def rovTurns (rot : List (ℝ × RovTurn)) (f l : ℝ) (images : List RovImage) : List (Option RovTurn) :=
  let qs := images.map RovImage.t
  (qs.zip (koyoLoop (rot.map Prod.fst) f l 0 qs)).map fun p => p.2.bind (rovTurnAt rot p.1)

/-- koyo20rov.py L843-892 `filter_nans`: the images with a position and a heading. -/
def rovKept (images : List (RovImage × Option RovShip × Option RovTurn)) : List (RovImage × RovShip × RovTurn) :=
  images.filterMap fun i => i.2.1.bind fun s => i.2.2.map fun r => (i.1, s, r)

/-- What a run needs besides the data: where the sensors are on the vehicle (koyo20rov.py L362-367), the reference, the names of the two
colour cameras and the functions `latlon_to_metres` and `metres_to_latlon` of latlon_wgs84.py L14-29 (geographiclib). -/
structure RovSetup where
  sensors : String → Option (V3 ℝ)
  latRef : ℝ
  lonRef : ℝ
  camA : String
  camB : String
  toMetres : ℝ → ℝ → ℝ → ℝ → ℝ × ℝ
  toLatLon : ℝ → ℝ → ℝ → ℝ → ℝ × ℝ

/-- koyo20rov.py L949-991 `add_northings_eastings`: the pose of the sensors at the time of an image. -/
noncomputable def rovPose (c : RovSetup) (s : RovShip) (r : RovTurn) : RovPose :=
  let m := c.toMetres s.lat s.lon c.latRef c.lonRef
  ⟨m.1 * Real.cos (m.2 * Real.pi / 180), m.1 * Real.sin (m.2 * Real.pi / 180), s.depth, s.altitude, r.roll, r.pitch, r.heading⟩

/-- koyo20rov.py L55-105 and L1017-1032: an image moved to a target, with the degrees of where it then is. -/
noncomputable def rovLine (c : RovSetup) (target depthSensor dvl : V3 ℝ) (path : ℕ → List Char) (i : RovImage × RovShip × RovTurn) : RovLine :=
  let p := addLeverArms target depthSensor dvl (rovPose c i.2.1 i.2.2)
  let ll := c.toLatLon c.latRef c.lonRef p.easting p.northing
  ⟨path i.1.index, p, i.1.t, ll.1, ll.2⟩

/-- The dictionary of the places of the sensors. (koyo20rov.py L362-367) -/
def rovSensor (c : RovSetup) (name : String) : Res (V3 ℝ) :=
  match c.sensors name with
  | some v => .ok v
  | none => .error .keyError

/-- The three files (koyo20rov.py L1077-1117). Paths are those below the folder of the camera. -/
structure RovFiles where
  laser : List RovLine
  camA : List RovLine
  camB : List RovLine

/-- convert.py L42-50: `files` are the rows of the position logs, `exist` says of the three outputs whether they exist. The call of
`filter_bad_measurements` is a comment there (L45). -/
noncomputable def rovRun (c : RovSetup) (forcing : Bool) (exist : List (String × Bool)) (files : List (List (Option (ℝ × RovShip))))
    (turns : List (Option (ℝ × RovTurn))) (laser camera : List (Option RovImage)) : Res RovFiles := do
  let pos ← rovShipLog files
  let rot := rovTurnLog turns
  let lasers := rovImageLog laser
  let cameras := rovImageLog camera
  match pos.head?, pos.getLast?, rot.head?, rot.getLast? with
  | some pf, some pl, some rf, some rl => do
    let _ ← koyoOutputs forcing exist
    let kept := fun images => rovKept (images.zip ((rovShips pos pf.1 pl.1 images).zip (rovTurns rot rf.1 rl.1 images)))
    koyoFinish lasers.length cameras.length (kept lasers).length (kept cameras).length
    let dvl ← rovSensor c "dvl"
    let depth ← rovSensor c "depth"
    let a ← rovSensor c c.camA
    let b ← rovSensor c c.camB
    .ok ⟨(kept lasers).map (rovLine c dvl depth dvl laserImagePath), (kept cameras).map (rovLine c a depth dvl cameraImagePath),
      (kept cameras).map (rovLine c b depth dvl cameraImagePath)⟩
  | _, _, _, _ => .error .indexError

end Oplab
