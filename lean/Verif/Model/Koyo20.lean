import Mathlib.Data.List.Sort
import Verif.Model.Sync
import Verif.Model.Rotation
import Verif.Model.Hybis
import Verif.Model.Parsers

/-! /repo/src/auv_nav/parsers/koyo20rov.py (conversion of the dives of the ROV of 2020, called by /repo/src/auv_nav/convert.py L37-51) and
the loops of /repo/src/auv_nav/parsers/parse_koyo21rov.py. -/

namespace Oplab

/-! ## Times -/

/-- koyo20rov.py L107-131 (`RovCam.convert_times_to_epoch`) and L159-188 (`RovRot`): `date` is the text of the date, `time` the number
`hhmmss`, written with six digits (`f"{n:06}"`; longer numbers are not modelled), `ms` whole milliseconds. -/
def rovTime (date : List Char) (time ms : Nat) : Res ℚ := do
  let yyyy ← pyInt (slice date 0 4)
  let mm ← pyInt (slice date 4 6)
  let dd ← pyInt (slice date 6 8)
  let hour ← pyInt (slice (padDigits 6 time) 0 2)
  let mins ← pyInt (slice (padDigits 6 time) 2 4)
  let secs ← pyInt (slice (padDigits 6 time) 4 6)
  dateTimeToEpoch ⟨yyyy, mm, dd, hour, mins, secs, ms * 1000⟩ 0

/-- koyo20rov.py L216-239 `RovPos.convert_timestr_to_epoch`: the date is filled up with blanks from the left to 13 characters. -/
def shipTime (date time : List Char) : Res ℚ := do
  let d := List.replicate (13 - date.length) ' ' ++ date
  let yy ← pyInt (slice d 5 7)
  let mm ← pyInt (slice d 8 10)
  let dd ← pyInt (slice d 11 13)
  let hour ← pyInt (slice time 0 2)
  let mins ← pyInt (slice time 3 5)
  let secs ← pyInt (slice time 6 8)
  dateTimeToEpoch ⟨2000 + yy, mm, dd, hour, mins, secs, 0⟩ 0

/-! ## Position records -/

/-- koyo20rov.py L319-322: the pattern `*[!FIX].csv` on a file name: at least one character before `.csv`, the last of which is none of F, I, X. -/
def positionFile (name : List Char) : Bool :=
  name.drop (name.length - 4) = ".csv".toList ∧
    ((name.take (name.length - 4)).getLast?).any fun c => c ≠ 'F' ∧ c ≠ 'I' ∧ c ≠ 'X'

section Rows
variable {K : Type} [Field K] [LinearOrder K]

/-- koyo20rov.py L405-423: records that are not later than all before them are discarded. Rows whose date is not a text of at least
eight characters are `none`. -/
def laterRows {α : Type} (current : K) : List (Option (K × α)) → List (K × α)
  | [] => []
  | none :: rest => laterRows current rest
  | some r :: rest => if r.1 > current then r :: laterRows r.1 rest else laterRows current rest

/-- koyo20rov.py L389-424: the records of one file. The time of the first row is read first (a missing date there is an error). -/
def shipFile {α : Type} : List (Option (K × α)) → Res (List (K × α))
  | [] => .error .indexError
  | none :: _ => .error .typeError
  | some r :: rest => .ok (laterRows r.1 (some r :: rest))

/-- koyo20rov.py L431-443: all files, in order of time (stable). -/
def shipRecords {α : Type} (files : List (List (Option (K × α)))) : Res (List (K × α)) := do
  let vs ← files.mapM shipFile
  .ok (vs.flatten.insertionSort fun a b => a.1 ≤ b.1)

/-! ## Images -/

/-- koyo20rov.py L725-726 and L789-790: `while image_epoch > times[i]: i += 1`. -/
def koyoSeek (ts : List K) (q : K) (i : Nat) : Nat := seekIdx ts.length (fun m => (ts[m]?).any fun t => t < q) ts.length i

/-- koyo20rov.py L709-757 and L773-814: for each image the index of the record at or after it; `none` for images that are left without
values. An empty log fails earlier (L561-562). -/
def koyoLoop (ts : List K) (first last : K) (i : Nat) : List K → List (Option Nat)
  | [] => []
  | q :: rest =>
    if q > last then none :: rest.map fun _ => none
    else if q < first then none :: koyoLoop ts first last i rest
    else some (koyoSeek ts q i) :: koyoLoop ts first last (koyoSeek ts q i) rest

/-- koyo20rov.py L728-755 and L792-812: one of the quantities (records `(t, y)`) at the time of an image. Index -1 is the last record. -/
def koyoValue (recs : List (K × K)) (q : K) (j : Nat) : Option K :=
  match pyGet recs ((j : Int) - 1), recs[j]? with
  | .ok a, some b => some (interpolate q a.1 b.1 a.2 b.2)
  | _, _ => none

/-- koyo20rov.py L695-814: a quantity at the times of the images. -/
def koyoImages (recs : List (K × K)) (qs : List K) : Res (List (Option K)) :=
  match recs.head?, recs.getLast? with
  | some f, some l => .ok ((qs.zip (koyoLoop (recs.map Prod.fst) f.1 l.1 0 qs)).map fun p => p.2.bind (koyoValue recs p.1))
  | _, _ => .error .indexError

/-- koyo20rov.py L843-892 `filter_nans`: images with a position and a heading stay. -/
def koyoKept {α : Type} (images : List (α × Option K × Option K)) : List (α × K × K) :=
  images.filterMap fun i => i.2.1.bind fun lat => i.2.2.map fun h => (i.1, lat, h)

/-- The progress message after each loop (koyo20rov.py L756, L813, L867, L889, L914, L932, L947, L972, L989, L1034, L1054, L1074): it uses the loop variable,
which is unbound if the loop (and any earlier one in the same function) made no turn, and divides by the number of turns. -/
def progressAfter (bound : Bool) (n : Nat) : Res Unit :=
  if n = 0 then (if bound then .error .zeroDivision else .error .unboundLocal) else .ok ()

/-- koyo20rov.py L816-1075 after the data have been loaded: how many laser and camera images there are, and how many of each have
a position and a heading, decide whether the outputs are written. -/
def koyoFinish (laser camera laserKept cameraKept : Nat) : Res Unit := do
  progressAfter false laser
  progressAfter false camera
  progressAfter false laser
  progressAfter true camera
  progressAfter false laserKept
  progressAfter true cameraKept

/-- koyo20rov.py L1019-1024: path of a laser image below its folder, for an index of at most seven digits. -/
def laserImagePath (index : Nat) : List Char :=
  ['/'] ++ slice (padDigits 7 index) 1 4 ++ "/image".toList ++ padDigits 7 index ++ ".tif".toList

/-- koyo20rov.py L1044 and L1064: path of a camera image below its folder. -/
def cameraImagePath (index : Nat) : List Char := ['/'] ++ padDigits 7 index ++ ".raw".toList

end Rows

/-! ## Lever arms -/

/-- The pose of an image. -/
structure RovPose where
  northing : ℝ
  easting : ℝ
  depth : ℝ
  altitude : ℝ
  roll : ℝ
  pitch : ℝ
  heading : ℝ

/-- The difference of two positions on the vehicle. (koyo20rov.py L71-73, L82-84, L91-93) -/
def armBetween (a b : V3 ℝ) : V3 ℝ := ⟨a.x - b.x, a.y - b.y, a.z - b.z⟩

/-- koyo20rov.py L55-105 `RovCam.add_lever_arms` for a target at `target` with the sensors at `depthSensor` and `dvl` (latitude and longitude,
recomputed from northing and easting, are not modelled). -/
noncomputable def addLeverArms (target depthSensor dvl : V3 ℝ) (p : RovPose) : RovPose :=
  let d := bodyToInertial p.roll p.pitch p.heading (armBetween target depthSensor)
  let a := bodyToInertial p.roll p.pitch p.heading (armBetween target dvl)
  { p with
    depth := p.depth + d.z
    altitude := p.altitude - a.z
    northing := p.northing + a.x
    easting := p.easting + a.y }

/-! ## koyo21 -/

/-- parse_koyo21rov.py L103-189 and L192-210: rows without the values are skipped; the others are appended or overwrite the last one. -/
def koyo21Records {K α : Type} [Field K] [LinearOrder K] (rows : List (K × Option α)) : Res (List (K × α)) :=
  dedupe 0 [] (rows.filterMap fun r => r.2.map fun v => (r.1, v))

end Oplab
