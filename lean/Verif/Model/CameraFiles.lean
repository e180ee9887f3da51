import Verif.Model.ProcessRun
import Verif.Model.CsvFiles

/-! # The image files of `auv_nav process`

Which track and which position on the vehicle the poses in the files of images come from: /repo/src/auv_nav/process.py L377-413, L486-545, L1215-1296,
L1522-1566, L1827-1999. How a pose is made from a track is a parameter; it is modelled in Model.Interpolate and Model.Ekf. -/

namespace Oplab

/-- The lists of images: the two cameras and the images of the laser (process.py L123-138). -/
inductive CamSlot where
  | one
  | two
  | three
deriving DecidableEq

/-- What the run has: format and cameras of mission.yaml (names, `records_laser`), the positions of the cameras in vehicle.yaml, the images in
the time window, whether the filters are on, and the number of states of the particle filter, which is 0 if it is off or if there is no position
fix (process.py L1158). -/
structure ImageRun (α I : Type) where
  format : String
  names : List Text
  lasers : List (Option Bool)
  mount : CamSlot → α
  images : CamSlot → List I
  pf : Bool
  ekf : Bool
  pfStates : Nat

/-- How poses are made: by interpolation along dead reckoning or the particle filter (interpolate.py L307-564), from the states of the EKF, and from
those at the DVL without offsets (ekf.py L1124-1171; process.py L1549-1566). Each image that is kept comes with its pose, or without one if it is left as
it is. -/
structure PoseMakers (α I P : Type) where
  interp : Estimate → α → List I → Res (List (I × Option P))
  update : α → List I → List (I × Option P)
  atDvl : List I → List (I × Option P)

/-- A file: folder, name and rows (csv_tools.py L34-60). -/
structure ImageFile (I P : Type) where
  folder : Estimate
  name : Text
  rows : List (I × Option P)

variable {α I P : Type}

/-- process.py L486-502: the images that are loaded; those of the second camera only if the mission has one. -/
def ImageRun.loaded (r : ImageRun α I) : CamSlot → List I
  | .one => r.images .one
  | .two => if r.names.length > 1 then r.images .two else []
  | .three => r.images .three

/-- process.py L1222-1296, one list: interpolated if it has more than one image, otherwise left as it is. The name is only looked up. -/
def interpList (r : ImageRun α I) (k : PoseMakers α I P) (e : Estimate) (m : α) (s : CamSlot) : Res (List (I × Option P)) :=
  let l := r.loaded s
  if l.length > 1 then
    match s with
    | .one => do
      let _ ← pyGet r.names 0
      k.interp e m l
    | .two => do
      let _ ← pyGet r.names 1
      k.interp e m l
    | .three => if r.names.length ≥ 2 then k.interp e m l else .ok (l.map fun i => (i, none))
  else .ok (l.map fun i => (i, none))

/-- process.py L526-529, L1261-1296: the lists of the particle filter. -/
def pfList (r : ImageRun α I) (k : PoseMakers α I P) (m : α) (s : CamSlot) : Res (List (I × Option P)) :=
  if r.pf then
    if r.pfStates > 1 then interpList r k .pf m s else .ok ((r.loaded s).map fun i => (i, none))
  else .ok []

/-- process.py L536-540, L1525-1548: the lists of the EKF. -/
def ekfRows (r : ImageRun α I) (k : PoseMakers α I P) (m : α) (s : CamSlot) : List (I × Option P) :=
  if r.ekf then
    if (r.loaded s).length > 0 then k.update m (r.loaded s) else []
  else []

/-- process.py L1827-1999: the files of one camera; `n` is its name. -/
def slotFiles (r : ImageRun α I) (n : Text) (dr pf ekf : List (I × Option P)) : List (ImageFile I P) :=
  [⟨.dr, Estimate.tag .dr ++ n, dr⟩] ++ (if r.pf then [⟨.pf, Estimate.tag .pf ++ n, pf⟩] else []) ++
    (if r.ekf then [⟨.ekf, Estimate.tag .ekf ++ n, ekf⟩] else [])

/-- process.py L1827-1898: the files of the first (`i = 0`) or second (`i = 1`) camera, if dead reckoning left more than `i` images. -/
def pairFiles (r : ImageRun α I) (i : Nat) (dr pf ekf : List (I × Option P)) : Res (List (ImageFile I P)) :=
  if dr.length > i then do
    let n ← pyGet r.names i
    .ok (slotFiles r n dr pf ekf)
  else .ok []

/-- process.py L1240-1259, L1899-1999: the name of the camera that the images of the laser go by. -/
def laserFileName (names : List Text) : Option Text :=
  if names.length > 2 then names[2]? else if names.length = 2 then names[1]? else none

/-- process.py L377-413, L1215-1296, L1522-1566, L1827-1999: the files of images that are written, with all outputs switched on; one with fewer than two rows is not (csv_tools.py L48). -/
def imageFiles (r : ImageRun α I) (k : PoseMakers α I P) : Res (List (ImageFile I P)) := do
  let m3 ← camera3Position r.format (r.mount .one) (r.mount .two) (r.mount .three) r.lasers
  let d1 ← interpList r k .dr (r.mount .one) .one
  let d2 ← interpList r k .dr (r.mount .two) .two
  let d3 ← interpList r k .dr m3 .three
  let p1 ← pfList r k (r.mount .one) .one
  let p2 ← pfList r k (r.mount .two) .two
  let p3 ← pfList r k m3 .three
  let f1 ← pairFiles r 0 d1 p1 (ekfRows r k (r.mount .one) .one)
  let f2 ← pairFiles r 1 d2 p2 (ekfRows r k (r.mount .two) .two)
  let f3 := if d3.length > 1 then
      match laserFileName r.names with
      | some n => slotFiles r (n ++ laserSuffix) d3 p3 (ekfRows r k m3 .three) ++
          (if r.ekf then [⟨.ekf, Estimate.tag .ekf ++ n ++ atDvlSuffix, if (r.loaded .three).length > 0 then k.atDvl (r.loaded .three) else []⟩] else [])
      | none => []
    else []
  .ok ((f1 ++ f2 ++ f3).filter fun f => f.rows.length > 1)

end Oplab
