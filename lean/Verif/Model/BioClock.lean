import Verif.Model.Parsers

/-! The clocks of the BioCam: `correct_timestamps` as a whole and where `auv_nav parse` calls it. -/

namespace Oplab
variable {K : Type} [Field K] [LinearOrder K]

/-- An image of one camera: when the computer received it, the clock of the camera, and the time that is used. (/repo/src/auv_nav/parsers/parse_biocam_images.py L202-221, L255-263) -/
structure ClockShot (K : Type) where
  cpu : K
  cam : K
  time : K
deriving DecidableEq

/-- A record of the parser: a pair of images of the cameras 1 and 2, or a laser image of camera 2, which is called camera 3.  `t` is the time of the record.
Files and names are left out. (parse_biocam_images.py L196-222, L249-264) -/
inductive ClockRecord (K : Type)
  | image (t : K) (c1 c2 : ClockShot K)
  | laser (t : K) (c3 : ClockShot K)
deriving DecidableEq

/-- parse_biocam_images.py L281-294: clock and offset of camera 1 of the pairs. -/
def bioOffsets1 (l : List (ClockRecord K)) : List (K × K) := l.filterMap fun r => match r with
  | .image _ c1 _ => some (c1.cam, c1.cpu - c1.cam)
  | .laser _ _ => none

/-- parse_biocam_images.py L281-294: clock and offset of camera 2 of the pairs. -/
def bioOffsets2 (l : List (ClockRecord K)) : List (K × K) := l.filterMap fun r => match r with
  | .image _ _ c2 => some (c2.cam, c2.cpu - c2.cam)
  | .laser _ _ => none

/-- parse_biocam_images.py L295-303: clock and offset of the laser images. -/
def bioOffsets3 (l : List (ClockRecord K)) : List (K × K) := l.filterMap fun r => match r with
  | .image _ _ _ => none
  | .laser _ c3 => some (c3.cam, c3.cpu - c3.cam)

/-- parse_biocam_images.py L313-322: a line through the points, moved down until no point is below it.  `regress` is `linregress`. -/
def bioLine (regress : List (K × K) → Res (K × K)) (points : List (K × K)) : Res (K × K) := do
  let f ← regress points
  lineFit f.1 f.2 (points.map Prod.fst) (points.map Prod.snd)

/-- parse_biocam_images.py L366-384: the predicted times are written back, `i` counts the pairs and `j` the laser images. -/
def bioWrite (p1 p2 p3 : List K) : Nat → Nat → List (ClockRecord K) → Res (List (ClockRecord K))
  | _, _, [] => .ok []
  | i, j, .image _ c1 c2 :: l => do
    let a ← pyGet p1 i
    let b ← pyGet p2 i
    let rest ← bioWrite p1 p2 p3 (i + 1) j l
    .ok (.image a { c1 with time := a } { c2 with time := b } :: rest)
  | i, j, .laser _ c3 :: l => do
    let a ← pyGet p3 j
    let rest ← bioWrite p1 p2 p3 i (j + 1) l
    .ok (.laser a { c3 with time := a } :: rest)

/-- parse_biocam_images.py L271-387 `correct_timestamps`.  L341-348 read the second and the second last entry of the lists of the cameras 1 and 2. -/
def correctTimestamps (regress : List (K × K) → Res (K × K)) (l : List (ClockRecord K)) : Res (List (ClockRecord K)) := do
  let o1 := bioOffsets1 l
  let o2 := bioOffsets2 l
  let o3 := bioOffsets3 l
  let f1 ← bioLine regress o1
  let f2 ← bioLine regress (o2 ++ o3)
  let p1 := predictCpu f1.1 f1.2 (o1.map Prod.fst)
  let p2 := predictCpu f2.1 f2.2 (o2.map Prod.fst)
  let p3 := predictCpu f2.1 f2.2 (o3.map Prod.fst)
  let _ ← pyGet (o1.map Prod.fst) 1
  let _ ← pyGet (o1.map Prod.fst) (-2)
  let _ ← pyGet (o2.map Prod.fst) 1
  let _ ← pyGet (o2.map Prod.fst) (-2)
  bioWrite p1 p2 p3 0 0 l

/-- /repo/src/auv_nav/parse.py L682-700: the results of the image parser are corrected if the format is `biocam` and the first record is a pair. -/
def bioResults (regress : List (K × K) → Res (K × K)) (format : String) (l : List (ClockRecord K)) : Res (List (ClockRecord K)) :=
  if format = "biocam" then
    match l with
    | .image t c1 c2 :: rest => correctTimestamps regress (.image t c1 c2 :: rest)
    | l => .ok l
  else .ok l

end Oplab
