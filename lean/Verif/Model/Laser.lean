import Verif.Model.Calib
import Mathlib.Algebra.Order.Floor.Ring
import Mathlib.Data.Rat.Floor
import Mathlib.Data.Matrix.Mul

/-!
# Laser calibration of auv_cal

Models /repo/src/auv_cal/laser_calibrator.py.  Elements of an ordered field, or real numbers, stand for floats. Images,
random draws and the singular value decomposition are parameters.
-/

namespace Oplab

/-! ## Detection of the line in an image -/

section
variable {K : Type} [Field K] [LinearOrder K]

/-- laser_calibrator.py L185: the weight of the pixel in row `vw + j`. -/
def laserWeight (k j : ℕ) : K := 1 - 2 * |((k : K) - 1) / 2 - (j : K)| / (k : K)

/-- laser_calibrator.py L180-190: `gt`, `gt_m` and `gt_mv` of the window beginning at row `vw`; a row outside the image is
an `IndexError`. Sums of integers are exact (NumPy 2 would wrap sums of `uint8`). -/
def windowSums (k : ℕ) (col : List K) (vw : ℕ) : Res (K × K × K) :=
  let w := (col.drop vw).take k
  if w.length < k then .error .indexError
  else .ok ((w.mapIdx fun j x => laserWeight k j * x).sum, w.sum, (w.mapIdx fun j x => (j : K) * x).sum)

/-- laser_calibrator.py L179-196: the windows of one column; the state is `gmax` and `vgmax`, the latter possibly not yet
bound. -/
def scanColumn (k : ℕ) (col : List K) : List ℕ → K → Option K → Res (K × Option K)
  | [], gmax, vg => .ok (gmax, vg)
  | vw :: ws, gmax, vg => do
    let s ← windowSums k col vw
    if s.1 > gmax then scanColumn k col ws s.1 (some ((vw : K) + s.2.2 / s.2.1)) else scanColumn k col ws gmax vg

/-- laser_calibrator.py L178-179, L196: the first rows of the windows. -/
def windowRows (k : ℕ) (start : ℕ) (stop : Int) : List ℕ := (List.range (stop - k - start).toNat).map (start + ·)

/-- laser_calibrator.py L197-201: a peak is appended; `vgmax` may be unbound or left from an earlier column. -/
def appendPeak (limit : K) (u : ℕ) (gmax : K) (vg : Option K) : Res (List (K × ℕ)) :=
  if gmax > limit then
    match vg with
    | none => .error .unboundLocal
    | some v => .ok [(v, u)]
  else .ok []

/-- laser_calibrator.py L176-201: the columns; `img u` is column `u`. -/
def scanColumns (k start : ℕ) (stop : Int) (limit : K) (img : ℕ → List K) : List ℕ → Option K → Res (List (K × ℕ))
  | [], _ => .ok []
  | u :: us, vg => do
    let s ← scanColumn k (img u) (windowRows k start stop) 0 vg
    let p ← appendPeak limit u s.1 s.2
    let ps ← scanColumns k start stop limit img us s.2
    .ok (p ++ ps)

/-- laser_calibrator.py L161, L166-172 without prior: the columns searched. -/
def laserColumns (width numColumns : ℕ) : List ℕ :=
  let n := width - 80 - 80
  if 0 < numColumns then
    let incr := max ((n / numColumns : ℕ) - 1) 1
    (List.range ((n + incr - 1) / incr)).map fun i => 80 + i * incr
  else (List.range n).map (80 + ·)

/-- laser_calibrator.py L131-202 `findLaserInImage` without prior; `endRow = -1` stands for the height. -/
def findLaser (imgMax ratio : K) (k numColumns start : ℕ) (endRow : Int) (height width : ℕ) (img : ℕ → List K) :
    Res (List (K × ℕ)) :=
  scanColumns k start (if endRow = -1 then (height : Int) else endRow) (ratio * imgMax) img
    (laserColumns width numColumns) none

/-! ## Pairs of images -/

/-- laser_calibrator.py L1014-1018: the smallest difference and the first index at which it occurs. -/
def nearestLoop (t : K) : List K → ℕ → K × ℕ → K × ℕ
  | [], _, b => b
  | s :: ss, i, b => nearestLoop t ss (i + 1) (if |t - s| < b.1 then (|t - s|, i) else b)

/-- laser_calibrator.py L1011-1024: the pairs of positions in the two lists of images; `min` of nothing is a
`ValueError`. -/
def syncByStamp (left right : List K) : Res (List (ℕ × ℕ)) :=
  match right with
  | [] => if left = [] then .ok [] else .error .valueError
  | s :: ss => .ok ((left.mapIdx fun i t => (i, nearestLoop t ss 1 (|t - s|, 0))).filterMap fun p =>
      if p.2.1 < 5 / 100 then some (p.1, p.2.2) else none)

/-- laser_calibrator.py L1030-1033: the selection of `m` out of `n` positions. -/
def spread (m n : ℕ) : List ℕ := (List.range m).map fun i => i * n / m + n / (2 * m)

/-- laser_calibrator.py L984-1039, with names of 26 or more characters: the pairs that are processed, as positions in the
two lists. -/
def calPairs (left right : List K) : Res (List (ℕ × ℕ)) :=
  if left = [] then .error .indexError
  else do
    let sync ← syncByStamp left right
    if 500 < left.length then (spread 500 left.length).mapM fun s : ℕ => pyGet sync (s : Int)
    else .ok ((List.range left.length).zip (List.range right.length))

/-! ## Point clouds -/

/-- laser_calibrator.py L741-744: `i2` is moved to the first peak of the second image that is not to the left. -/
def seekPeak (u : K) : List (K × K) → List (K × K)
  | [] => []
  | q :: qs => if q.2 ≥ u then q :: qs else seekPeak u qs

/-- laser_calibrator.py L714-765 `pointcloud_from_peaks`: peaks are (row, column). The second list is what is left of it
from `i2` on. `tri` is the triangulation followed by the removal of the rectification; `depth` gives the third coordinate
of the triangulated point before that. -/
def pointCloud {P : Type} (tri : K × K → K × K → P) (depth : K × K → K × K → K) :
    List (K × K) → List (K × K) → List P × ℕ × ℕ
  | [], _ => ([], 0, 0)
  | p :: ps, qs =>
    match seekPeak p.2 qs with
    | [] => pointCloud tri depth ps []
    | q :: qs' =>
      let r := pointCloud tri depth ps (q :: qs')
      if |q.2 - p.2| < 1 then
        if depth p q < 0 then (r.1, r.2.1, r.2.2 + 1) else (tri p q :: r.1, r.2.1 + 1, r.2.2)
      else r

/-- laser_calibrator.py L691-704: the points of the shuffled cloud; `counts` are the sizes of the bins, 0 for `None`. -/
def stratLoop {P : Type} [FloorRing K] (z : P → K) (lo hi size : K) (maxPts : ℕ) : List P → List ℕ → Res (List P)
  | [], _ => .ok []
  | p :: ps, counts =>
    if lo ≤ z p ∧ z p < hi then
      match counts[⌊(z p - lo) / size⌋.toNat]? with
      | none => .error .indexError
      | some c =>
        if c = 0 ∨ c < maxPts then do
          let r ← stratLoop z lo hi size maxPts ps (counts.set ⌊(z p - lo) / size⌋.toNat (c + 1))
          .ok (p :: r)
        else stratLoop z lo hi size maxPts ps counts
    else stratLoop z lo hi size maxPts ps counts

/-- laser_calibrator.py L662-712 `z_stratified_sampling`; `shuffled` is the cloud after `random.shuffle`. -/
def zStratified {P : Type} [FloorRing K] (z : P → K) (lo hi : K) (nbins maxPts : ℕ) (shuffled : List P) : Res (List P) :=
  if nbins = 0 then .error .zeroDivision
  else stratLoop z lo hi ((hi - lo) / (nbins : K)) maxPts shuffled (List.replicate nbins 0)

end

/-! ## Detections kept in files -/

/-- laser_calibrator.py L404-425: a file with detections as YAML reads it: a list without items is written as one empty
item, which is read as null. -/
structure LaserFile (P : Type) where
  top : List (Option P)
  bottom : Option (List (Option P))

/-- laser_calibrator.py L404-421. -/
def yamlItems {P : Type} (ps : List P) : List (Option P) := if ps = [] then [none] else ps.map some

/-- laser_calibrator.py L494-500: `a1[i][0]` of null is a `TypeError`. -/
def readItems {P : Type} : List (Option P) → Res (List P)
  | [] => .ok []
  | none :: _ => .error .typeError
  | some p :: ps => do
    let r ← readItems ps
    .ok (p :: r)

/-- laser_calibrator.py L354-426 `find_laser_write_file`: the detections and the file; `found`, `foundB` are the results of
`findLaserInImage` for the two lines. -/
def detectAndWrite {P : Type} (two : Bool) (found foundB : List P) : (List P × List P) × LaserFile P :=
  ((found, if two then foundB else []), ⟨yamlItems found, if two then some (yamlItems foundB) else none⟩)

/-- laser_calibrator.py L485-500: the contents of a file that is read. -/
def readLaser {P : Type} (two : Bool) (f : LaserFile P) : Res (List P × List P) := do
  let a ← readItems f.top
  let b ← if two then readItems (f.bottom.getD []) else .ok []
  .ok (a, b)

/-- laser_calibrator.py L428-517 `get_laser_pixels`: detections and the file afterwards. -/
def laserPixels {P : Type} (overwrite two : Bool) (found foundB : List P) (file : Option (LaserFile P)) :
    Res ((List P × List P) × LaserFile P) :=
  match file with
  | none => .ok (detectAndWrite two found foundB)
  | some f => if overwrite then .ok (detectAndWrite two found foundB) else (readLaser two f).map fun r => (r, f)

/-! ## Planes -/

/-- `a - b` of vectors (laser_calibrator.py L73-74). -/
def diff3 (a b : V3 ℝ) : V3 ℝ := ⟨a.x - b.x, a.y - b.y, a.z - b.z⟩

/-- `np.cross` (laser_calibrator.py L75). -/
def cross3 (a b : V3 ℝ) : V3 ℝ := ⟨a.y * b.z - a.z * b.y, a.z * b.x - a.x * b.z, a.x * b.y - a.y * b.x⟩

open Classical in
/-- laser_calibrator.py L59-83 `plane_through_3_points`: normal and offset. -/
noncomputable def planeThrough (p0 p1 p2 : V3 ℝ) : V3 ℝ × ℝ :=
  let n := cross3 (diff3 p1 p0) (diff3 p2 p0)
  let d := -dot3 n p0
  if n.x ≠ 0 then (⟨n.x / n.x, n.y / n.x, n.z / n.x⟩, d / n.x) else (n, d)

/-- laser_calibrator.py L27-56 `build_plane`: plane (normal and offset), normal, offset. -/
noncomputable def buildPlane (pitch yaw : ℝ) (p : V3 ℝ) : (V3 ℝ × ℝ) × V3 ℝ × ℝ :=
  let n : V3 ℝ := ⟨1, Real.tan (yaw * (Real.pi / 180)), Real.tan (pitch * (Real.pi / 180))⟩
  let u : V3 ℝ := ⟨n.x / norm3 n, n.y / norm3 n, n.z / norm3 n⟩
  let d := -dot3 u p
  ((n, d), u, (-d - p.y * n.y) / n.x)

/-- laser_calibrator.py L86-91 `opencv_to_ned`. -/
def opencvToNed (p : V3 ℝ) : V3 ℝ := ⟨-p.y, p.x, p.z⟩

open Classical in
/-- laser_calibrator.py L94-107 `get_angle` with the default reference. -/
noncomputable def getAngle (n : V3 ℝ) : ℝ :=
  let u : V3 ℝ := ⟨n.x / norm3 n, n.y / norm3 n, n.z / norm3 n⟩
  let u : V3 ℝ := if u.x < 0 then ⟨u.x * -1, u.y * -1, u.z * -1⟩ else u
  let r : V3 ℝ := ⟨1, 0, 0⟩
  atan2 (norm3 (cross3 u r)) (dot3 u r) * (180 / Real.pi)

open Classical in
/-- laser_calibrator.py L118-126: an angle brought back between -90 and 90 degrees. -/
noncomputable def foldAngle (a : ℝ) : ℝ :=
  let a := if a > 90 then a - 180 else a
  if a < -90 then a + 180 else a

/-- laser_calibrator.py L109-128 `get_angles`: plane angle, pitch, yaw. -/
noncomputable def getAngles (n : V3 ℝ) : ℝ × ℝ × ℝ :=
  let u : V3 ℝ := ⟨n.x / norm3 n, n.y / norm3 n, n.z / norm3 n⟩
  (getAngle u, foldAngle (atan2 u.z u.x * (180 / Real.pi)), foldAngle (atan2 u.y u.x * (180 / Real.pi)))

/-- `np.linalg.norm` of the second and third coordinate (laser_calibrator.py L851-856). -/
noncomputable def norm2 (a : V3 ℝ) : ℝ := Real.sqrt (a.y * a.y + a.z * a.z)

open Classical in
/-- laser_calibrator.py L850-886: whether three points are used for a plane. With `min_dist` zero, equal points give `nan`,
which is not modelled. -/
noncomputable def tripleAccepted (minDist : ℝ) (p0 p1 p2 : V3 ℝ) : Bool :=
  let a := diff3 p1 p0
  let b := diff3 p2 p0
  let c := diff3 p2 p1
  if norm2 a < minDist ∨ norm2 b < minDist ∨ norm2 c < minDist then false
  else if |a.y * b.z - a.z * b.y| / (norm2 a * norm2 b) < 866 / 1000 then false
  else true

/-- laser_calibrator.py L846-890: the loop for the uncertainty planes, given the triples drawn; `none` if more draws are
needed. -/
noncomputable def uncertLoop (num : ℕ) (minDist : ℝ) :
    List (V3 ℝ × V3 ℝ × V3 ℝ) → List (V3 ℝ × ℝ) → Option (List (V3 ℝ × ℝ))
  | [], planes => if planes.length < num then none else some planes
  | t :: ts, planes =>
    if planes.length < num then
      if tripleAccepted minDist t.1 t.2.1 t.2.2 then uncertLoop num minDist ts (planes ++ [planeThrough t.1 t.2.1 t.2.2])
      else uncertLoop num minDist ts planes
    else some planes

/-- laser_calibrator.py L1173, L1195, with L659: the uncertainty planes reported for the first and the second laser; the
list of planes belongs to the object and is not emptied between the two. -/
noncomputable def bothLasers (num : ℕ) (d1 d2 : ℝ) (draws1 draws2 : List (V3 ℝ × V3 ℝ × V3 ℝ)) :
    Option (List (V3 ℝ × ℝ) × List (V3 ℝ × ℝ)) := do
  let a ← uncertLoop num d1 draws1 []
  let b ← uncertLoop num d2 draws2 a
  pure (a, b)

/-! ## Triangulation -/

/-- laser_calibrator.py L208-212: the matrix of `triangulate_lst`; peaks are (row, column). -/
def lstMatrix (x1 x2 : ℝ × ℝ) (P1 P2 : Matrix (Fin 3) (Fin 4) ℝ) : Matrix (Fin 6) (Fin 6) ℝ := fun i j =>
  if hi : i.val < 3 then
    if hj : j.val < 4 then P1 ⟨i.val, hi⟩ ⟨j.val, hj⟩
    else if j.val = 4 then -(if i.val = 0 then x1.2 else if i.val = 1 then x1.1 else 1) else 0
  else
    if hj : j.val < 4 then P2 ⟨i.val - 3, by omega⟩ ⟨j.val, hj⟩
    else if j.val = 5 then -(if i.val = 3 then x2.2 else if i.val = 4 then x2.1 else 1) else 0

/-- laser_calibrator.py L205-215 `triangulate_lst`; `svd` gives the last right singular vector. -/
noncomputable def triangulateLst (svd : Matrix (Fin 6) (Fin 6) ℝ → Fin 6 → ℝ) (x1 x2 : ℝ × ℝ)
    (P1 P2 : Matrix (Fin 3) (Fin 4) ℝ) : V3 ℝ :=
  let v := svd (lstMatrix x1 x2 P1 P2)
  ⟨v 0 / v 3, v 1 / v 3, v 2 / v 3⟩

/-- laser_calibrator.py L227-232: the matrix of `triangulate_dlt`. -/
def dltMatrix (x1 x2 : ℝ × ℝ) (P1 P2 : Matrix (Fin 3) (Fin 4) ℝ) : Matrix (Fin 4) (Fin 4) ℝ := fun i j =>
  if i = 0 then x1.2 * P1 2 j - P1 0 j
  else if i = 1 then x1.1 * P1 2 j - P1 1 j
  else if i = 2 then x2.2 * P2 2 j - P2 0 j
  else x2.1 * P2 2 j - P2 1 j

/-- laser_calibrator.py L218-235 `triangulate_dlt`; `svd` gives the last right singular vector. -/
noncomputable def triangulateDlt (svd : Matrix (Fin 4) (Fin 4) ℝ → Fin 4 → ℝ) (x1 x2 : ℝ × ℝ)
    (P1 P2 : Matrix (Fin 3) (Fin 4) ℝ) : V3 ℝ :=
  let v := svd (dltMatrix x1 x2 P1 P2)
  ⟨v 0 / v 3, v 1 / v 3, v 2 / v 3⟩

end Oplab
