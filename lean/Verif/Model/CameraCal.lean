import Verif.Model.Basic
import Verif.Model.Laser
import Mathlib.Analysis.SpecialFunctions.Trigonometric.Inverse
import Mathlib.Algebra.Order.Floor.Ring

/-!
# Camera calibration

/repo/src/auv_cal/camera_calibrator.py. OpenCV's detection and solvers are parameters. Lines refer to that file.
-/

namespace Oplab

/-- camera_calibrator.py L24-25 `Patterns`. -/
inductive CalPattern where
  | chessboard | circles | acircles
  deriving DecidableEq

/-- camera_calibrator.py L35-47 `ChessboardInfo`. -/
structure Board (K : Type) where
  cols : ℕ
  rows : ℕ
  dim : K
  deriving DecidableEq

/-- calibration.py L93, L178: the board made from `rows`, `cols` and `size` of the configuration. -/
def configBoard {K : Type} (rows cols : ℕ) (size : K) : Board K := ⟨rows, cols, size⟩

/-- camera_calibrator.py L313-328: the board as the detectors need it. -/
def orderBoard {K : Type} (p : CalPattern) (b : Board K) : Board K :=
  match p with
  | .chessboard => ⟨max b.cols b.rows, min b.cols b.rows, b.dim⟩
  | .acircles => ⟨min b.cols b.rows, max b.cols b.rows, b.dim⟩
  | .circles => b

/-- camera_calibrator.py L277-291: the sizes (columns, rows) of the circle grid that are tried. -/
def circleSizes {K : Type} (p : CalPattern) (b : Board K) : List (ℕ × ℕ) :=
  if p = .circles then [(b.cols, b.rows), (b.cols, b.rows)] else [(b.cols, b.rows)]

section
variable {K : Type} [Field K]

/-- camera_calibrator.py L410-415: the coordinates written for row `i` and column `j`. -/
def objectPoint (p : CalPattern) (dim : K) (i j : ℕ) : K × K :=
  if p = .acircles then (((2 * j + i % 2 : ℕ) : K) * dim, (i : K) * dim) else ((j : K) * dim, (i : K) * dim)

/-- camera_calibrator.py L402-418 `mk_object_points` for one board: writes into an array of zeros; the third coordinate is always zero. -/
def objectPoints (p : CalPattern) (b : Board K) : List (K × K) :=
  (List.range b.rows).foldl (fun l i =>
    (List.range b.cols).foldl (fun l j => l.set (j + i * b.cols) (objectPoint p b.dim i j)) l)
    (List.replicate (b.cols * b.rows) (0, 0))

variable [LinearOrder K]

/-! ## Choice of views -/

/-- camera_calibrator.py L393-394 `param_distance`. -/
def paramDistance (p q : List K) : K := ((p.zip q).map fun x => |x.1 - x.2|).sum

/-- camera_calibrator.py L385-400 `is_good_sample`: `min(...) > threshold`. -/
def goodSample (db : List (List K)) (p : List K) : Bool :=
  match db.map (paramDistance p) with
  | [] => true
  | d :: ds => decide (12 / 100 < ds.foldl min d)

/-- camera_calibrator.py L647-655 (and L539-555, L1111-1113): the views that are used, out of the detections in order. `params` gives the
parameters of a detection. -/
def chooseViews {D : Type} (params : D → List K) : List D → List D → List D
  | [], db => db
  | d :: ds, db => chooseViews params ds (if goodSample (db.map params) (params d) then db ++ [d] else db)

/-- camera_calibrator.py L639-646: what is saved in the json file: every detection with its image and the image size. -/
structure SavedView (D S : Type) where
  file : String
  view : D
  size : S

/-- camera_calibrator.py L632-655 `collect_corners`: the saved file and the views; `none` is an image without a sharp detection. -/
def collectCorners {D S : Type} (params : S → D → List K) (size : S) (found : List (String × Option D)) :
    List (SavedView D S) × List D :=
  let det := found.filterMap fun f => f.2.map fun d => (⟨f.1, d, size⟩ : SavedView D S)
  (det, chooseViews (params size) (det.map SavedView.view) [])

/-- camera_calibrator.py L527-557 `cal_from_json`, for a new calibrator: the views. -/
def viewsFromJson {D S : Type} (params : S → D → List K) (saved : List (SavedView D S)) : List D :=
  (chooseViews (fun s : SavedView D S => params s.size s.view) saved []).map SavedView.view

/-! ## Iterations of the monocular calibration -/

/-- camera_calibrator.py L787-794, L1330-1337: index and value of the first smallest error. -/
def bestOf {C : Type} (err : C → K) : List C → Option C
  | [] => none
  | c :: cs => some (cs.foldl (fun b x => if err x < err b then x else b) c)

/-- camera_calibrator.py L685-784 `cal_fromcorners`: the calibrations of all iterations, each the average error and the views that were used.
`solve` gives the average error and the error of every view, `std` the standard deviation; `n` counts the iterations that
are left after this one (4 at first, L516). -/
def monoIterations {V : Type} (solve : List V → K × List K) (std : List K → K) : ℕ → List V → List (K × List V)
  | n, views =>
    let r := solve views
    let limit := max (r.1 + 2 * std r.2) (25 / 100)
    (r.1, views) ::
      if r.2.any (fun e => decide (limit < e)) then
        match n with
        | 0 => []
        | m + 1 => monoIterations solve std m (((views.zip r.2).filter fun x => decide (x.2 ≤ limit)).map Prod.fst)
      else []

/-- camera_calibrator.py L685-810: the calibration that is kept, with the views it was computed from. -/
def monoCalibrate {V : Type} (solve : List V → K × List K) (std : List K → K) (views : List V) : Option (K × List V) :=
  bestOf Prod.fst (monoIterations solve std 4 views)

/-! ## Iterations of the stereo calibration -/

/-- One stereo calibration: error, pose and the views used. -/
structure StereoCal (K V T : Type) where
  error : K
  pose : T
  views : List V

/-- camera_calibrator.py L1240-1327 `StereoCalibrator.cal_fromcorners`: the calibrations of all iterations, or `quit` when fewer than 8 views are
left. `epi` gives the errors of all views in `db` for a calibration, `mean` and `std` are numpy's. -/
def stereoIterations {V T : Type} (solve : List V → K × T) (epi : T → V → K) (mean std : List K → K) (db : List V) :
    ℕ → List V → Res (List (StereoCal K V T))
  | n, views =>
    if views.length < 8 then .error .quit
    else
      let r := solve views
      let errors := db.map (epi r.2)
      match n with
      | 0 => .ok [⟨r.1, r.2, views⟩]
      | m + 1 =>
        if 6 / 10 < r.1 then do
          let rest ← stereoIterations solve epi mean std db m
            (((views.zip errors).filter fun x => decide (x.2 < mean errors + 2 * std errors)).map Prod.fst)
          .ok (⟨r.1, r.2, views⟩ :: rest)
        else .ok [⟨r.1, r.2, views⟩]

/-- camera_calibrator.py L1329-1347 and L1289, L1403-1413: the pose of the best calibration, and the pose from which the rectification of both
cameras was computed last. -/
def stereoCalibrate {V T : Type} (solve : List V → K × T) (epi : T → V → K) (mean std : List K → K) (db : List V) :
    Res (Option (StereoCal K V T) × Option T) := do
  let cals ← stereoIterations solve epi mean std db 4 db
  .ok (bestOf StereoCal.error cals, cals.getLast?.map StereoCal.pose)

/-! ## Refinement of corners -/

/-- camera_calibrator.py L194-200: the distances between corners in a row that are looked at. -/
def rowDistances {P : Type} (dist : P → P → K) (rows cols : ℕ) (corners : List P) : Res (List K) :=
  ((List.range rows).flatMap fun row => (List.range (cols - 1)).map fun col => row * rows + col).mapM
    fun i : ℕ => do .ok (dist (← pyGet corners (i : Int)) (← pyGet corners ((i + 1 : ℕ) : Int)))

/-- camera_calibrator.py L201-207: the distances between corners in a column that are looked at. -/
def columnDistances {P : Type} (dist : P → P → K) (rows cols : ℕ) (corners : List P) : Res (List K) :=
  ((List.range (rows - 1)).flatMap fun row => (List.range cols).map fun col => row * rows + col).mapM
    fun i : ℕ => do .ok (dist (← pyGet corners (i : Int)) (← pyGet corners ((i + cols : ℕ) : Int)))

/-- camera_calibrator.py L193-208: the radius of the search; the ceiling of infinity is an error (`OverflowError`, here `ValueError`). -/
def refineRadius {P : Type} [FloorRing K] (dist : P → P → K) (rows cols : ℕ) (corners : List P) : Res ℤ := do
  let a ← rowDistances dist rows cols corners
  let b ← columnDistances dist rows cols corners
  match a ++ b with
  | [] => .error .valueError
  | d :: ds => .ok ⌈ds.foldl min d * (1 / 2)⌉

/-- camera_calibrator.py L159-167: all corners are more than 8 pixels from the border. -/
def cornersInside (w h : K) (corners : List (K × K)) : Bool :=
  corners.all fun c => decide ((8 < c.1 ∧ c.1 < w - 8) ∧ (8 < c.2 ∧ c.2 < h - 8))

/-! ## Resizing -/

/-- camera_calibrator.py L464-490 `resize_with_padding`: width and height of the result for an image of `ow` by `oh` pixels and the target `w` by
`h`; `int` of a number that is not negative is the floor. -/
def paddedSize [FloorRing K] (w h ow oh : ℕ) : Res (ℕ × ℕ) :=
  if h = 0 ∨ oh = 0 then .error .zeroDivision
  else
    let ar : K := (w : K) / h
    let oar : K := (ow : K) / oh
    let top := if ar < oar then ⌊((ow : K) / ar - oh) / 2⌋₊ else 0
    let left := if oar < ar then ⌊(ar * oh - ow) / 2⌋₊ else 0
    if ar < oar ∧ w = 0 then .error .zeroDivision
    else if oh + 2 * top ≠ h then .ok (w, h) else .ok (ow + 2 * left, oh + 2 * top)

/-! ## Pairs of images -/

/-- camera_calibrator.py L982-988: images with equal names. -/
def equalNames (left right : List String) : List (ℕ × ℕ) :=
  (List.range left.length).flatMap fun i => (List.range right.length).filterMap fun j =>
    if left[i]? = right[j]? then some (i, j) else none

/-- camera_calibrator.py L960-1037 `find_common_filenames`: pairs of positions. `clock` gives the time of images whose names contain one (L966-972
and L979-980, decided by the first left name), names are stems, without the prefix `image` if the first name has it. -/
def commonViews (clock : String → Option (String → K)) (left right : List String) : Res (List (ℕ × ℕ)) :=
  match left.head?, right.head? with
  | some l, some _ =>
    match clock l with
    | some t => syncByStamp (left.map t) (right.map t)
    | none => .ok (equalNames left right)
  | _, _ => .error .indexError

end

/-! ## Description of a view -/

/-- camera_calibrator.py L70-89 `_get_outside_corners`: upper left, upper right, lower right and lower left. -/
def outsideCorners {P : Type} (cols rows : ℕ) (corners : List P) : Res (P × P × P × P) :=
  if corners.length ≠ cols * rows then .error .valueError
  else do
    .ok (← pyGet corners 0, ← pyGet corners ((cols : Int) - 1), ← pyGet corners (-1), ← pyGet corners (-(cols : Int)))

/-- camera_calibrator.py L118-131 `_get_area`. -/
noncomputable def boardArea (ul ur dr dl : ℝ × ℝ) : ℝ :=
  let a : ℝ × ℝ := (ur.1 - ul.1, ur.2 - ul.2)
  let b : ℝ × ℝ := (dr.1 - ur.1, dr.2 - ur.2)
  let c : ℝ × ℝ := (dl.1 - dr.1, dl.2 - dr.2)
  let p : ℝ × ℝ := (b.1 + c.1, b.2 + c.2)
  let q : ℝ × ℝ := (a.1 + b.1, a.2 + b.2)
  |p.1 * q.2 - p.2 * q.1| / 2

/-- camera_calibrator.py L92-115 `_get_skew`: the skew from the angle at the upper right corner (`numpy` gives nan for a zero vector, here 0). -/
noncomputable def boardSkew (ul ur dr : ℝ × ℝ) : ℝ :=
  let ab : ℝ × ℝ := (ul.1 - ur.1, ul.2 - ur.2)
  let cb : ℝ × ℝ := (dr.1 - ur.1, dr.2 - ur.2)
  let angle := Real.arccos ((ab.1 * cb.1 + ab.2 * cb.2) / (Real.sqrt (ab.1 ^ 2 + ab.2 ^ 2) * Real.sqrt (cb.1 ^ 2 + cb.2 ^ 2)))
  min 1 (2 * |Real.pi / 2 - angle|)

/-- camera_calibrator.py L351-369 `get_parameters`. -/
noncomputable def viewParameters (cols rows : ℕ) (width height : ℝ) (corners : List (ℝ × ℝ)) : Res (List ℝ) := do
  let (ul, ur, dr, dl) ← outsideCorners cols rows corners
  let border := Real.sqrt (boardArea ul ur dr dl)
  let mx := (corners.map Prod.fst).sum / corners.length
  let my := (corners.map Prod.snd).sum / corners.length
  if width - border = 0 ∨ height - border = 0 ∨ width * height = 0 then .error .zeroDivision
  else
    .ok [min 1 (max 0 ((mx - border / 2) / (width - border))), min 1 (max 0 ((my - border / 2) / (height - border))),
      Real.sqrt (boardArea ul ur dr dl / (width * height)), boardSkew ul ur dr]

/-- camera_calibrator.py L1585-1593 `epipolar_error`. -/
noncomputable def epipolarError (pairs : List ((ℝ × ℝ) × (ℝ × ℝ))) : ℝ :=
  let d := pairs.map fun p => min |p.1.1 - p.2.1| |p.1.2 - p.2.2|
  Real.sqrt ((d.map fun x => x ^ 2).sum / d.length)

end Oplab
