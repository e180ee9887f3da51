import Verif.Model.Ekf
import Verif.Model.CsvLoad
import Verif.Model.Outputs

/-!
Model of the relative uncertainties of /repo/src/auv_nav/process.py L1325-1371, L1435-1521
(`compute_relative_pose_uncertainty`).  The filter is a parameter; plots are not modelled.
-/

namespace Oplab

/-- Covariance of a pose: x, y, z, roll, pitch, yaw. (csv_tools.py L202) -/
abbrev PoseCov := Matrix (Fin 6) (Fin 6) ℝ

/-- process.py L1447-1450, the loop over `i`: the covariance `c` of the first state is added. -/
noncomputable def addCovariance {P : Type} (c : PoseCov) : List (String × P × PoseCov) → List (String × P × PoseCov)
  | [] => []
  | s :: ss => (s.1, s.2.1, s.2.2 + c) :: addCovariance c ss

/-- process.py L1445-1451: uncertainties by subtraction; an empty list has no first element. -/
noncomputable def subtractFirst {P : Type} : List (String × P × PoseCov) → Res (List (String × P × PoseCov))
  | [] => .error .indexError
  | s :: ss => .ok ((s.1, s.2.1, 0) :: addCovariance s.2.2 ss)

/-- process.py L1351-1353: the initial covariance of the filter, with the part of the pose set to zero. -/
def zeroPosePart (C : KMat) : KMat := fun i j => if i.val < 6 ∧ j.val < 6 then 0 else C i j

/-- What is given to the filter: the first state at an earlier time, the covariance, the time of the end and the times of
all images. (process.py L1340-1354, L1384-1420) -/
structure RelativeInput (P : Type) where
  state : P
  start : ℝ
  covariance : KMat
  stop : ℝ

/-- The two files of process.py L1503-1521: names, poses and covariances of images. -/
structure RelativeFiles (P : Type) where
  subtractionName : String
  subtraction : List (String × P × PoseCov)
  propagationName : String
  propagation : List (String × P × PoseCov)

/-- process.py L1481-1500: the names of the files; without a second camera they are not assigned. -/
def relativeNames (cameras : List String) : Res (String × String) :=
  match cameras with
  | _ :: _ :: c :: _ =>
    .ok ("auv_ekf_cov_based_on_subtraction_" ++ c ++ "_laser_at_dvl", "auv_ekf_cov_based_on_ekf_propagation_" ++ c ++ "_laser_at_dvl")
  | [_, c] =>
    .ok ("auv_ekf_cov_based_on_subtraction_" ++ c ++ "_laser_at_dvl", "auv_ekf_cov_based_on_ekf_propagation_" ++ c ++ "_laser_at_dvl")
  | _ => .error .unboundLocal

/-- process.py L1356-1364: the selected images, with their times; `use` is `use_camera`. -/
def cropImages (start stop : String) (use : Bool) : List (ℝ × String) → List (ℝ × String)
  | [] => []
  | f :: fs =>
    let use := use || f.2 == start
    let rest := if f.2 == stop then [] else cropImages start stop use fs
    if use then f :: rest else rest

/-- process.py L1325-1371, L1435-1521.  `file` gives the rows of the pose file and of its covariance file (with the time of
a pose), `images` are the times and names of the images of the third camera, in this order, `filter` is the filter with
the selection of its states at the centre (L1405-1432, C30).  The program is ended by a `quit` after the files have been
written, which is a result here. -/
noncomputable def relativeRun {P : Type} (cameras : List String) (first last : String)
    (file : String → Res (List (String × P × ℝ) × List (String × PoseCov))) (initialCov : KMat) (images : List (ℝ × String))
    (filter : RelativeInput P → List (ℝ × P × PoseCov)) : Res (RelativeFiles P) := do
  let c ← pyGet cameras 2
  let f ← file ("auv_ekf_" ++ c ++ "_laser_at_dvl.csv")
  let states ← loadStates first last f.1 f.2
  match states, cropImages first last false images with
  | [], _ => .error .quit
  | _ :: _, [] => .error .quit
  | s :: ss, i :: is =>
    let ekf := filter { state := s.2.1.1, start := s.2.1.2 - 1 / 1000000, covariance := zeroPosePart initialCov,
                        stop := (ss.getLast?.getD s).2.1.2 }
    let est := updateCameraList id (i :: is) ekf
    if est.length ≠ (s :: ss).length then .error .assertion
    else do
      let sub ← subtractFirst ((s :: ss).map fun x => (x.1, x.2.1.1, x.2.2))
      let fileNames ← relativeNames cameras
      .ok { subtractionName := fileNames.1
            subtraction := sub
            propagationName := fileNames.2
            propagation := est.map fun x => (x.2, x.1.1, x.1.2) }

end Oplab
