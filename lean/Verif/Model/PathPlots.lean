import Verif.Model.Basic
import Mathlib.Data.Rat.Floor

/-!
Model of the plots of paths that `auv_nav process` draws: /repo/src/auv_nav/plot/plot_process_data.py L66-107 (`make_data`, `make_frame`) and
L1298-1585 (`plot_2d_deadreckoning`).  Times are not before 1970, so that `int` rounds down; eastings and northings are numbers.
-/

namespace Oplab

/-- A position of a path. (plot_process_data.py L1357-1366) -/
structure PathPoint where
  time : ℚ
  east : ℚ
  north : ℚ
  deriving DecidableEq

/-- What is drawn: the arguments of `plot_2d_deadreckoning`; the interval is `none` if it is `False`; of a particle only the position is used,
its class (/repo/src/auv_nav/localisation/pf.py L45-75) has no `timestamps`. (plot_process_data.py L1298-1312) -/
structure PathInput where
  camera1 : List PathPoint
  camera1Ekf : List PathPoint
  drCentre : List PathPoint
  drDvl : List PathPoint
  pfCentre : List PathPoint
  ekfCentre : List PathPoint
  camera1Pf : List PathPoint
  pfDvl : List PathPoint
  interval : Option ℚ
  particles : List (List (ℚ × ℚ))
  usblAll : List PathPoint
  usbl : List PathPoint

/-- A path in a plot, drawn as eastings and northings. (plot_process_data.py L66-89) -/
structure PathTrace where
  name : String
  points : List (ℚ × ℚ)
  deriving DecidableEq

/-- plot_process_data.py L1357-1360: eastings and northings. -/
def trackOf (l : List PathPoint) : List (ℚ × ℚ) := l.map fun p => (p.east, p.north)

/-- plot_process_data.py L1318-1343: a list is drawn if it has more than one position. -/
def ifMany (name : String) (l : List PathPoint) : List (String × List PathPoint) := if 1 < l.length then [(name, l)] else []

/-- plot_process_data.py L1318-1343: the lists of the plot without the slider. -/
def staticLists (i : PathInput) : List (String × List PathPoint) :=
  ifMany "dr_camera1" i.camera1 ++ ifMany "ekf_camera1" i.camera1Ekf ++ ifMany "dr_centre" i.drCentre ++ ifMany "dr_dvl" i.drDvl ++
    ifMany "ekf_dvl" i.ekfCentre ++ ifMany "usbl_without_distance_filter" i.usblAll ++ ifMany "usbl" i.usbl

/-- plot_process_data.py L1318-1343: the lists of the plot with the slider. -/
def sliderLists (i : PathInput) : List (String × List PathPoint) :=
  ifMany "dr_camera1" i.camera1 ++ ifMany "ekf_camera1" i.camera1Ekf ++ ifMany "usbl" i.usbl

/-- plot_process_data.py L1405-1448: the particles. With an interval the times of the first particle are asked for, which it does not have;
if there is none, indexing fails. Without it the positions of each set are drawn, numbered from 1. -/
def particleTraces (interval : Option ℚ) (particles : List (List (ℚ × ℚ))) : Res (List PathTrace) :=
  match interval, particles with
  | some _, (_ :: _) :: _ => .error .attributeError
  | some _, _ => .error .indexError
  | none, ps => .ok ((List.range ps.length).map fun k => ⟨"PF_Resampling" ++ toString (k + 1), ps.getD k []⟩)

/-- plot_process_data.py L1376-1448: paths of the particle filter. -/
def pfTraces (i : PathInput) : Res (List PathTrace) :=
  if 1 < i.pfCentre.length then do
    let ps ← particleTraces i.interval i.particles
    .ok ([⟨"pf_camera1", trackOf i.camera1Pf⟩, ⟨"pf_centre", trackOf i.pfCentre⟩, ⟨"pf_dvl", trackOf i.pfDvl⟩] ++ ps)
  else .ok []

/-- plot_process_data.py L1354-1448: the figure auv_path.html. -/
def pathFigure (i : PathInput) : Res (List PathTrace) := do
  let pf ← pfTraces i
  .ok ((staticLists i).map (fun l => ⟨l.1, trackOf l.2⟩) ++ pf)

/-- plot_process_data.py L93-98: the last index whose time is not after the given one, looking from the front. -/
def frameIndex (t : ℚ) : Nat → Int → List ℚ → Int
  | _, k, [] => k
  | i, k, x :: l => if x ≤ t then frameIndex t (i + 1) i l else k

/-- plot_process_data.py L92-107 `make_frame`. -/
def makeFrame (name : String) (l : List PathPoint) (t : ℚ) : PathTrace :=
  ⟨name, (trackOf l).take (frameIndex t 0 (-1) (l.map (·.time)) + 1).toNat⟩

/-- plot_process_data.py L1482-1489: the earliest and the latest time of the lists; `none` stands for the infinities at the start. -/
def timeSpan : List PathPoint → Option (ℚ × ℚ)
  | [] => none
  | p :: l =>
    match timeSpan l with
    | none => some (p.time, p.time)
    | some (a, b) => some (min p.time a, max p.time b)

/-- `range(a, b, step)` for a step that is not negative (plot_process_data.py L1492-1494). -/
def intRange (a b step : Int) : Res (List Int) :=
  if step = 0 then .error .valueError
  else .ok ((List.range ((b - a + step - 1) / step).toNat).map fun (k : Nat) => a + k * step)

/-- plot_process_data.py L1480-1494: the times of the slider. The OverflowError for no lists is given as a ValueError. -/
def sliderTimes (i : PathInput) : Res (List Int) :=
  match timeSpan ((sliderLists i).flatMap (·.2)) with
  | none => .error .valueError
  | some (a, b) => intRange ⌊a⌋ ⌊b⌋ ⌊(b - a) / 40⌋

/-- plot_process_data.py L1497-1522: the frame of a time of the slider. -/
def pathFrame (i : PathInput) (t : Int) : List PathTrace :=
  (sliderLists i).map (fun l => makeFrame l.1 l.2 t) ++ if 1 < i.camera1Pf.length then [makeFrame "pf_camera1" i.camera1Pf t] else []

/-- The files: auv_path.html with its paths, and auv_path_slider.html with a frame for each time. (plot_process_data.py L1452-1457, L1578-1583) -/
structure PathFiles where
  path : Option (List PathTrace)
  slider : Option (List (Int × List PathTrace))

/-- plot_process_data.py L1298-1585 `plot_2d_deadreckoning`, which runs in a thread of its own: an error ends the thread, and what was
written before stays. -/
def plotPaths (i : PathInput) : PathFiles :=
  match pathFigure i with
  | .error _ => ⟨none, none⟩
  | .ok f =>
    match sliderTimes i with
    | .error _ => ⟨some f, none⟩
    | .ok ts => ⟨some f, some (ts.map fun t => (t, pathFrame i t))⟩

end Oplab
