import Verif.Model.Basic
import Mathlib.Algebra.Order.Ring.Rat

/-!
Model of the plots against time that `auv_nav process` draws: /repo/src/auv_nav/plot/plot_process_data.py L25-51 (`create_trace`), L139-243
(`plot_velocity_vs_time`), L637-998 (positions and orientations with their standard deviations), L1173-1295 (`plot_sensor_uncertainty`, the
part of the velocities of the vehicle over ground).  Each plot runs in a thread of its own and an error in it leaves no file.
-/

namespace Oplab

/-- A line of a plot and its place in the grid: row and column. (plot_process_data.py L25-51, L204-216) -/
structure TimeTrace where
  name : String
  xs : List ℚ
  ys : List ℚ
  row : Nat
  col : Nat
  deriving DecidableEq

/-- `[float(i) for i in y_list]`, where `float(None)` is a TypeError. (plot_process_data.py L41-42) -/
def allFloats : List (Option ℚ) → Res (List ℚ)
  | [] => .ok []
  | none :: _ => .error .typeError
  | some x :: l => do
    let r ← allFloats l
    .ok (x :: r)

/-- plot_process_data.py L25-51 `create_trace`, with the place where it is put. -/
def timeTrace (xs : List ℚ) (ys : List (Option ℚ)) (name : String) (row col : Nat) : Res TimeTrace := do
  let r ← allFloats ys
  .ok ⟨name, xs, r, row, col⟩

/-- A velocity over ground and its standard deviations. (plot_process_data.py L168-171, L1213-1216) -/
structure GroundVelocity where
  time : ℚ
  north : Option ℚ
  east : Option ℚ
  down : Option ℚ
  northStd : Option ℚ
  eastStd : Option ℚ
  downStd : Option ℚ

/-- A position by dead reckoning, with velocities. (plot_process_data.py L149-155) -/
structure ReckonedVelocity where
  time : ℚ
  north : ℚ
  east : ℚ
  down : ℚ
  x : ℚ
  y : ℚ
  z : ℚ

/-- plot_process_data.py L157-162: velocities of dead reckoning. -/
def dvlTrace (l : List ReckonedVelocity) (f : ReckonedVelocity → ℚ) (name : String) (row col : Nat) : TimeTrace :=
  ⟨name, l.map (·.time), l.map f, row, col⟩

/-- A list with one entry if the first value of a column is given. (plot_process_data.py L204-212) -/
def ifFirst (l : List GroundVelocity) (f : GroundVelocity → Option ℚ) (t : TimeTrace) : List TimeTrace :=
  match l with
  | [] => []
  | v :: _ => if (f v).isSome then [t] else []

/-- plot_process_data.py L164-190: a line is only made for a column if its first value is given. -/
def madeIfFirst (l : List GroundVelocity) (f : GroundVelocity → Option ℚ) (name : String) (row col : Nat) : Res (List TimeTrace) :=
  match l with
  | [] => .ok []
  | v :: _ =>
    if (f v).isSome then do
      let t ← timeTrace (l.map (·.time)) (l.map f) name row col
      .ok [t]
    else .ok []

/-- plot_process_data.py L164-190, L204-212: velocities over ground. The lines of the north and east velocity are made in any case. -/
def groundTraces (sensor : String) (l : List GroundVelocity) : Res (List TimeTrace) :=
  match l with
  | [] => .ok []
  | _ => do
    let n ← timeTrace (l.map (·.time)) (l.map (·.north)) (sensor ++ " north velocity") 1 1
    let e ← timeTrace (l.map (·.time)) (l.map (·.east)) (sensor ++ " east velocity") 2 1
    let d ← madeIfFirst l (·.down) (sensor ++ " down velocity") 3 1
    .ok (ifFirst l (·.north) n ++ ifFirst l (·.east) e ++ d)

/-- plot_process_data.py L139-243 `plot_velocity_vs_time`: the lines of velocity_vs_time.html. -/
def velocityPlot (sensor : String) (dvl : List ReckonedVelocity) (l : List GroundVelocity) : Res (List TimeTrace) := do
  let g ← groundTraces sensor l
  .ok ([dvlTrace dvl (·.north) "DVL north velocity" 1 1] ++ g ++
    [dvlTrace dvl (·.east) "DVL east velocity" 2 1, dvlTrace dvl (·.down) "DVL down velocity" 3 1, dvlTrace dvl (·.x) "DVL x velocity" 1 2,
      dvlTrace dvl (·.y) "DVL y velocity" 2 2, dvlTrace dvl (·.z) "DVL z velocity" 3 2])

/-- plot_process_data.py L1213-1216, L1234-1246, L1269-1275: standard deviations of velocities over ground. -/
def groundStdTraces (l : List GroundVelocity) : Res (List TimeTrace) := do
  let n ← madeIfFirst l (·.northStd) "north velocity std inertial" 2 2
  let e ← madeIfFirst l (·.eastStd) "east velocity std inertial" 2 2
  let d ← madeIfFirst l (·.downStd) "down velocity std inertial" 2 2
  .ok (n ++ e ++ d)

/-- Sums of two lists. (plot_process_data.py L666-671) -/
def plusSigma (a b : List ℚ) : List ℚ := List.zipWith (· + ·) a b

/-- Differences of two lists. (plot_process_data.py L666-671) -/
def minusSigma (a b : List ℚ) : List ℚ := List.zipWith (· - ·) a b

/-- Times, positions and their standard deviations. (plot_process_data.py L637-652) -/
structure BandInput where
  times : List ℚ
  a : List ℚ
  b : List ℚ
  c : List ℚ
  aStd : List ℚ
  bStd : List ℚ
  cStd : List ℚ

/-- plot_process_data.py L637-816 `plot_position_with_std_vs_time` without second lines: `a`, `b`, `c` are northings, eastings and depths. The bounds of
eastings are named the wrong way round twice. -/
def positionPlot (i : BandInput) : Res (List TimeTrace) :=
  if ¬ (i.times.length = i.a.length ∧ i.a.length = i.b.length ∧ i.b.length = i.c.length) then .error .assertion
  else if ¬ (i.times.length = i.aStd.length ∧ i.aStd.length = i.bStd.length ∧ i.bStd.length = i.cStd.length) then .error .assertion
  else
    let eastingsPlus := minusSigma i.b i.bStd
    let eastingsMinus := plusSigma i.b i.bStd
    .ok [⟨"northings (m)", i.times, i.a, 1, 1⟩, ⟨"northing+sigma", i.times, plusSigma i.a i.aStd, 1, 1⟩,
      ⟨"northing-sigma", i.times, minusSigma i.a i.aStd, 1, 1⟩, ⟨"northings std ekf (m)", i.times, i.aStd, 2, 1⟩,
      ⟨"eastings (m)", i.times, i.b, 1, 2⟩, ⟨"easting+sigma", i.times, eastingsMinus, 1, 2⟩, ⟨"easting-sigma", i.times, eastingsPlus, 1, 2⟩,
      ⟨"eastings std ekf (m)", i.times, i.bStd, 2, 2⟩,
      ⟨"depth (m)", i.times, i.c, 1, 3⟩, ⟨"depth+sigma", i.times, plusSigma i.c i.cStd, 1, 3⟩,
      ⟨"depth-sigma", i.times, minusSigma i.c i.cStd, 1, 3⟩, ⟨"depths std ekf (m)", i.times, i.cStd, 2, 3⟩]

/-- plot_process_data.py L819-998 `plot_orientation_with_std_vs_time` without second lines: `a`, `b`, `c` are roll, pitch and yaw. The number of
yaws is not checked. -/
def orientationPlot (i : BandInput) : Res (List TimeTrace) :=
  if ¬ (i.times.length = i.a.length ∧ i.a.length = i.b.length) then .error .assertion
  else if ¬ (i.times.length = i.aStd.length ∧ i.aStd.length = i.bStd.length ∧ i.bStd.length = i.cStd.length) then .error .assertion
  else
    .ok [⟨"roll [deg]", i.times, i.a, 1, 1⟩, ⟨"roll+sigma", i.times, plusSigma i.a i.aStd, 1, 1⟩,
      ⟨"roll+sigma", i.times, minusSigma i.a i.aStd, 1, 1⟩, ⟨"roll std ekf [deg]", i.times, i.aStd, 2, 1⟩,
      ⟨"pitch [deg]", i.times, i.b, 1, 2⟩, ⟨"pitch+sigma", i.times, plusSigma i.b i.bStd, 1, 2⟩,
      ⟨"pitch+sigma", i.times, minusSigma i.b i.bStd, 1, 2⟩, ⟨"pitch std ekf [deg]", i.times, i.bStd, 2, 2⟩,
      ⟨"yaw [deg]", i.times, i.c, 1, 3⟩, ⟨"yaw+sigma", i.times, plusSigma i.c i.cStd, 1, 3⟩,
      ⟨"yaw+sigma", i.times, minusSigma i.c i.cStd, 1, 3⟩, ⟨"yaw std ekf [deg]", i.times, i.cStd, 2, 3⟩]

end Oplab
