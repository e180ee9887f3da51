import Verif.Model.Ekf

/-!
Model of the plots of the filters that `auv_nav process` draws (/repo/src/auv_nav/plot/plot_process_data.py L377-413 `plot_pf_uncertainty`, L417-490
`plot_ekf_states_and_std_vs_time`, L1001-1137 `plot_velocity_with_std_vs_time`, L1140-1170 `plot_ekf_rejected_measurements`), as far as which values
are drawn.  Positions and orientations are drawn from the columns below as in `Model/TimePlots`.  Colours, titles and the texts of points are left out.
-/

namespace Oplab

open Real Ix

/-- /repo/src/auv_nav/localisation/ekf.py L127-134 and L153-160: the standard deviation of an entry of the state. -/
noncomputable def plotStd (s : EState) (i : Ix) : ℝ := sqrt (max 0 (s.cov i i))

/-- ekf.py L136-151: the standard deviation of an angle in degrees. -/
noncomputable def plotStdDeg (s : EState) (i : Ix) : ℝ := 180 / π * sqrt (max 0 (s.cov i i))

/-- What is given to a plot of three values with their standard deviations. (plot_process_data.py L637-645, L1001-1010) -/
structure FilterColumns where
  times : List ℝ
  a : List ℝ
  b : List ℝ
  c : List ℝ
  aStd : List ℝ
  bStd : List ℝ
  cStd : List ℝ

/-- plot_process_data.py L422-428, L445-457: the columns of the plot of positions. -/
noncomputable def positionColumns (l : List EState) : FilterColumns :=
  ⟨l.map (·.time), l.map (·.state X), l.map (·.state Y), l.map (·.state Z), l.map (plotStd · X), l.map (plotStd · Y), l.map (plotStd · Z)⟩

/-- plot_process_data.py L430-435, L459-471: the columns of the plot of orientations, in degrees. -/
noncomputable def orientationColumns (l : List EState) : FilterColumns :=
  ⟨l.map (·.time), l.map (180 / π * ·.state ROLL), l.map (180 / π * ·.state PITCH), l.map (180 / π * ·.state YAW),
    l.map (plotStdDeg · ROLL), l.map (plotStdDeg · PITCH), l.map (plotStdDeg · YAW)⟩

/-- plot_process_data.py L437-442, L473-485: the columns of the plot of velocities. -/
noncomputable def speedColumns (l : List EState) : FilterColumns :=
  ⟨l.map (·.time), l.map (·.state VX), l.map (·.state VY), l.map (·.state VZ), l.map (plotStd · VX), l.map (plotStd · VY), l.map (plotStd · VZ)⟩

/-- A line of a plot and its place in the grid. (plot_process_data.py L25-51, L1090-1101) -/
structure FilterTrace where
  name : String
  xs : List ℝ
  ys : List ℝ
  row : Nat
  col : Nat

/-- plot_process_data.py L1001-1137 `plot_velocity_with_std_vs_time`. -/
def speedPlot (i : FilterColumns) : List FilterTrace :=
  [⟨"surge speeds (m/s)", i.times, i.a, 1, 1⟩, ⟨"surge_speed+sigma", i.times, List.zipWith (· + ·) i.a i.aStd, 1, 1⟩,
    ⟨"surge_speed-sigma", i.times, List.zipWith (· - ·) i.a i.aStd, 1, 1⟩, ⟨"surge_speeds_std (m/s)", i.times, i.aStd, 2, 1⟩,
    ⟨"sway speeds (m/s)", i.times, i.b, 1, 2⟩, ⟨"sway_speed+sigma", i.times, List.zipWith (· + ·) i.b i.bStd, 1, 2⟩,
    ⟨"sway_speed-sigma", i.times, List.zipWith (· - ·) i.b i.bStd, 1, 2⟩, ⟨"sway_speeds_std (m/s)", i.times, i.bStd, 2, 2⟩,
    ⟨"vertical speeds (m/s)", i.times, i.c, 1, 3⟩, ⟨"down_speed+sigma", i.times, List.zipWith (· + ·) i.c i.cStd, 1, 3⟩,
    ⟨"down_speed-sigma", i.times, List.zipWith (· - ·) i.c i.cStd, 1, 3⟩, ⟨"down_speeds_std (m/s)", i.times, i.cStd, 2, 3⟩]

/-- plot_process_data.py L1140-1156: the points of the plot of rejected measurements: a time and the kind of sensor. `keys` are the keys of the
dictionary in their order. -/
def rejectedPlot (keys : List String) (rejected : String → Option (List ℝ)) : List (String × List (ℝ × String)) :=
  keys.map fun k => (k, ((rejected k).getD []).map fun t => (t, k))

/-- The lines of the plot of the uncertainty of the particle filter. /repo/src/auv_nav/localisation/pf.py L545-548 returns empty lists of standard
deviations. (plot_process_data.py L377-397) -/
def pfUncertaintyPlot (times : List ℝ) : List FilterTrace :=
  [⟨"northings_std (m)", times, [], 1, 1⟩, ⟨"eastings_std (m)", times, [], 1, 1⟩, ⟨"yaw_std (deg)", times, [], 1, 1⟩]

end Oplab
