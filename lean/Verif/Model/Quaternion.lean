import Verif.Model.SensorFrom
import Verif.Model.Calib

/-! # Angles of an orientation given as quaternion

`/repo/src/auv_nav/tools/transformations.py` as used by `Orientation.from_ros` (sensors.py L716-740): axes "sxyz". Numbers are exact reals. -/

namespace Oplab

/-- The four numbers of `msg.orientation` (sensors.py L725-730). -/
structure RosQuat where
  x : ℝ
  y : ℝ
  z : ℝ
  w : ℝ

/-- transformations.py L1566 `_EPS`: four times the distance from 1 to the next double. -/
noncomputable def quatEps : ℝ := (1 / 2) ^ 52 * 4

/-- The product of `q` with itself. (transformations.py L1200) -/
def RosQuat.sq (q : RosQuat) : ℝ := q.x * q.x + q.y * q.y + q.z * q.z + q.w * q.w

/-- transformations.py L1191-1227 `quaternion_matrix`: the rows of the upper left part. -/
noncomputable def quatMatrix (q : RosQuat) : V3 (V3 ℝ) :=
  if q.sq < quatEps then ⟨⟨1, 0, 0⟩, ⟨0, 1, 0⟩, ⟨0, 0, 1⟩⟩
  else
    let k := √(2 / q.sq)
    let x := q.x * k
    let y := q.y * k
    let z := q.z * k
    let w := q.w * k
    ⟨⟨1 - y * y - z * z, x * y - z * w, x * z + y * w⟩,
      ⟨x * y + z * w, 1 - x * x - z * z, y * z - x * w⟩,
      ⟨x * z - y * w, y * z + x * w, 1 - x * x - y * y⟩⟩

/-- transformations.py L1048-1103 `euler_from_matrix` for the axes "sxyz" (L1573: first axis 0, no parity, no repetition, static). -/
noncomputable def eulerFromMatrix (m : V3 (V3 ℝ)) : V3 ℝ :=
  let cy := √(m.x.x * m.x.x + m.y.x * m.y.x)
  if quatEps < cy then ⟨atan2 m.z.y m.z.z, atan2 (-m.z.x) cy, atan2 m.y.x m.x.x⟩
  else ⟨atan2 (-m.y.z) m.y.y, atan2 (-m.z.x) cy, 0⟩

/-- transformations.py L1106-1114 `euler_from_quaternion`. -/
noncomputable def eulerFromQuat (q : RosQuat) : V3 ℝ := eulerFromMatrix (quatMatrix q)

/-- sensors.py L724-740 for a message `sensor_msgs/Imu`: the quaternion, the three variances read, the time. -/
noncomputable def imuMsg (q : RosQuat) (variance : V3 ℝ) (stamp : ℝ) : OrientMsg := .imu (eulerFromQuat q) variance stamp

end Oplab
