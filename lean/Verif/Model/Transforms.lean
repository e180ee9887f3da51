import Verif.Model.Quaternion

/-! # Rotations and quaternions

The parts of `/repo/src/auv_nav/tools/transformations.py` about rotations: matrices of angles about named axes, quaternions, and rotations about
an axis. Line numbers refer to that file. Numbers are exact reals; of matrices only the upper left part is given, by its rows (the rest is
that of the identity). -/

namespace Oplab

/-- An entry of `_AXES2TUPLE` (transformations.py L1571): inner axis, parity, repetition, frame. -/
structure AxisSeq where
  first : Nat
  parity : Bool
  repetition : Bool
  frame : Bool
  deriving DecidableEq

/-- transformations.py L1571-1597 `_AXES2TUPLE`. -/
def axesTable : List (List Char × AxisSeq) :=
  [(['s', 'x', 'y', 'z'], ⟨0, false, false, false⟩), (['s', 'x', 'y', 'x'], ⟨0, false, true, false⟩),
   (['s', 'x', 'z', 'y'], ⟨0, true, false, false⟩), (['s', 'x', 'z', 'x'], ⟨0, true, true, false⟩),
   (['s', 'y', 'z', 'x'], ⟨1, false, false, false⟩), (['s', 'y', 'z', 'y'], ⟨1, false, true, false⟩),
   (['s', 'y', 'x', 'z'], ⟨1, true, false, false⟩), (['s', 'y', 'x', 'y'], ⟨1, true, true, false⟩),
   (['s', 'z', 'x', 'y'], ⟨2, false, false, false⟩), (['s', 'z', 'x', 'z'], ⟨2, false, true, false⟩),
   (['s', 'z', 'y', 'x'], ⟨2, true, false, false⟩), (['s', 'z', 'y', 'z'], ⟨2, true, true, false⟩),
   (['r', 'z', 'y', 'x'], ⟨0, false, false, true⟩), (['r', 'x', 'y', 'x'], ⟨0, false, true, true⟩),
   (['r', 'y', 'z', 'x'], ⟨0, true, false, true⟩), (['r', 'x', 'z', 'x'], ⟨0, true, true, true⟩),
   (['r', 'x', 'z', 'y'], ⟨1, false, false, true⟩), (['r', 'y', 'z', 'y'], ⟨1, false, true, true⟩),
   (['r', 'z', 'x', 'y'], ⟨1, true, false, true⟩), (['r', 'y', 'x', 'y'], ⟨1, true, true, true⟩),
   (['r', 'y', 'x', 'z'], ⟨2, false, false, true⟩), (['r', 'z', 'x', 'z'], ⟨2, false, true, true⟩),
   (['r', 'x', 'y', 'z'], ⟨2, true, false, true⟩), (['r', 'z', 'y', 'z'], ⟨2, true, true, true⟩)]

/-- transformations.py L1004-1008: the entry of a name, or a `KeyError` (of `_TUPLE2AXES`). -/
def axesOf (axes : List Char) : Res AxisSeq :=
  match axesTable.lookup axes with
  | some t => .ok t
  | none => .error .keyError

/-- transformations.py L1568 `_NEXT_AXIS`. -/
def nextAxis (n : Nat) : Nat := [1, 2, 0, 1].getD n 0

/-- transformations.py L1011, L1076, L1136: the second axis. -/
def AxisSeq.second (t : AxisSeq) : Nat := nextAxis (t.first + if t.parity then 1 else 0)

/-- transformations.py L1012: the third axis. -/
def AxisSeq.third (t : AxisSeq) : Nat := nextAxis (t.first + 1 - if t.parity then 1 else 0)

/-- An array of three numbers written by index (transformations.py L1026-1045): `x` at `i`, `y` at `j`, and `z` at the third place. -/
def put3 {A : Type} (i j : Nat) (x y z : A) : V3 A :=
  let f : Nat → A := fun n => if n = i then x else if n = j then y else z
  ⟨f 0, f 1, f 2⟩

/-- transformations.py L1014-1046 of `euler_matrix`. -/
noncomputable def eulerMatrixOf (t : AxisSeq) (ai aj ak : ℝ) : V3 (V3 ℝ) :=
  let i := t.first
  let j := t.second
  let b := if t.frame then ak else ai
  let d := if t.frame then ai else ak
  let ai := if t.parity then -b else b
  let aj := if t.parity then -aj else aj
  let ak := if t.parity then -d else d
  let si := Real.sin ai
  let sj := Real.sin aj
  let sk := Real.sin ak
  let ci := Real.cos ai
  let cj := Real.cos aj
  let ck := Real.cos ak
  let cc := ci * ck
  let cs := ci * sk
  let sc := si * ck
  let ss := si * sk
  if t.repetition then
    put3 i j (put3 i j cj (sj * si) (sj * ci)) (put3 i j (sj * sk) (-cj * ss + cc) (-cj * cs - sc))
      (put3 i j (-sj * ck) (cj * sc + cs) (cj * cc - ss))
  else
    put3 i j (put3 i j (cj * ck) (sj * sc - cs) (sj * cc + ss)) (put3 i j (cj * sk) (sj * ss + cc) (sj * cs - sc))
      (put3 i j (-sj) (cj * si) (cj * ci))

/-- transformations.py L985-1046 `euler_matrix`: the name is taken as it is. -/
noncomputable def eulerMatrix (axes : List Char) (ai aj ak : ℝ) : Res (V3 (V3 ℝ)) := do
  let t ← axesOf axes
  .ok (eulerMatrixOf t ai aj ak)

/-- transformations.py L1140-1171 of `quaternion_from_euler`. -/
noncomputable def quaternionOf (t : AxisSeq) (ai aj ak : ℝ) : RosQuat :=
  let i := t.first
  let j := t.second
  let b := if t.frame then ak else ai
  let d := if t.frame then ai else ak
  let aj := if t.parity then -aj else aj
  let ci := Real.cos (b / 2)
  let si := Real.sin (b / 2)
  let cj := Real.cos (aj / 2)
  let sj := Real.sin (aj / 2)
  let ck := Real.cos (d / 2)
  let sk := Real.sin (d / 2)
  let cc := ci * ck
  let cs := ci * sk
  let sc := si * ck
  let ss := si * sk
  let qj := if t.repetition then sj * (cc + ss) else cj * ss + sj * cc
  let p := put3 i j (if t.repetition then cj * (cs + sc) else cj * sc - sj * cs) (if t.parity then -qj else qj)
    (if t.repetition then sj * (cs - sc) else cj * cs - sj * sc)
  ⟨p.x, p.y, p.z, if t.repetition then cj * (cc - ss) else cj * cc + sj * ss⟩

/-- transformations.py L1117-1171 `quaternion_from_euler`: the name is taken in lower case (L1129). -/
noncomputable def quaternionFromEuler (axes : List Char) (ai aj ak : ℝ) : Res RosQuat := do
  let t ← axesOf (axes.map Char.toLower)
  .ok (quaternionOf t ai aj ak)

/-- transformations.py L1263-1281 `quaternion_multiply`. -/
def quatMul (q1 q0 : RosQuat) : RosQuat :=
  ⟨q1.x * q0.w + q1.y * q0.z - q1.z * q0.y + q1.w * q0.x,
    -q1.x * q0.z + q1.y * q0.w + q1.z * q0.x + q1.w * q0.y,
    q1.x * q0.y - q1.y * q0.x + q1.z * q0.w + q1.w * q0.z,
    -q1.x * q0.x - q1.y * q0.y - q1.z * q0.z + q1.w * q0.w⟩

/-- transformations.py L1284-1296 `quaternion_conjugate`. -/
def quatConj (q : RosQuat) : RosQuat := ⟨-q.x, -q.y, -q.z, q.w⟩

/-- transformations.py L1299-1308 `quaternion_inverse`. -/
noncomputable def quatInv (q : RosQuat) : RosQuat :=
  ⟨(quatConj q).x / q.sq, (quatConj q).y / q.sq, (quatConj q).z / q.sq, (quatConj q).w / q.sq⟩

/-- transformations.py L1604-1640 `vector_norm` of three numbers. -/
noncomputable def vecNorm (v : V3 ℝ) : ℝ := √(v.x * v.x + v.y * v.y + v.z * v.z)

/-- transformations.py L1643-1684 `unit_vector` of three numbers. -/
noncomputable def unitVec (v : V3 ℝ) : V3 ℝ := ⟨v.x / vecNorm v, v.y / vecNorm v, v.z / vecNorm v⟩

/-- transformations.py L1174-1188 `quaternion_about_axis`. -/
noncomputable def quatAboutAxis (angle : ℝ) (axis : V3 ℝ) : RosQuat :=
  if quatEps < vecNorm axis then
    ⟨axis.x * (Real.sin (angle / 2) / vecNorm axis), axis.y * (Real.sin (angle / 2) / vecNorm axis),
      axis.z * (Real.sin (angle / 2) / vecNorm axis), Real.cos (angle / 2)⟩
  else ⟨axis.x, axis.y, axis.z, Real.cos (angle / 2)⟩

/-- transformations.py L299-316 of `rotation_matrix`. -/
noncomputable def axisMatrix (angle : ℝ) (direction : V3 ℝ) : V3 (V3 ℝ) :=
  let s := Real.sin angle
  let c := Real.cos angle
  let d := unitVec direction
  ⟨⟨c + d.x * d.x * (1 - c), d.x * d.y * (1 - c) + -(d.z * s), d.x * d.z * (1 - c) + d.y * s⟩,
    ⟨d.y * d.x * (1 - c) + d.z * s, c + d.y * d.y * (1 - c), d.y * d.z * (1 - c) + -(d.x * s)⟩,
    ⟨d.z * d.x * (1 - c) + -(d.y * s), d.z * d.y * (1 - c) + d.x * s, c + d.z * d.z * (1 - c)⟩⟩

/-- The product of a matrix and a vector. (transformations.py L320 `numpy.dot`) -/
def matVec (m : V3 (V3 ℝ)) (v : V3 ℝ) : V3 ℝ :=
  ⟨m.x.x * v.x + m.x.y * v.y + m.x.z * v.z, m.y.x * v.x + m.y.y * v.y + m.y.z * v.z, m.z.x * v.x + m.z.y * v.y + m.z.z * v.z⟩

/-- transformations.py L275-321 `rotation_matrix`, as what the matrix does with a point: the upper left part, then the last column. -/
noncomputable def rotationMatrix (angle : ℝ) (direction : V3 ℝ) (point : Option (V3 ℝ)) (v : V3 ℝ) : V3 ℝ :=
  let r := matVec (axisMatrix angle direction)
  match point with
  | none => r v
  | some p => ⟨(r v).x + (p.x - (r p).x), (r v).y + (p.y - (r p).y), (r v).z + (p.z - (r p).z)⟩

/-- transformations.py L220-243 `reflection_matrix`, as what the matrix does with a point. -/
noncomputable def reflectionMatrix (point normal v : V3 ℝ) : V3 ℝ :=
  let n := unitVec normal
  let d := 2 * (point.x * n.x + point.y * n.y + point.z * n.z)
  ⟨(1 - 2 * (n.x * n.x)) * v.x + -(2 * (n.x * n.y)) * v.y + -(2 * (n.x * n.z)) * v.z + d * n.x,
    -(2 * (n.y * n.x)) * v.x + (1 - 2 * (n.y * n.y)) * v.y + -(2 * (n.y * n.z)) * v.z + d * n.y,
    -(2 * (n.z * n.x)) * v.x + -(2 * (n.z * n.y)) * v.y + (1 - 2 * (n.z * n.z)) * v.z + d * n.z⟩

/-- The product of two quaternions as vectors. (transformations.py L1332 `numpy.dot`) -/
def quatDot (p q : RosQuat) : ℝ := p.x * q.x + p.y * q.y + p.z * q.z + p.w * q.w

/-- A quaternion times a number. (transformations.py L1337, L1342-1343) -/
def quatScale (k : ℝ) (q : RosQuat) : RosQuat := ⟨k * q.x, k * q.y, k * q.z, k * q.w⟩

/-- transformations.py L1643-1684 `unit_vector` of four numbers (numpy gives nan for zero, which is not modelled). -/
noncomputable def unitQuat (q : RosQuat) : RosQuat := quatScale (1 / √q.sq) q

/-- transformations.py L1311-1346 `quaternion_slerp`. -/
noncomputable def quatSlerp (quat0 quat1 : RosQuat) (fraction : ℝ) (spin : ℤ) (shortest : Bool) : RosQuat :=
  let q0 := unitQuat quat0
  let q1 := unitQuat quat1
  if fraction = 0 then q0
  else if fraction = 1 then q1
  else
    let d := quatDot q0 q1
    if |(|d|) - 1| < quatEps then q0
    else
      let flip := shortest = true ∧ d < 0
      let d' := if flip then -d else d
      let q1' := if flip then quatScale (-1) q1 else q1
      let angle := Real.arccos d' + spin * Real.pi
      if |angle| < quatEps then q0
      else
        let a := quatScale (Real.sin ((1 - fraction) * angle) * (1 / Real.sin angle)) q0
        let b := quatScale (Real.sin (fraction * angle) * (1 / Real.sin angle)) q1'
        ⟨a.x + b.x, a.y + b.y, a.z + b.z, a.w + b.w⟩

/-- An element of an array of three, by index. (transformations.py L1082-1097) -/
def get3 {A : Type} (v : V3 A) (n : Nat) : A := if n = 0 then v.x else if n = 1 then v.y else v.z

/-- transformations.py L1079-1103 of `euler_from_matrix`. -/
noncomputable def eulerAnglesOf (t : AxisSeq) (m : V3 (V3 ℝ)) : V3 ℝ :=
  let i := t.first
  let j := t.second
  let k := t.third
  let g := fun a b => get3 (get3 m a) b
  let a : V3 ℝ :=
    if t.repetition then
      let sy := √(g i j * g i j + g i k * g i k)
      if quatEps < sy then ⟨atan2 (g i j) (g i k), atan2 sy (g i i), atan2 (g j i) (-(g k i))⟩
      else ⟨atan2 (-(g j k)) (g j j), atan2 sy (g i i), 0⟩
    else
      let cy := √(g i i * g i i + g j i * g j i)
      if quatEps < cy then ⟨atan2 (g k j) (g k k), atan2 (-(g k i)) cy, atan2 (g j i) (g i i)⟩
      else ⟨atan2 (-(g j k)) (g j j), atan2 (-(g k i)) cy, 0⟩
  let a : V3 ℝ := if t.parity then ⟨-a.x, -a.y, -a.z⟩ else a
  if t.frame then ⟨a.z, a.y, a.x⟩ else a

/-- transformations.py L1048-1103 `euler_from_matrix`: the name is taken in lower case (L1069). -/
noncomputable def eulerAnglesFrom (axes : List Char) (m : V3 (V3 ℝ)) : Res (V3 ℝ) := do
  let t ← axesOf (axes.map Char.toLower)
  .ok (eulerAnglesOf t m)

/-- transformations.py L1231-1260 `quaternion_from_matrix` of a rotation (the element at the lower right is 1). -/
noncomputable def quatFromMatrix (m : V3 (V3 ℝ)) : RosQuat :=
  let t := m.x.x + m.y.y + m.z.z + 1
  if 1 < t then
    quatScale (1 / 2 / √(t * 1)) ⟨m.z.y - m.y.z, m.x.z - m.z.x, m.y.x - m.x.y, t⟩
  else
    let i := if m.x.x < m.y.y then 1 else 0
    let i := if get3 (get3 m i) i < m.z.z then 2 else i
    let j := nextAxis i
    let k := nextAxis (i + 1)
    let g := fun a b => get3 (get3 m a) b
    let t := g i i - (g j j + g k k) + 1
    let p := put3 i j t (g i j + g j i) (g k i + g i k)
    quatScale (1 / 2 / √(t * 1)) ⟨p.x, p.y, p.z, g k j - g j k⟩

end Oplab
