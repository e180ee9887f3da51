import Verif.Model.Rotation
import Mathlib.LinearAlgebra.Matrix.NonsingularInverse
import Mathlib.Algebra.Order.Floor.Ring
import Mathlib.Algebra.Order.Archimedean.Basic
import Mathlib.Data.List.MinMax
import Mathlib.Analysis.SpecialFunctions.Complex.Arg

/-!
# Extended Kalman filter

Models /repo/src/auv_nav/localisation/ekf.py.  Real numbers replace floats; a NaN entry of
a measurement is `none`.  Measurement objects carry numbers in every field the filter reads
(comparing or squaring `None` would raise `TypeError`; process.py L1557-1566 removes depths
without a value).  Console output is left out.
-/

namespace Oplab
open Real Matrix

/-- State indices, ekf.py L23-36 `Index`. -/
abbrev Ix := Fin 12
namespace Ix
abbrev X : Ix := 0
abbrev Y : Ix := 1
abbrev Z : Ix := 2
abbrev ROLL : Ix := 3
abbrev PITCH : Ix := 4
abbrev YAW : Ix := 5
abbrev VX : Ix := 6
abbrev VY : Ix := 7
abbrev VZ : Ix := 8
abbrev VROLL : Ix := 9
abbrev VPITCH : Ix := 10
abbrev VYAW : Ix := 11
end Ix

/-- The 12-dimensional state vector. -/
abbrev KVec := Ix → ℝ
/-- A 12 by 12 matrix. -/
abbrev KMat := Matrix Ix Ix ℝ

/-- A sequence of numpy item assignments `M[i, j] = v`. (ekf.py L667-782) -/
def assign (M : KMat) (l : List (Ix × Ix × ℝ)) : KMat :=
  l.foldl (fun M e => fun i j => if i = e.1 ∧ j = e.2.1 then e.2.2 else M i j) M

open Ix

/-- ekf.py L667-698 `compute_transfer_function`, away from `cos pitch = 0`
(`1.0 / cp` raises there, see `predict`). -/
noncomputable def transferFunction (delta : ℝ) (s : KVec) : KMat :=
  let cr := cos (s ROLL)
  let sr := sin (s ROLL)
  let cp := cos (s PITCH)
  let sp := sin (s PITCH)
  let cy := cos (s YAW)
  let sy := sin (s YAW)
  let cpi := 1 / cp
  let tp := sp * cpi
  assign 1 [
    (X, VX, cy * cp * delta),
    (X, VY, (cy * sp * sr - sy * cr) * delta),
    (X, VZ, (cy * sp * cr + sy * sr) * delta),
    (Y, VX, sy * cp * delta),
    (Y, VY, (sy * sp * sr + cy * cr) * delta),
    (Y, VZ, (sy * sp * cr - cy * sr) * delta),
    (Z, VX, -sp * delta),
    (Z, VY, cp * sr * delta),
    (Z, VZ, cp * cr * delta),
    (ROLL, VROLL, delta),
    (ROLL, VPITCH, sr * tp * delta),
    (ROLL, VYAW, cr * tp * delta),
    (PITCH, VPITCH, cr * delta),
    (PITCH, VYAW, -sr * delta),
    (YAW, VPITCH, sr * cpi * delta),
    (YAW, VYAW, cr * cpi * delta)]

/-- ekf.py L700-782 `compute_transfer_function_jacobian`. -/
noncomputable def transferJacobian (delta : ℝ) (s : KVec) (f : KMat) : KMat :=
  let vx := s VX
  let vy := s VY
  let vz := s VZ
  let vpitch := s VPITCH
  let vyaw := s VYAW
  let cr := cos (s ROLL)
  let sr := sin (s ROLL)
  let cp := cos (s PITCH)
  let sp := sin (s PITCH)
  let cy := cos (s YAW)
  let sy := sin (s YAW)
  let cpi := 1 / cp
  let tp := sp * cpi
  let dFx_dR := ((cy * sp * cr + sy * sr) * vy + (-cy * sp * sr + sy * cr) * vz) * delta
  let dFR_dR := 1 + (cr * tp * vpitch - sr * tp * vyaw) * delta
  let dFx_dP := (-cy * sp * vx + cy * cp * sr * vy + cy * cp * cr * vz) * delta
  let dFR_dP := (cpi * cpi * sr * vpitch + cpi * cpi * cr * vyaw) * delta
  let dFx_dY := (-sy * cp * vx + (-sy * sp * sr - cy * cr) * vy
      + (-sy * sp * cr + cy * sr) * vz) * delta
  let dFy_dR := ((sy * sp * cr - cy * sr) * vy + (-sy * sp * sr - cy * cr) * vz) * delta
  let dFP_dR := (-sr * vpitch - cr * vyaw) * delta
  let dFy_dP := (-sy * sp * vx + sy * cp * sr * vy + sy * cp * cr * vz) * delta
  let dFy_dY := (cy * cp * vx + (cy * sp * sr - sy * cr) * vy
      + (cy * sp * cr + sy * sr) * vz) * delta
  let dFz_dR := (cp * cr * vy + -cp * sr * vz) * delta
  let dFY_dR := (cr * cpi * vpitch - sr * cpi * vyaw) * delta
  let dFz_dP := (-cp * vx + -sp * sr * vy + -sp * cr * vz) * delta
  let dFY_dP := (sr * tp * cpi * vpitch + cr * tp * cpi * vyaw) * delta
  assign f [
    (X, ROLL, dFx_dR),
    (X, PITCH, dFx_dP),
    (X, YAW, dFx_dY),
    (Y, ROLL, dFy_dR),
    (Y, PITCH, dFy_dP),
    (Y, YAW, dFy_dY),
    (Z, ROLL, dFz_dR),
    (Z, PITCH, dFz_dP),
    (ROLL, ROLL, dFR_dR),
    (ROLL, PITCH, dFR_dP),
    (PITCH, ROLL, dFP_dR),
    (YAW, ROLL, dFY_dR),
    (YAW, PITCH, dFY_dP)]

/-! ### Angle wrapping -/

/-- `while r > pi: r -= 2 * pi` (ekf.py L460-461 and L599-600). -/
noncomputable def wrapDown (r : ℝ) : ℝ :=
  if π < r then wrapDown (r - 2 * π) else r
termination_by ⌈(r + π) / (2 * π)⌉₊
decreasing_by
  have h : (r - 2 * π + π) / (2 * π) = (r + π) / (2 * π) - 1 := by
    field_simp [pi_pos.ne']; ring
  have h1 : 1 ≤ (r + π) / (2 * π) := by
    rw [le_div_iff₀ (by positivity)]; linarith
  have h2 : 0 < ⌈(r + π) / (2 * π)⌉₊ := Nat.ceil_pos.mpr (by linarith)
  rw [h, Nat.ceil_sub_one]
  omega

/-- `while r < -pi: r += 2 * pi` (ekf.py L462-463 and L597-598). -/
noncomputable def wrapUp (r : ℝ) : ℝ :=
  if r < -π then wrapUp (r + 2 * π) else r
termination_by ⌈(π - r) / (2 * π)⌉₊
decreasing_by
  have h : (π - (r + 2 * π)) / (2 * π) = (π - r) / (2 * π) - 1 := by
    field_simp [pi_pos.ne']; ring
  have h1 : 1 ≤ (π - r) / (2 * π) := by
    rw [le_div_iff₀ (by positivity)]; linarith
  have h2 : 0 < ⌈(π - r) / (2 * π)⌉₊ := Nat.ceil_pos.mpr (by linarith)
  rw [h, Nat.ceil_sub_one]
  omega

/-- ekf.py L444-464 `clamp_rotation`. -/
noncomputable def clampRotation (r : ℝ) : ℝ := wrapUp (wrapDown r)

/-- ekf.py L439-442 `wrap_state_angles`. -/
noncomputable def wrapState (s : KVec) : KVec := fun i =>
  if i = ROLL ∨ i = PITCH ∨ i = YAW then clampRotation (s i) else s i

/-- ekf.py L594-600: wrapping of one entry of the innovation (upwards first). -/
noncomputable def wrapInnovation (idx : Ix) (v : ℝ) : ℝ :=
  if idx = ROLL ∨ idx = PITCH ∨ idx = YAW then wrapDown (wrapUp v) else v

/-! ### Filter state -/

/-- ekf.py L55-70 `EkfState`. -/
structure EState where
  time : ℝ
  state : KVec
  cov : KMat

/-- ekf.py L39-52 `MeasurementReport`. -/
structure MReport where
  valid : Nat := 0
  dropped : Nat := 0
  total : Nat := 0
  deriving DecidableEq

/-- ekf.py L47-52 `MeasurementReport.add`. -/
def MReport.add (r : MReport) (valid : Bool) : MReport :=
  let r := if valid then { r with valid := r.valid + 1 } else { r with dropped := r.dropped + 1 }
  { r with total := r.valid + r.dropped }

/-- ekf.py L188-210 `Measurement`; `upd` is `update_vector[i] == 1`. -/
structure KMeas where
  value : Ix → Option ℝ
  cov : KMat
  upd : Ix → Bool
  time : ℝ
  type : String

/-- ekf.py L370-400 `EkfImpl`.  Dictionaries are functions to `Option`. -/
structure Ekf where
  state : KVec
  cov : KMat
  lastT : ℝ
  thr : ℝ
  Q : KMat
  nExceeded : Nat
  hist : List EState
  reports : String → Option MReport
  rejected : String → Option (List ℝ)

/-- ekf.py L386-411 `__init__`, `set_initial_state`, and the two setters called at L886-891. -/
def Ekf.init (t : ℝ) (s : KVec) (P Q : KMat) (thr : ℝ) : Ekf :=
  { state := s, cov := P, lastT := t, thr := thr, Q := Q, nExceeded := 0,
    hist := [⟨t, s, P⟩], reports := fun _ => none, rejected := fun _ => none }

open Classical in
/-- ekf.py L504-526 `predict` (always called with `save_state=True`).  `1.0 / cp` raises
`ZeroDivisionError` when the cosine of the pitch is zero. -/
noncomputable def Ekf.predict (e : Ekf) (timestamp delta : ℝ) : Res Ekf :=
  if cos (e.state PITCH) = 0 then .error .zeroDivision
  else
    let f := transferFunction delta e.state
    let A := transferJacobian delta e.state f
    let s := wrapState (f *ᵥ e.state)
    let P := A * e.cov * Aᵀ + |delta| • e.Q
    .ok { e with state := s, cov := P, lastT := timestamp,
                 hist := e.hist ++ [⟨timestamp, s, P⟩] }

/-- ekf.py L530-535: indices of the measured, non-NaN entries, in increasing order. -/
def KMeas.indices (m : KMeas) : List Ix :=
  (List.finRange 12).filter (fun i => m.upd i && (m.value i).isSome)

/-- ekf.py L546-567: measurement covariance restricted to the measured entries; a negative
variance is replaced by its absolute value and a tiny one by 1e-9. -/
noncomputable def KMeas.R (m : KMeas) : Matrix (Fin m.indices.length) (Fin m.indices.length) ℝ :=
  fun i j =>
    let c := m.cov (m.indices.get i) (m.indices.get j)
    if i = j then
      let c := if c < 0 then |c| else c
      if c < 1 / 10 ^ 9 then 1 / 10 ^ 9 else c
    else c

/-- ekf.py L573: state-to-measurement matrix. -/
def KMeas.H (m : KMeas) : Matrix (Fin m.indices.length) Ix ℝ :=
  fun i j => if j = m.indices.get i then 1 else 0

/-- ekf.py L546-548, L589-600: wrapped difference between the measured values and the state. -/
noncomputable def KMeas.innovation (m : KMeas) (s : KVec) : Fin m.indices.length → ℝ :=
  fun i =>
    let k := m.indices.get i
    wrapInnovation k ((m.value k).getD 0 - s k)

/-- `states_vector[-1].set(state, covariance)` if the list is not empty, ekf.py L621-622. -/
def setLast (h : List EState) (s : KVec) (P : KMat) : List EState :=
  match h.getLast? with
  | none => h
  | some l => h.dropLast ++ [⟨l.time, s, P⟩]

/-- ekf.py L585-587: the innovation covariance `H P Hᵀ + R` inverted for the gain. -/
noncomputable def KMeas.S (m : KMeas) (P : KMat) :
    Matrix (Fin m.indices.length) (Fin m.indices.length) ℝ := m.H * (P * m.Hᵀ) + m.R

/-- ekf.py L585-588: the Kalman gain. -/
noncomputable def KMeas.gain (m : KMeas) (P : KMat) : Matrix Ix (Fin m.indices.length) ℝ :=
  (P * m.Hᵀ) * (m.S P)⁻¹

/-- ekf.py L473-475: the squared Mahalanobis distance. -/
noncomputable def KMeas.dist2 (m : KMeas) (s : KVec) (P : KMat) : ℝ :=
  m.innovation s ⬝ᵥ ((m.S P)⁻¹ *ᵥ m.innovation s)

/-- ekf.py L606-622: state and covariance update (Joseph form) of an accepted measurement. -/
noncomputable def Ekf.accept (e : Ekf) (m : KMeas) : Ekf :=
  let K := m.gain e.cov
  let s := wrapState (e.state + K *ᵥ m.innovation e.state)
  let G := 1 - K * m.H
  let P := G * e.cov * Gᵀ + K * m.R * Kᵀ
  { e with state := s, cov := P, lastT := m.time, hist := setLast e.hist s P }

/-- ekf.py L478 and L624-626: book-keeping of a rejected measurement. -/
def Ekf.reject (e : Ekf) (m : KMeas) : Ekf :=
  { e with nExceeded := e.nExceeded + 1
           rejected := fun k => if k = m.type then some ((e.rejected k).getD [] ++ [m.time])
                                else e.rejected k }

open Classical in
/-- ekf.py L528-630 `correct`, with `check_mahalanobis_distance` (L466-502).
`np.linalg.inv` raises `LinAlgError` on a singular matrix. -/
noncomputable def Ekf.correct (e : Ekf) (m : KMeas) : Res Ekf :=
  if (m.S e.cov).det = 0 then .error .linAlg
  else
    let exceeded := decide (m.dist2 e.state e.cov ≥ e.thr ^ 2)
    let e' := if exceeded then e.reject m else e.accept m
    .ok { e' with reports := fun k => if k = m.type then some (((e.reports k).getD {}).add (!exceeded))
                                      else e.reports k }

/-! ### Building measurements -/

/-- Uncertainty parameters of the EKF's own fallback models (`sensors_std`). -/
structure EkfStd where
  factorZ : ℝ
  offsetZ : ℝ
  factorV : V3 ℝ
  offsetV : V3 ℝ
  factorXY : ℝ
  offsetXY : ℝ
  factorO : ℝ
  offsetO : ℝ

/-- Fields of `Depth` read by the filter. -/
structure KDepth where
  time : ℝ
  depth : ℝ
  std : ℝ
/-- Fields of `BodyVelocity` read by the filter. -/
structure KDvl where
  time : ℝ
  v : V3 ℝ
  std : V3 ℝ
/-- Fields of `Usbl` read by the filter. -/
structure KUsbl where
  time : ℝ
  north : ℝ
  east : ℝ
  depth : ℝ
  northStd : ℝ
  eastStd : ℝ
/-- Fields of `Orientation` read by the filter (degrees). -/
structure KOrient where
  time : ℝ
  rpy : V3 ℝ
  std : V3 ℝ

/-- The zero-filled measurement of ekf.py L198-210 after the assignments of a `from_*`
method: `l` lists index, value and variance of each measured entry. -/
noncomputable def mkMeas (time : ℝ) (type : String) (l : List (Ix × ℝ × ℝ)) : KMeas :=
  { value := fun i => match l.find? (fun e => e.1 = i) with
      | some e => some e.2.1
      | none => some 0
    cov := fun i j => if i = j then match l.find? (fun e => e.1 = i) with
        | some e => e.2.2
        | none => 0
      else 0
    upd := fun i => l.any (fun e => e.1 = i)
    time := time
    type := type }

/-- ekf.py L222-239 `from_depth`. -/
noncomputable def fromDepth (c : EkfStd) (v : KDepth) (rpyDeg depthToDvl : V3 ℝ) : KMeas :=
  let off := (bodyToInertial rpyDeg.x rpyDeg.y rpyDeg.z depthToDvl).z
  mkMeas v.time "depth"
    [(Z, v.depth + off, if v.std > 0 then v.std ^ 2 else (v.depth * c.factorZ + c.offsetZ) ^ 2)]

/-- ekf.py L241-287 `from_dvl` (without `factor_x` the three factors and offsets agree). -/
noncomputable def fromDvl (c : EkfStd) (v : KDvl) : KMeas :=
  mkMeas v.time "DVL" (if v.std.x > 0 then
      [(VX, v.v.x, v.std.x ^ 2), (VY, v.v.y, v.std.y ^ 2), (VZ, v.v.z, v.std.z ^ 2)]
    else
      [(VX, v.v.x, (|v.v.x| * c.factorV.x + c.offsetV.x) ^ 2),
       (VY, v.v.y, (|v.v.y| * c.factorV.y + c.offsetV.y) ^ 2),
       (VZ, v.v.z, (|v.v.z| * c.factorV.z + c.offsetV.z) ^ 2)])

/-- ekf.py L289-316 `from_usbl`. -/
noncomputable def fromUsbl (c : EkfStd) (v : KUsbl) (rpyDeg usblToDvl : V3 ℝ) : KMeas :=
  let off := bodyToInertial rpyDeg.x rpyDeg.y rpyDeg.z usblToDvl
  let err := c.offsetXY + c.factorXY * sqrt (v.north ^ 2 + v.east ^ 2 + v.depth ^ 2)
  mkMeas v.time "USBL" (if v.northStd > 0 then
      [(X, v.north + off.x, v.northStd ^ 2), (Y, v.east + off.y, v.eastStd ^ 2)]
    else
      [(X, v.north + off.x, err ^ 2), (Y, v.east + off.y, err ^ 2)])

/-- ekf.py L318-359 `from_orientation`. -/
noncomputable def fromOrientation (c : EkfStd) (v : KOrient) : KMeas :=
  mkMeas v.time "orientation" (if v.std.x > 0 then
      [(ROLL, v.rpy.x * π / 180, (v.std.x * π / 180) ^ 2),
       (PITCH, v.rpy.y * π / 180, (v.std.y * π / 180) ^ 2),
       (YAW, v.rpy.z * π / 180, (v.std.z * π / 180) ^ 2)]
    else
      [(ROLL, v.rpy.x * π / 180, ((c.offsetO + v.rpy.x * c.factorO) * π / 180) ^ 2),
       (PITCH, v.rpy.y * π / 180, ((c.offsetO + v.rpy.y * c.factorO) * π / 180) ^ 2),
       (YAW, v.rpy.z * π / 180, ((c.offsetO + v.rpy.z * c.factorO) * π / 180) ^ 2)])

/-! ### The run loop -/

/-- The five lists walked by `run`; an index into a list becomes the list's remaining part. -/
structure Queues where
  orient : List KOrient
  usbl : List KUsbl
  depth : List KDepth
  dvl : List KDvl
  stamps : List ℝ

/-- Configuration of `ExtendedKalmanFilter`, ekf.py L838-872. -/
structure EkfCfg where
  std : EkfStd
  usblToDvl : V3 ℝ
  depthToDvl : V3 ℝ
  endT : ℝ

/-- ekf.py L953-986: the earliest time at the head of any list, if any list is left. -/
noncomputable def Queues.next (q : Queues) : Option ℝ :=
  ([q.usbl.head?.map (·.time), q.depth.head?.map (·.time), q.orient.head?.map (·.time),
    q.dvl.head?.map (·.time), q.stamps.head?].filterMap id).min?

/-- ekf.py L1002-1006 and L1013-1017: `math.degrees` of the estimated angles. -/
noncomputable def Ekf.rpyDeg (e : Ekf) : V3 ℝ :=
  ⟨e.state ROLL * 180 / π, e.state PITCH * 180 / π, e.state YAW * 180 / π⟩

open Classical in
/-- One block `if stamp == current_stamp: ...; idx += 1` of ekf.py L995-1032: if the head of
the list has time `t`, correct with it and advance. -/
noncomputable def takeAt {α : Type} (time : α → ℝ) (t : ℝ) (correct : Ekf → α → Res Ekf) :
    List α → Ekf → Res (List α × Ekf)
  | [], e => .ok ([], e)
  | x :: xs, e =>
    if time x = t then (correct e x).map (fun e => (xs, e)) else .ok (x :: xs, e)

open Classical in
/-- ekf.py L988-1032: one iteration of the main loop once the time `t` is known: predict to
`t`, then apply the orientation, USBL, depth and DVL measurements taken at `t`, at most one
of each, and advance every list whose head has time `t`. -/
noncomputable def ekfIter (c : EkfCfg) (t : ℝ) (q : Queues) (e : Ekf) : Res (Queues × Ekf) := do
  let e ← e.predict t (t - e.lastT)
  let (os, e) ← takeAt KOrient.time t (fun e o => e.correct (fromOrientation c.std o)) q.orient e
  let (us, e) ← takeAt KUsbl.time t
    (fun e u => e.correct (fromUsbl c.std u e.rpyDeg c.usblToDvl)) q.usbl e
  let (ds, e) ← takeAt KDepth.time t
    (fun e d => e.correct (fromDepth c.std d e.rpyDeg c.depthToDvl)) q.depth e
  let (vs, e) ← takeAt KDvl.time t (fun e v => e.correct (fromDvl c.std v)) q.dvl e
  let ts := match q.stamps with
    | s :: ts => if s = t then ts else s :: ts
    | [] => []
  pure (⟨os, us, ds, vs, ts⟩, e)

open Classical in
/-- ekf.py L940-1032: the main loop.  `fuel` bounds the number of iterations; running out
of it is reported as `assertion` (C33 shows that `run` never does). -/
noncomputable def ekfLoop (c : EkfCfg) : Nat → ℝ → Queues → Ekf → Res Ekf
  | 0, _, _, _ => .error .assertion
  | n + 1, cur, q, e =>
    if cur < c.endT then
      match q.next with
      | none => .ok e
      | some t => do
        let (q, e) ← ekfIter c t q e
        ekfLoop c n t q e
    else .ok e

open Classical in
/-- ekf.py L893-922: skip everything at or before the start time. -/
noncomputable def Queues.skip (q : Queues) (start : ℝ) : Queues :=
  ⟨q.orient.dropWhile (fun o => decide (o.time ≤ start)),
   q.usbl.dropWhile (fun o => decide (o.time ≤ start)),
   q.depth.dropWhile (fun o => decide (o.time ≤ start)),
   q.dvl.dropWhile (fun o => decide (o.time ≤ start)),
   q.stamps.dropWhile (fun o => decide (o ≤ start))⟩

/-- Number of list entries left. (ekf.py L925-935) -/
def Queues.size (q : Queues) : Nat :=
  q.orient.length + q.usbl.length + q.depth.length + q.dvl.length + q.stamps.length

/-- ekf.py L874-1032 `run` up to and without the smoother.  The main loop starts with
`current_stamp = 0` (L939). -/
noncomputable def ekfRun (c : EkfCfg) (start : ℝ) (s0 : KVec) (P0 Q : KMat) (thr : ℝ) (q : Queues) :
    Res Ekf :=
  ekfLoop c ((q.skip start).size + 1) 0 (q.skip start) (Ekf.init start s0 P0 Q thr)

/-! ### Smoother -/

/-- ekf.py L655-659: `arctan2(sin, cos)` of the angles of the smoother's innovation. -/
noncomputable def wrapSmooth (v : KVec) : KVec := fun i =>
  if i = ROLL ∨ i = PITCH ∨ i = YAW then Complex.arg ⟨cos (v i), sin (v i)⟩ else v i

/-- ekf.py L651: the gain `p_prior * A.T * inv(p_prior_pred)`.  Covariances stored by
`predict` and `correct` descend from `np.mat` (L431, L437), for which `*` is the matrix
product.  The covariance of the first state is the array passed to `set_initial_state`
(L406), for which `*` is entrywise; the second `*` has a matrix on its right and is the
matrix product in both cases. -/
noncomputable def smoothGain (first : Bool) (P A Pp : KMat) : KMat :=
  if first then (Matrix.of fun i j => P i j * Aᵀ i j) * Pp⁻¹ else P * Aᵀ * Pp⁻¹

open Classical in
/-- ekf.py L640-665: one backward step, from the smoothed successor `sf` to the filtered
state `s`; `first` says that `s` is the initial state. -/
noncomputable def smoothStep (Q : KMat) (first : Bool) (sf s : EState) : Res EState :=
  if cos (s.state PITCH) = 0 then .error .zeroDivision
  else
    let delta := sf.time - s.time
    let f := transferFunction delta s.state
    let A := transferJacobian delta s.state f
    let Pp := A * s.cov * Aᵀ + delta • Q
    if Pp.det = 0 then .error .linAlg
    else
      let J := smoothGain first s.cov A Pp
      let inn := wrapSmooth (sf.state - f *ᵥ s.state)
      .ok ⟨s.time, s.state + J *ᵥ inn, s.cov + J * (sf.cov - Pp) * Jᵀ⟩

/-- ekf.py L632-665 `smooth` with smoothing enabled, on the reversed state list: the last
state is kept, every earlier one is smoothed from its smoothed successor. -/
noncomputable def smoothRev (Q : KMat) : EState → List EState → Res (List EState)
  | sf, [] => .ok [sf]
  | sf, s :: rest => do
    let s' ← smoothStep Q rest.isEmpty sf s
    let r ← smoothRev Q s' rest
    pure (sf :: r)

/-- ekf.py L632-665 `smooth`: fewer than two states give an empty result. -/
noncomputable def smooth (Q : KMat) (h : List EState) : Res (List EState) :=
  match h.reverse with
  | l :: s :: rest => do
    let r ← smoothRev Q l (s :: rest)
    pure r.reverse
  | _ => .ok []

/-- ekf.py L1058-1070 `build_state`: the initial state from dead reckoning (degrees). -/
noncomputable def buildState (north east depth : ℝ) (rpyDeg v : V3 ℝ) : KVec :=
  ![north, east, depth, rpyDeg.x * π / 180, rpyDeg.y * π / 180, rpyDeg.z * π / 180,
    v.x, v.y, v.z, 0, 0, 0]

/-! ### Results -/

/-- ekf.py L128-179: a reported standard deviation. -/
noncomputable def stdOfVar (v : ℝ) : ℝ := sqrt (max 0 v)

section
variable {K : Type} [LinearOrder K]

/-- ekf.py L1124-1171 `update_camera_list`, on the times and poses of EKF states and the
times and file names of cameras.  `mk` builds the camera pose from an EKF pose
(`Camera.fromSyncedBodyVelocity`).  The list indices become remaining lists; the error
message of L1146-1157 is left out. -/
def updateCameraList {α β : Type} (mk : α → β) : List (K × String) → List (K × α) →
    List (β × String)
  | c :: cs, s :: ss =>
    if c.1 < s.1 then updateCameraList mk cs (s :: ss)
    else if s.1 < c.1 then updateCameraList mk (c :: cs) ss
    else (mk s.2, c.2) :: updateCameraList mk cs ss
  | _, _ => []
termination_by cs ss => cs.length + ss.length

end

end Oplab
