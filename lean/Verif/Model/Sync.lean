import Verif.Model.DeadReckoning
import Verif.Model.Usbl

/-! Synchronisation of the sensors in `auv_nav process`, /repo/src/auv_nav/process.py L640-1095. -/

namespace Oplab

/-- `while j < n and c(j): j += 1`, for `n` = length of a list - 1 (process.py L645-649, L795-800, L897-901, L910-914,
L998-1003, L1055-1060). `fuel` bounds the number of steps; the length of the list is enough. -/
def seekIdx (n : Nat) (c : Nat → Bool) : Nat → Nat → Nat
  | 0, j => j
  | fuel + 1, j => if j < n ∧ c j = true then seekIdx n c fuel (j + 1) else j

section
variable {K : Type} [Field K] [LinearOrder K]

/-- `while j < len(l) - 1 and l[j].epoch_timestamp < q: j += 1` on the list of times (process.py L645-649, L897-901,
L910-914, L998-1003, L1055-1060). -/
def seekTime (ts : List K) (q : K) (j : Nat) : Nat :=
  seekIdx (ts.length - 1) (fun m => ts[m]?.any (· < q)) ts.length j

/-- `while j < len(l) - 1 and l[j + 1].epoch_timestamp < q: j += 1` on the list of times (process.py L795-800). -/
def seekNext (ts : List K) (q : K) (j : Nat) : Nat :=
  seekIdx (ts.length - 1) (fun m => ts[m + 1]?.any (· < q)) ts.length j

/-- `interpolate(q, l[a].epoch_timestamp, l[b].epoch_timestamp, l[a].y, l[b].y)` on a list of (time, value) pairs, with
Python indices (process.py L653-659, L810-851, L902-908, L916-929). -/
def interpAt (l : List (K × K)) (q : K) (a b : Int) : Res K := do
  let x ← pyGet l a
  let y ← pyGet l b
  .ok (interpolate q x.1 y.1 x.2 y.2)

/-! ## Seafloor depth -/

/-- process.py L642-663: the sum of interpolated depth and altitude for each (time, altitude) pair, `none` where the
index is added to the list of entries not processed. `ds` are the (time, depth) pairs. -/
def seafloorLoop (ds : List (K × K)) (j : Nat) : List (K × K) → Res (List (Option K))
  | [] => .ok []
  | a :: as => do
    let j := seekTime (ds.map Prod.fst) a.1 j
    let s ← if 0 < j then do
        let d ← interpAt ds a.1 ((j : Int) - 1) j
        .ok (some (d + a.2))
      else .ok none
    let rest ← seafloorLoop ds j as
    .ok (s :: rest)

/-- process.py L665-667: from the last entry not processed to the first, copy the value of the following entry. -/
def fillBack (l : List (Option K)) : Res (List (Option K)) :=
  (((List.range l.length).filter fun i => l[i]? = some none).reverse).foldlM
    (fun (acc : List (Option K)) (i : Nat) => do
      let v ← pyGet acc ((i : Int) + 1)
      .ok (acc.set i v)) l

/-- process.py L640-667: `seafloor_depth` of every altitude measurement. -/
def seafloorDepths (ds as : List (K × K)) : Res (List (Option K)) := do
  let raw ← seafloorLoop ds 0 as
  fillBack raw

/-! ## Orientation, velocity, altitude and depth at the times of the orientation measurements -/

/-- A DVL measurement: time, velocity and its standard deviation. -/
structure VelMeas (K : Type) where
  t : K
  v : V3 K
  std : V3 K

/-- Interpolation of a vector between `vs[j]` and `vs[j + 1]` (process.py L810-851). -/
def interpVec (q : K) (a b : K × V3 K) : V3 K :=
  ⟨interpolate q a.1 b.1 a.2.x b.2.x, interpolate q a.1 b.1 a.2.y b.2.y, interpolate q a.1 b.1 a.2.z b.2.z⟩

/-- The fields of `SyncedOrientationBodyVelocity` set by process.py L802-929 (standard deviations of the angles are
copied like the angles and left out). -/
structure Synced (K : Type) where
  att : Attitude K
  v : V3 K
  vStd : V3 K
  inertial : V3 K
  inertialStd : V3 K
  alt : K
  depth : K
  depthStd : K

/-- The counters `j`, `k`, `n` of process.py L770-772. -/
structure SyncIdx where
  j : Nat
  k : Nat
  n : Nat

/-- What the loop reads: `rot` is `body_to_inertial` at the attitude, `arm` is `correct_lever_arm` with the position of
the DVL (first the linear, then the angular speed). -/
structure SyncIn (K : Type) where
  rot : Attitude K → V3 K → V3 K
  arm : V3 K → V3 K → V3 K
  os : List (Attitude K)
  vs : List (VelMeas K)
  alts : List (K × K)
  ds : List (DepthSample K)

/-- process.py L795-930: the entry for the orientation measurement `o` at index `i`. -/
def syncOne (x : SyncIn K) (s : SyncIdx) (i : Nat) (o : Attitude K) : Res (SyncIdx × Synced K) := do
  let j := seekNext (x.vs.map (·.t)) o.t s.j
  let a ← pyGet x.vs j
  let b ← pyGet x.vs ((j : Int) + 1)
  let raw := interpVec o.t (a.t, a.v) (b.t, b.v)
  let std := interpVec o.t (a.t, a.std) (b.t, b.std)
  let w ← computeAngularSpeeds x.os i
  let v := x.arm raw w
  let n := seekTime (x.alts.map Prod.fst) o.t s.n
  let alt ← interpAt x.alts o.t ((n : Int) - 1) n
  let k := seekTime (x.ds.map (·.t)) o.t s.k
  let depth ← interpAt (x.ds.map fun d => (d.t, d.depth)) o.t ((k : Int) - 1) k
  let depthStd ← interpAt (x.ds.map fun d => (d.t, d.std)) o.t ((k : Int) - 1) k
  .ok (⟨j, k, n⟩, ⟨o, v, std, x.rot o v, x.rot o std, alt, depth, depthStd⟩)

/-- process.py L789-930: the loop from index `i` on; it stops at the first orientation after the last velocity. -/
def syncLoop (x : SyncIn K) (vEnd : K) (s : SyncIdx) (i : Nat) : List (Attitude K) → Res (List (Synced K))
  | [] => .ok []
  | o :: os =>
    if o.t > vEnd then .ok []
    else do
      let r ← syncOne x s i o
      let rest ← syncLoop x vEnd r.1 (i + 1) os
      .ok (r.2 :: rest)

/-- process.py L773-779: `start_interpolate_index`. -/
def startIndex (q : K) : List (Attitude K) → Res Nat
  | [] => .error .indexError
  | o :: os => if o.t < q then do
      let n ← startIndex q os
      .ok (n + 1)
    else .ok 0

/-- process.py L740-749, L770-982 (L952-974, the shift to the vehicle origin, is `toCentre`): the synchronised
measurements with their dead reckoned northings and eastings. `interpolate_remove_flag` is False before (L103). -/
def syncRun (x : SyncIn K) : Res (List (Synced K × (K × K))) :=
  match x.vs.head?, x.vs.getLast? with
  | some v0, some vEnd =>
    if x.os = [] then .error .quit
    else do
      let start ← startIndex v0.t x.os
      let l ← syncLoop x vEnd.t ⟨0, 0, 0⟩ start (x.os.drop start)
      let track ← reckonTrack (l.map fun s => ⟨s.att.t, s.inertial.x, s.inertial.y⟩)
      .ok (if start = 1 then (l.zip track).drop 1 else l.zip track)
  | _, _ => .error .quit

/-! ## Attitude of the inertial velocities -/

/-- process.py L997-1053: roll, pitch, yaw of each inertial velocity (`none` where L1006 is taken instead), given its
times. -/
def inertialLoop (os : List (Attitude K)) (j : Nat) : List K → Res (List (Option (V3 K)))
  | [] => .ok []
  | q :: qs => do
    let j := seekTime (os.map (·.t)) q j
    let a ← if j = 1 then .ok none else do
        let o1 ← pyGet os ((j : Int) - 1)
        let o2 ← pyGet os j
        .ok (some ⟨interpolate q o1.t o2.t o1.roll o2.roll, interpolate q o1.t o2.t o1.pitch o2.pitch,
          interpolateYaw q o1.t o2.t o1.yaw o2.yaw⟩)
    let rest ← inertialLoop os j qs
    .ok (a :: rest)

/-- process.py L997-1053, L1089-1091: the list after the loop; the first entry is deleted if any entry went through
L1006. -/
def inertialAttitudes (os : List (Attitude K)) (qs : List K) : Res (List (K × Option (V3 K))) := do
  let l ← inertialLoop os 0 qs
  .ok (if l.any (·.isNone) then (qs.zip l).drop 1 else qs.zip l)

end

end Oplab
