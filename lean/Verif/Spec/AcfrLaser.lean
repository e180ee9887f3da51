import Verif.Model.AcfrLaser
import Verif.Spec.Lines

/-! # Specification for C244 -/

namespace Oplab.Spec
open Oplab
variable {K : Type} [Field K] [LinearOrder K]

/-- A record of a laser image. -/
def IsLaser (r : NavStandardRec K) : Prop := "laser".toList <:+: r.category

instance (r : NavStandardRec K) : Decidable (IsLaser r) := by unfold IsLaser; infer_instance

/-- nav_standard.json as `auv_nav parse` writes it: the origin, which is no laser image, then at least one record, all in order of time. -/
def StandardFile (recs : List (NavStandardRec K)) : Prop :=
  ∃ o rest, recs = o :: rest ∧ rest ≠ [] ∧ ¬ IsLaser o ∧ rest.Pairwise fun a b => a.t ≤ b.t

/-- The row of a laser image: its time and its file. -/
def LaserRow (r : NavStandardRec K) (c : CamPose K) : Prop := c.t = r.t ∧ r.filename = some c.filename

/-- The position in `c` is on the straight line between the positions of two consecutive poses of the track, one at or before the time and one
at or after it. -/
def BetweenPoses (track : List (StereoPose K)) (c : CamPose K) : Prop :=
  ∃ (k : ℕ) (a b : StereoPose K), track[k]? = some a ∧ track[k + 1]? = some b ∧ a.pose.stamp ≤ c.t ∧ c.t ≤ b.pose.stamp ∧
    OnLine a.pose.stamp a.pose.north b.pose.stamp b.pose.north c.t c.northings ∧
    OnLine a.pose.stamp a.pose.east b.pose.stamp b.pose.east c.t c.eastings ∧
    OnLine a.pose.stamp a.pose.depth b.pose.stamp b.pose.depth c.t c.depth ∧
    OnLine a.pose.stamp a.pose.lat b.pose.stamp b.pose.lat c.t c.latitude ∧
    OnLine a.pose.stamp a.pose.lon b.pose.stamp b.pose.lon c.t c.longitude ∧
    OnLine a.pose.stamp a.pose.alt b.pose.stamp b.pose.alt c.t c.altitude

/-- The angles in `c` are on the straight line between those read for two consecutive poses, one at or before the time and one at or after it; what is
read from a pose file is not what was written (C25): roll and pitch are exchanged, all are scaled by `deg`, the heading is shifted by 90. The
velocities are 0. -/
def AnglesBetween (deg : K) (track : List (StereoPose K)) (c : CamPose K) : Prop :=
  ∃ (k : ℕ) (a b : StereoPose K), track[k]? = some a ∧ track[k + 1]? = some b ∧ a.pose.stamp ≤ c.t ∧ c.t ≤ b.pose.stamp ∧
    OnLine a.pose.stamp (a.pose.pitch * deg) b.pose.stamp (b.pose.pitch * deg) c.t c.roll ∧
    OnLine a.pose.stamp (-(a.pose.roll * deg)) b.pose.stamp (-(b.pose.roll * deg)) c.t c.pitch ∧
    OnLine a.pose.stamp (a.pose.yaw * deg + 90) b.pose.stamp (b.pose.yaw * deg + 90) c.t c.yaw ∧ c.vx = 0 ∧ c.vy = 0 ∧ c.vz = 0

/-- Full property: every position that is written for a laser image is between two poses of the file. -/
def LaserPositionsRight (K : Type) [Field K] [LinearOrder K] : Prop :=
  ∀ (deg lat lon : K) (track : List (StereoPose K)) (present force : Bool) (recs : List (NavStandardRec K)) (f : LaserCsv K) (rows : List (CamPose K)),
    track.Pairwise (fun a b => a.pose.stamp < b.pose.stamp) → StandardFile recs →
    acfrLaserRun deg (writeStereoPose lat lon track) present force recs = .ok f → f.rows = some rows → ∀ c ∈ rows, BetweenPoses track c

/-- Full property: a run that fails leaves a laser file that exists as it is. -/
def LaserFileKept (K : Type) [Field K] [LinearOrder K] : Prop :=
  ∀ (force : Bool) (recs : List (NavStandardRec K)) (cams : List (CamPose K)) (e : Err),
    (acfrLaser true force recs cams).error = some e → (acfrLaser true force recs cams).rows = none

end Oplab.Spec
