import Verif.Model.KoyoRun
import Verif.Spec.Koyo
import Verif.Spec.KoyoClean

/-! # What the conversion of a dive of the ROV of 2020 has to write -/

namespace Oplab.Spec
open Oplab

/-- The log runs at the time `q`: it has records both not after and not before it. -/
def Runs {α : Type} (recs : List (ℝ × α)) (q : ℝ) : Prop := (∃ r ∈ recs, r.1 ≤ q) ∧ ∃ r ∈ recs, q ≤ r.1

/-- The values of the ship at `q`: all between the two records around `q`. -/
def ShipAt (pos : List (ℝ × RovShip)) (q : ℝ) (s : RovShip) : Prop :=
  ValueAt (pos.map fun r => (r.1, r.2.lat)) q s.lat ∧ ValueAt (pos.map fun r => (r.1, r.2.lon)) q s.lon ∧
    ValueAt (pos.map fun r => (r.1, r.2.depth)) q s.depth ∧ ValueAt (pos.map fun r => (r.1, r.2.altitude)) q s.altitude

/-- The attitude at `q`, angle by angle. -/
def TurnAt (rot : List (ℝ × RovTurn)) (q : ℝ) (r : RovTurn) : Prop :=
  ValueAt (rot.map fun x => (x.1, x.2.heading)) q r.heading ∧ ValueAt (rot.map fun x => (x.1, x.2.pitch)) q r.pitch ∧
    ValueAt (rot.map fun x => (x.1, x.2.roll)) q r.roll

/-- The line of an image of a camera at `place` on the vehicle: path and time are those of the image, the attitude that at its time, the
position that of the ship log from the reference (`dist` metres at `bearing` degrees) moved by the arm from the dvl to the camera, the depth
moved from the depth sensor to the camera, the altitude less by the height of the arm, and the degrees are those of that position. -/
def LineOf (c : RovSetup) (place depthSensor dvl : V3 ℝ) (path : List Char) (pos : List (ℝ × RovShip)) (rot : List (ℝ × RovTurn))
    (t : ℝ) (l : RovLine) : Prop :=
  ∃ (s : RovShip) (r : RovTurn) (dist bearing : ℝ), ShipAt pos t s ∧ TurnAt rot t r ∧ c.toMetres s.lat s.lon c.latRef c.lonRef = (dist, bearing) ∧
    l.path = path ∧ l.t = t ∧ l.pose.roll = r.roll ∧ l.pose.pitch = r.pitch ∧ l.pose.heading = r.heading ∧
    (let arm := bodyToInertial r.roll r.pitch r.heading ⟨place.x - dvl.x, place.y - dvl.y, place.z - dvl.z⟩
     let down := bodyToInertial r.roll r.pitch r.heading ⟨place.x - depthSensor.x, place.y - depthSensor.y, place.z - depthSensor.z⟩
     l.pose.northing = dist * Real.cos (bearing * Real.pi / 180) + arm.x ∧ l.pose.easting = dist * Real.sin (bearing * Real.pi / 180) + arm.y ∧
       l.pose.depth = s.depth + down.z ∧ l.pose.altitude = s.altitude - arm.z) ∧
    (l.lat, l.lon) = c.toLatLon c.latRef c.lonRef l.pose.easting l.pose.northing

open Classical in
/-- The images that get a line: those taken while both logs run. -/
noncomputable def covered (pos : List (ℝ × RovShip)) (rot : List (ℝ × RovTurn)) (images : List RovImage) : List RovImage :=
  images.filter fun i => decide (Runs pos i.t ∧ Runs rot i.t)

/-- The records of the ship are those of the files that are later than all before them in their file, without the first of each file (C162),
in order of time. -/
def ShipRecordsOf (files : List (List (Option (ℝ × RovShip)))) (recs : List (ℝ × RovShip)) : Prop :=
  recs.Pairwise (fun a b => a.1 ≤ b.1) ∧ ∃ vs : List (List (ℝ × RovShip)), recs.Perm vs.flatten ∧
    List.Forall₂ (fun f v => ∃ first rest, f = some first :: rest ∧ v.Sublist (rest.filterMap id) ∧
      ∀ r, r ∈ v ↔ ∃ p q, rest = p ++ some r :: q ∧ first.1 < r.1 ∧ ∀ s, some s ∈ p → s.1 < r.1) files vs

/-- Full property: positions that cannot be reached at 20 m/s from the one before are not used: the positions written are the same without
them. -/
def UnreachableUnused : Prop :=
  ∀ (c : RovSetup) (forcing : Bool) (exist : List (String × Bool)) (first a b d : ℝ × RovShip) (turns : List (Option (ℝ × RovTurn)))
    (laser camera : List (Option RovImage)), first.1 < a.1 → a.1 < b.1 → b.1 < d.1 →
    ¬ Reachable ⟨a.1, a.2.lat, a.2.lon⟩ ⟨b.1, b.2.lat, b.2.lon⟩ → Reachable ⟨a.1, a.2.lat, a.2.lon⟩ ⟨d.1, d.2.lat, d.2.lon⟩ →
    rovRun c forcing exist [[some first, some a, some b, some d]] turns laser camera =
      rovRun c forcing exist [[some first, some a, some d]] turns laser camera

end Oplab.Spec
