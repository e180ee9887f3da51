import Verif.Model.DrRun

/-! Part of a dive, as chosen with a start and a finish time. -/

namespace Oplab.Spec

variable {K : Type} [Field K] [LinearOrder K]

/-- What is measured from time `s` to time `f`. -/
def measuredBetween {α : Type} (time : α → K) (s f : K) (l : List α) : List α := l.filter fun a => decide (s ≤ time a ∧ time a ≤ f)

/-- The same vehicle with what all sensors measured from time `s` to time `f`. -/
def partOf (s f : K) (x : SyncIn K) : SyncIn K :=
  { x with os := measuredBetween (·.t) s f x.os, vs := measuredBetween (·.t) s f x.vs, alts := measuredBetween Prod.fst s f x.alts,
           ds := measuredBetween (·.t) s f x.ds }

/-- Orientations are measured both before and after the time `q`. -/
def Inside (x : SyncIn K) (q : K) : Prop := (∃ o ∈ x.os, o.t < q) ∧ ∃ o ∈ x.os, q < o.t

/-- The full statement: processing a part of a dive finds the same velocities, altitudes and depths as processing the whole. -/
def PartAlike (K : Type) [Field K] [LinearOrder K] (Records : SyncIn K → Prop) : Prop :=
  ∀ (s f : K) (x : SyncIn K) r r', Records x → Records (partOf s f x) → syncRun x = .ok r → syncRun (partOf s f x) = .ok r' →
    ∀ e ∈ r, ∀ e' ∈ r', e'.1.att.t = e.1.att.t → e'.1 = e.1

/-- The full statement: the pose found for a measurement does not depend on the other measurements of the sensor. -/
def PoseAlone : Prop :=
  ∀ (m2ll : ℝ → ℝ → ℝ × ℝ) (origin offsets : V3 ℝ) (times times' : List ℝ) (centre : List Centre) (out out' : List (ℝ × Option SensorPose)),
    centre.Pairwise (fun a b => a.t < b.t) → times.Pairwise (· ≤ ·) → times'.Pairwise (· ≤ ·) →
    interpolateSensorList m2ll origin offsets times centre = .ok out → interpolateSensorList m2ll origin offsets times' centre = .ok out' →
    ∀ q p p', (q, some p) ∈ out → (q, some p') ∈ out' → (∃ c ∈ centre, c.t < q) → (∃ c ∈ centre, q ≤ c.t) → p' = p

end Oplab.Spec
