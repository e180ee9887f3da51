import Verif.Model.BioClock

/-! # Specification for C222 -/

namespace Oplab.Spec
open Oplab
variable {K : Type} [Field K] [LinearOrder K]

/-- The time of an image is `a` times the clock of its camera plus `b`, and it is not later than the image was received. -/
structure ShotCorrected (a b : K) (old new : ClockShot K) : Prop where
  cpu : new.cpu = old.cpu
  cam : new.cam = old.cam
  time : new.time = a * old.cam + b
  before : new.time ≤ old.cpu

/-- A record whose times are corrected, `a1`, `b1` being the line of the first camera and `a2`, `b2` that of the second.  The record has the time of its first image. -/
inductive RecordCorrected (a1 b1 a2 b2 : K) : ClockRecord K → ClockRecord K → Prop
  | image (t : K) (c1 c2 d1 d2 : ClockShot K) : ShotCorrected a1 b1 c1 d1 → ShotCorrected a2 b2 c2 d2 →
      RecordCorrected a1 b1 a2 b2 (.image t c1 c2) (.image d1.time d1 d2)
  | laser (t : K) (c3 d3 : ClockShot K) : ShotCorrected a2 b2 c3 d3 → RecordCorrected a1 b1 a2 b2 (.laser t c3) (.laser d3.time d3)

/-- The images of the first camera. -/
def firstShots (l : List (ClockRecord K)) : List (ClockShot K) := l.flatMap fun r => match r with
  | .image _ c1 _ => [c1]
  | .laser _ _ => []

/-- The images of the second camera, with those that show the laser. -/
def secondShots (l : List (ClockRecord K)) : List (ClockShot K) := l.flatMap fun r => match r with
  | .image _ _ c2 => [c2]
  | .laser _ c3 => [c3]

/-- All records are there, in their order, with corrected times; of each camera one image was received at the very time it is given, so that no later line would do. -/
def BioCorrected (l l' : List (ClockRecord K)) : Prop := ∃ a1 b1 a2 b2 : K, List.Forall₂ (RecordCorrected a1 b1 a2 b2) l l' ∧
  (∃ c ∈ firstShots l, a1 * c.cam + b1 = c.cpu) ∧ (∃ c ∈ secondShots l, a2 * c.cam + b2 = c.cpu)

/-- `linregress` finds the line on which the points lie. -/
def FindsLines (regress : List (K × K) → Res (K × K)) : Prop :=
  ∀ (points : List (K × K)) (m c : K), (∃ p ∈ points, ∃ q ∈ points, p.1 ≠ q.1) → (∀ p ∈ points, p.2 = m * p.1 + c) → regress points = .ok (m, c)

/-- The full claim: images of the BioCam, of either kind, have corrected times after `parse`. -/
def AllBioCorrected (K : Type) [Field K] [LinearOrder K] : Prop := ∀ (regress : List (K × K) → Res (K × K)), FindsLines regress →
  ∀ format ∈ ["biocam", "biocam4000_15c"], ∀ l l' : List (ClockRecord K), l ≠ [] → bioResults regress format l = .ok l' →
    ∃ a1 b1 a2 b2 : K, List.Forall₂ (RecordCorrected a1 b1 a2 b2) l l'

end Oplab.Spec
