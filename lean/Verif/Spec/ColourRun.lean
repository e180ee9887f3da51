import Verif.Spec.Images
import Verif.Spec.Numerical
import Verif.Model.ProcessImage

/-!
# Photographs of a sea floor

A floor has a reflectance at every point. A camera with lamps sees at every channel of every pixel the reflectance times the light, which fades
exponentially with the altitude down to a constant; lamps, water and vignetting differ from pixel to pixel.
-/

namespace Oplab.Spec

/-- The light at every channel and pixel: `a e^(b d) + c` at the altitude `d`. -/
structure Lighting where
  a : ℕ → ℕ → ℝ
  b : ℕ → ℕ → ℝ
  c : ℕ → ℕ → ℝ
  inBounds : ∀ ch k, InBounds (a ch k) (b ch k) (c ch k)

/-- The light at an altitude. -/
noncomputable def Lighting.light (L : Lighting) (d : ℝ) (ch k : ℕ) : ℝ := L.a ch k * Real.exp (L.b ch k * d) + L.c ch k

/-- The image that is taken at an altitude of a floor with given reflectances. -/
noncomputable def Lighting.photograph (L : Lighting) (d : ℝ) (floor : Img ℝ) : Img ℝ := floor.mapAt fun ch k r => r * L.light d ch k

/-- A photograph taken for the calibration: its altitude and the reflectances it sees. -/
structure FloorShot where
  altitude : ℝ
  floor : ℕ → ℕ → ℝ

/-- The photographs taken at an altitude. -/
noncomputable def shotsAt (shots : List FloorShot) (h : ℝ) : List FloorShot := open Classical in shots.filter fun x => x.altitude = h

/-- Altitudes differ by ten centimetres at least, or not at all. -/
def Stepped (shots : List FloorShot) : Prop := ∀ x ∈ shots, ∀ y ∈ shots, |x.altitude - y.altitude| < 1 / 10 → x.altitude = y.altitude

/-- Ten photographs or more were taken at each of three altitudes, not immediately below the limit. -/
def ThreeAltitudes (altMax : ℝ) (shots : List FloorShot) : Prop :=
  ∃ x y z : ℝ, x < y ∧ y < z ∧ z + 1 / 20 < altMax ∧ 10 ≤ (shotsAt shots x).length ∧ 10 ≤ (shotsAt shots y).length ∧
    10 ≤ (shotsAt shots z).length

/-- At every altitude at which ten photographs or more were taken, the floor has the reflectance 1 on average. -/
def TypicalFloor (shots : List FloorShot) (ch k : ℕ) : Prop :=
  ∀ h, 10 ≤ (shotsAt shots h).length → mean ((shotsAt shots h).map fun x => x.floor ch k) = 1

/-- An optimiser that finds a curve through the points if there is one within its bounds. -/
def FindsExact (opt : ℝ × ℝ × ℝ → List (ℝ × ℝ) → ℝ → Option (ℝ × ℝ × ℝ)) : Prop :=
  ∀ start ps ub, (∃ a b c, InBounds a b c ∧ c ≤ ub ∧ ∀ p ∈ ps, p.2 = a * Real.exp (b * p.1) + c) →
    ∃ a b c, opt start ps ub = some (a, b, c) ∧ InBounds a b c ∧ ∀ p ∈ ps, p.2 = a * Real.exp (b * p.1) + c

/-- The mean of the altitudes of all photographs. -/
noncomputable def meanAltitude (shots : List FloorShot) : ℝ := mean (shots.map FloorShot.altitude)

/-- The reflectances seen at a channel of a pixel. -/
def reflectances (shots : List FloorShot) (ch k : ℕ) : List ℝ := shots.map fun x => x.floor ch k

/-- The intensities recorded at a channel of a pixel. -/
noncomputable def intensities (L : Lighting) (shots : List FloorShot) (ch k : ℕ) : List ℝ := shots.map fun x => x.floor ch k * L.light x.altitude ch k

/-- Standard deviation. -/
noncomputable def deviation (l : List ℝ) : ℝ := Real.sqrt (variance l)

/-- All photographs show the reflectance 1. -/
def FlatFloor (shots : List FloorShot) (ch k : ℕ) : Prop := ∀ x ∈ shots, x.floor ch k = 1

/-- A choice of some of the given positions. -/
def Chooses (pick : List ℕ → List ℕ) : Prop := ∀ l, l ≠ [] → pick l ≠ [] ∧ ∀ i ∈ pick l, i ∈ l

/-- Samples, one or more, of the given values. -/
def Samples (draws : List ℝ → List (List ℝ)) : Prop := ∀ data, data ≠ [] → draws data ≠ [] ∧ ∀ d ∈ draws data, d ≠ [] ∧ ∀ v ∈ d, v ∈ data

/-- Conditions on a dive: altitudes above the lower limit, in steps, three of them with ten photographs or more. -/
structure GoodDive (altMin altMax : ℝ) (shots : List FloorShot) : Prop where
  positive : 0 ≤ altMin
  above : ∀ x ∈ shots, altMin < x.altitude
  stepped : Stepped shots
  three : ThreeAltitudes altMax shots

/-- Seen from the mean altitude nothing would be brighter than 0.95. -/
def NotBright (L : Lighting) (shots : List FloorShot) (ch k : ℕ) : Prop :=
  ∀ x ∈ shots, x.floor ch k * L.light (meanAltitude shots) ch k ≤ 95 / 100

/-- The floor as it should look: contrast and brightness are those asked for. -/
noncomputable def developed (m sd : ℕ → ℕ → ℝ) (brightness contrast : ℝ) (floor : Img ℝ) : Img ℝ :=
  floor.mapAt fun ch k r => max 0 (min 1 ((r - m ch k) / sd ch k * (contrast / 100) + brightness / 100))

end Oplab.Spec
