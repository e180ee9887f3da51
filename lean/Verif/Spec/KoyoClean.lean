import Verif.Model.KoyoClean

/-!
# Cleaning of a log

A value of zero is a missing one.
-/

namespace Oplab.Spec
open Oplab

section
variable {K : Type} [Field K] [LinearOrder K]

/-- The point `(t, v)` is on the line through `(ta, va)` and `(tb, vb)`. -/
def Collinear3 (ta va tb vb t v : K) : Prop := (v - va) * (tb - ta) = (vb - va) * (t - ta)

/-- `b` is the next valid record after `a`. -/
def NextValid (vs : List K) (a b : ℕ) : Prop :=
  a < b ∧ (∃ v, vs[a]? = some v ∧ v ≠ 0) ∧ (∃ v, vs[b]? = some v ∧ v ≠ 0) ∧ ∀ k, a < k → k < b → vs[k]? = some 0

end

/-- Full property: between valid records missing values are interpolated from the next valid ones on both sides. -/
def FilledBetween : Prop :=
  ∀ (ts vs : List ℚ) (a b i : ℕ) (ta tb va vb t v : ℚ), ts.length = vs.length → ts.Pairwise (· < ·) → NextValid vs a b → a < i → i < b →
    ts[a]? = some ta → ts[b]? = some tb → vs[a]? = some va → vs[b]? = some vb → ts[i]? = some t → (fillMissing ts vs)[i]? = some v →
    Collinear3 ta va tb vb t v

/-- Full property: no value is missing afterwards if there were two valid ones. -/
def NoneMissing : Prop :=
  ∀ (ts vs : List ℚ) (a b : ℕ), ts.length = vs.length → ts.Pairwise (· < ·) → (∀ v ∈ vs, 0 ≤ v) → NextValid vs a b →
    ∀ v ∈ fillMissing ts vs, 0 < v

/-- The distance in metres as the program takes it: one degree is 111139 m in both directions. -/
noncomputable def metres (a b : ShipPos) : ℝ := 111139 * Real.sqrt ((b.lat - a.lat) ^ 2 + (b.lon - a.lon) ^ 2)

/-- `b`, not before `a`, can be reached at 20 m/s. -/
def Reachable (a b : ShipPos) : Prop := metres a b ≤ 20 * (b.t - a.t)

/-- Full property: whichever records are wrong, if they are out of reach from the right ones and the right ones are within
reach of each other, the right ones remain. -/
def RightRemain : Prop :=
  ∀ (l out : List ShipPos) (right : ShipPos → Bool), l.Pairwise (fun a b => a.t ≤ b.t) →
    (∀ a ∈ l, ∀ b ∈ l, a.t ≤ b.t → right a = true → right b = true → Reachable a b) →
    (∀ a ∈ l, ∀ b ∈ l, right a ≠ right b → ¬ Reachable a b) →
    filterBad l = .ok out → out = l.filter right

end Oplab.Spec
