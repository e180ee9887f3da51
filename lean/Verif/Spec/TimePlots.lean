import Verif.Model.TimePlots

/-! What plots against time should show. -/

namespace Oplab.Spec
open Oplab

/-- A line shows a value of each record against its time. -/
def ShowsColumn {α : Type} (t : TimeTrace) (l : List α) (time : α → ℚ) (value : α → Option ℚ) : Prop :=
  t.xs = l.map time ∧ t.ys.map some = l.map value

/-- All records have a value. -/
def ColumnGiven {α : Type} (l : List α) (value : α → Option ℚ) : Prop := ∀ v ∈ l, (value v).isSome

/-- The plot of velocities is drawn. -/
def VelocitiesDrawn : Prop := ∀ sensor dvl l, ∃ ts, velocityPlot sensor dvl l = .ok ts

/-- The plot of uncertainties is drawn. -/
def UncertaintiesDrawn : Prop := ∀ l, ∃ ts, groundStdTraces l = .ok ts

/-- A line is the upper bound of a value: it runs one standard deviation above it. -/
def UpperBound (t : TimeTrace) (value std : List ℚ) : Prop :=
  ∀ (k : ℕ) (y : ℚ), t.ys[k]? = some y → ∃ v s, value[k]? = some v ∧ std[k]? = some s ∧ y = v + s

/-- A line is the lower bound of a value. -/
def LowerBound (t : TimeTrace) (value std : List ℚ) : Prop :=
  ∀ (k : ℕ) (y : ℚ), t.ys[k]? = some y → ∃ v s, value[k]? = some v ∧ std[k]? = some s ∧ y = v - s

/-- Lines called upper bound are upper bounds, and there are lower bounds by their names. -/
def BoundNames (plot : BandInput → Res (List TimeTrace)) (names : List (String × (BandInput → List ℚ) × (BandInput → List ℚ))) : Prop :=
  ∀ i ts, plot i = .ok ts → ∀ n ∈ names,
    (∀ t ∈ ts, t.name = n.1 ++ "+sigma" → UpperBound t (n.2.1 i) (n.2.2 i)) ∧
    (∃ t ∈ ts, t.name = n.1 ++ "+sigma" ∧ t.ys.length = i.times.length) ∧
    (∀ t ∈ ts, t.name = n.1 ++ "-sigma" → LowerBound t (n.2.1 i) (n.2.2 i)) ∧
    ∃ t ∈ ts, t.name = n.1 ++ "-sigma" ∧ t.ys.length = i.times.length

/-- Names of bounds of positions. -/
def positionNames : List (String × (BandInput → List ℚ) × (BandInput → List ℚ)) :=
  [("northing", (·.a), (·.aStd)), ("easting", (·.b), (·.bStd)), ("depth", (·.c), (·.cStd))]

/-- Names of bounds of orientations. -/
def orientationNames : List (String × (BandInput → List ℚ) × (BandInput → List ℚ)) :=
  [("roll", (·.a), (·.aStd)), ("pitch", (·.b), (·.bStd)), ("yaw", (·.c), (·.cStd))]

/-- Where a quantity is drawn: its name, those of the lines of its deviation and of its bounds, the column of panels, its values and deviations. -/
structure Panel where
  value : String
  deviation : String
  bounds : List String
  column : ℕ
  values : BandInput → List ℚ
  deviations : BandInput → List ℚ

/-- Values and bounds are drawn in one panel above that of the deviations, against time. -/
def InPanels (plot : BandInput → Res (List TimeTrace)) (panels : List Panel) : Prop :=
  ∀ i ts, plot i = .ok ts → ∀ p ∈ panels,
    (∃ t ∈ ts, t.name = p.value ∧ t.xs = i.times ∧ t.ys = p.values i ∧ t.row = 1 ∧ t.col = p.column) ∧
    (∃ t ∈ ts, t.name = p.deviation ∧ t.xs = i.times ∧ t.ys = p.deviations i ∧ t.row = 2 ∧ t.col = p.column) ∧
    ∀ t ∈ ts, t.name ∈ p.bounds → t.xs = i.times ∧ t.row = 1 ∧ t.col = p.column

/-- The panels of positions. -/
def positionPanels : List Panel :=
  [⟨"northings (m)", "northings std ekf (m)", ["northing+sigma", "northing-sigma"], 1, (·.a), (·.aStd)⟩,
    ⟨"eastings (m)", "eastings std ekf (m)", ["easting+sigma", "easting-sigma"], 2, (·.b), (·.bStd)⟩,
    ⟨"depth (m)", "depths std ekf (m)", ["depth+sigma", "depth-sigma"], 3, (·.c), (·.cStd)⟩]

/-- The panels of orientations. -/
def orientationPanels : List Panel :=
  [⟨"roll [deg]", "roll std ekf [deg]", ["roll+sigma"], 1, (·.a), (·.aStd)⟩, ⟨"pitch [deg]", "pitch std ekf [deg]", ["pitch+sigma"], 2, (·.b), (·.bStd)⟩,
    ⟨"yaw [deg]", "yaw std ekf [deg]", ["yaw+sigma"], 3, (·.c), (·.cStd)⟩]

end Oplab.Spec
