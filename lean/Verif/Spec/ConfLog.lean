import Verif.Model.ConfLog

/-! # Specification for C246 -/

namespace Oplab.Spec
open Oplab
variable {C : Type}

/-- The times a run uses in the names of its copies. -/
def opStamps : ConfOp C → List String
  | .edit _ _ => []
  | .parse t _ => [t]
  | .process t1 t2 _ _ => [t1, t2]
  | .correct t _ _ _ => [t]

/-- The name of the copy of a file. -/
def copyOf : ConfFile → ConfCopy
  | .mission => .mission
  | .vehicle => .vehicle
  | .cameraRaw => .camera
  | .cameraConfig => .camera
  | .auvNav => .auvNav
  | .correct _ => .correct

/-- The copies of a run in the log folder: `c` is the copy of `f` under one of the times of the run. -/
def InLog (s : DiveConf C) (o : ConfOp C) (f : ConfFile) (c : C) : Prop := ∃ t ∈ opStamps o, s.log (t, copyOf f) = some c

/-- Full property: every configuration file a run worked with is in the log after it, and stays there. -/
def RunsLogged (C : Type) : Prop :=
  ∀ (loads : ConfFile → C → Bool) (s : DiveConf C) (o : ConfOp C) (later : List (ConfOp C)),
    (∀ p ∈ later, ∀ t ∈ opStamps p, t ∉ opStamps o) →
    ∀ f c, (f, c) ∈ (runConf loads s o).2.1 → InLog (confHistory loads (runConf loads s o).1 later) o f c

/-- Full property: runs at any times keep the copies of other runs. -/
def CopiesKept (C : Type) : Prop :=
  ∀ (loads : ConfFile → C → Bool) (s : DiveConf C) (o : ConfOp C) (k : String × ConfCopy) (c : C), s.log k = some c → (runConf loads s o).1.log k = some c

/-- Full property: a dive with a mission and a vehicle file that can be loaded is parsed. -/
def Parses (C : Type) : Prop :=
  ∀ (loads : ConfFile → C → Bool) (s : DiveConf C) (t : String) (m v : C), s.conf .mission = some m → s.conf .vehicle = some v →
    loads .mission m = true → loads .vehicle v = true → (runParse loads s t false).2.2 = none

/-- No edit of the file in the history. -/
def NotEdited (f : ConfFile) (ops : List (ConfOp C)) : Prop := ∀ o ∈ ops, ∀ c, o ≠ .edit f c

end Oplab.Spec
