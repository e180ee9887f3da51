import Verif.Model.Ekf

/-!
# What the filter does, as a sequence of events

`run` amounts to a sequence of predictions and corrections.  `replay` carries such a
sequence out; the theorems of C33 say which sequence `run` carries out.
-/

namespace Oplab.Spec
open Oplab

/-- A prediction to a time, or a correction with one measurement. -/
inductive Ev where
  | predict (t : ℝ)
  | orient (o : KOrient)
  | usbl (u : KUsbl)
  | depth (d : KDepth)
  | dvl (v : KDvl)

/-- Time of a prediction or measurement. -/
def Ev.time : Ev → ℝ
  | .predict t => t
  | .orient o => o.time
  | .usbl u => u.time
  | .depth d => d.time
  | .dvl v => v.time

def Ev.isPredict : Ev → Bool
  | .predict _ => true
  | _ => false

/-- Carry out one event. -/
noncomputable def Ev.apply (c : EkfCfg) (e : Ekf) : Ev → Res Ekf
  | .predict t => e.predict t (t - e.lastT)
  | .orient o => e.correct (fromOrientation c.std o)
  | .usbl u => e.correct (fromUsbl c.std u e.rpyDeg c.usblToDvl)
  | .depth d => e.correct (fromDepth c.std d e.rpyDeg c.depthToDvl)
  | .dvl v => e.correct (fromDvl c.std v)

/-- Carry out a sequence of events. -/
noncomputable def replay (c : EkfCfg) (e : Ekf) (evs : List Ev) : Res Ekf :=
  evs.foldlM (Ev.apply c) e

def Ev.predict? : Ev → Option ℝ | .predict t => some t | _ => none
def Ev.orient? : Ev → Option KOrient | .orient o => some o | _ => none
def Ev.usbl? : Ev → Option KUsbl | .usbl o => some o | _ => none
def Ev.depth? : Ev → Option KDepth | .depth o => some o | _ => none
def Ev.dvl? : Ev → Option KDvl | .dvl o => some o | _ => none

/-- Every list is in time order. -/
def InOrder (q : Queues) : Prop :=
  (q.orient.map (·.time)).Pairwise (· ≤ ·) ∧ (q.usbl.map (·.time)).Pairwise (· ≤ ·) ∧
  (q.depth.map (·.time)).Pairwise (· ≤ ·) ∧ (q.dvl.map (·.time)).Pairwise (· ≤ ·) ∧
  q.stamps.Pairwise (· ≤ ·)

/-- All times the filter is asked to visit. -/
def allTimes (q : Queues) : List ℝ :=
  q.orient.map (·.time) ++ q.usbl.map (·.time) ++ q.depth.map (·.time) ++ q.dvl.map (·.time)
    ++ q.stamps

/-- Every correction directly follows, up to other corrections, a prediction to its time. -/
def CorrectedAtOwnTime (evs : List Ev) : Prop :=
  ∀ pre ev post, evs = pre ++ ev :: post → ev.isPredict = false →
    (pre.filterMap Ev.predict?).getLast? = some ev.time

end Oplab.Spec
