import Verif.Model.CalText

/-!
Model of the overview that `auv_nav parse` draws of nav_standard.json: /repo/src/auv_nav/plot/plot_parse_data.py.  Records are sorted
by category and frame; each group has a row of the table and a trace of the history of timestamps.
-/

namespace Oplab

/-- What the overview uses of a record. (plot_parse_data.py L83-122, L148-201) -/
structure PlotRec where
  category : String
  frame : String
  stamp : ℚ
  deriving DecidableEq

/-- The lists of one category: frame body, frame inertial, other frames. The code could have more than one list of other frames,
but never gets there (L170-183). (plot_parse_data.py L139-142, L188-201) -/
structure FrameGroup where
  body : List PlotRec
  inertial : List PlotRec
  other : List PlotRec

/-- plot_parse_data.py L160-186 and L191-201: a record is put into the list of its frame. If there is already one of another frame,
the search for the same frame indexes a list with a text (L173-174). -/
def groupPut (g : FrameGroup) (r : PlotRec) : Res FrameGroup :=
  if r.frame = "body" then .ok { g with body := g.body ++ [r] }
  else if r.frame = "inertial" then .ok { g with inertial := g.inertial ++ [r] }
  else if g.other = [] then .ok { g with other := [r] }
  else .error .typeError

/-- plot_parse_data.py L158-201: the category is looked up; a new one is appended. -/
def putRec : List (String × FrameGroup) → PlotRec → Res (List (String × FrameGroup))
  | [], r => do
    let g ← groupPut ⟨[], [], []⟩ r
    .ok [(r.category, g)]
  | (c, g) :: s, r =>
    if c = r.category then do
      let g ← groupPut g r
      .ok ((c, g) :: s)
    else do
      let s ← putRec s r
      .ok ((c, g) :: s)

/-- plot_parse_data.py L152-201: records without contents and the origin are left out. -/
def groupAll : List (String × FrameGroup) → List (Option PlotRec) → Res (List (String × FrameGroup))
  | s, [] => .ok s
  | s, none :: l => groupAll s l
  | s, some r :: l =>
    if r.category = "origin" then groupAll s l
    else do
      let s ← putRec s r
      groupAll s l

/-- plot_parse_data.py L90-96: the search for two records at different times, `n` being the next index; `none` is `sys.exit(0)`. -/
def gapLoop : ℚ → Nat → ℚ → List ℚ → Option ℚ
  | d, _, _, [] => some d
  | d, n, prev, t :: rest =>
    if d = 0 ∨ d < 2 / 1000 then
      if 10 < n + 1 then none else gapLoop (t - prev) (n + 1) t rest
    else some d

/-- plot_parse_data.py L84-96: the time difference from which the update rate is computed. -/
def updateGap : List ℚ → Option ℚ
  | a :: b :: rest => gapLoop (b - a) 2 b rest
  | _ => some 0

/-- plot_parse_data.py L58-62: `1 / time_difference`, or `None`. -/
def rateText (d : ℚ) : Option ℚ := if d ≠ 0 then some (1 / d) else none

/-- plot_parse_data.py L108-114: the time of a record as the second, which is then written as a date, and the decimals after the
point. Times before 1970 are not modelled. -/
def timeLabel (t : ℚ) : Nat × Text := (⌊t⌋₊, ((fixed6 (t - ⌊t⌋₊)).drop 2).take 7)

/-- A row of the table and the trace that belongs to it. (plot_parse_data.py L82-124) -/
structure PTrace where
  category : String
  frame : String
  count : Nat
  rate : Option ℚ
  points : List (Nat × Text)

/-- plot_parse_data.py L82-124 `data2trace`. -/
def data2trace (r : PlotRec) (l : List PlotRec) : Option PTrace :=
  match updateGap ((r :: l).map (·.stamp)) with
  | none => none
  | some d => some ⟨r.category, r.frame, (r :: l).length, rateText d, (r :: l).map fun k => timeLabel k.stamp⟩

/-- plot_parse_data.py L213-222: empty lists are passed over. -/
def allTraces : List (List PlotRec) → Option (List PTrace)
  | [] => some []
  | [] :: L => allTraces L
  | (r :: l) :: L =>
    match data2trace r l with
    | none => none
    | some t => (allTraces L).map (t :: ·)

/-- How the overview ends: with an exception, by `sys.exit(0)`, or with start, end and traces. (plot_parse_data.py L127-383) -/
inductive PlotRun
  | failed (e : Err)
  | left
  | drawn (start finish : ℚ) (traces : List PTrace)

/-- plot_parse_data.py L150-151: the time of an entry, which must not be `None`. -/
def entryTime (data : List (Option PlotRec)) (i : Int) : Res ℚ := do
  match ← pyGet data i with
  | none => .error .typeError
  | some r => .ok r.stamp

/-- plot_parse_data.py L148-201. -/
def overviewGroups (data : List (Option PlotRec)) : Res (ℚ × ℚ × List (String × FrameGroup)) := do
  let start ← entryTime data 1
  let finish ← entryTime data (-1)
  let s ← groupAll [] data
  .ok (start, finish, s)

/-- plot_parse_data.py L127-383 `plot_parse_data`. -/
def parsePlots (data : List (Option PlotRec)) : PlotRun :=
  match overviewGroups data with
  | .error e => .failed e
  | .ok (start, finish, s) =>
    match allTraces (s.flatMap fun c => [c.2.body, c.2.inertial, c.2.other]) with
    | none => .left
    | some t => .drawn start finish t

/-- /repo/src/auv_nav/parse.py L100-104, L785: dives are parsed one after the other, each followed by its overview. The number of dives that
are complete, and the exit code. -/
def overviewDives : List (List (Option PlotRec)) → Nat × Nat
  | [] => (0, 0)
  | d :: ds =>
    match parsePlots d with
    | .failed _ => (0, 1)
    | .left => (0, 0)
    | .drawn _ _ _ => ((overviewDives ds).1 + 1, (overviewDives ds).2)

end Oplab
