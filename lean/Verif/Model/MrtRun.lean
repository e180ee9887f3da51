import Verif.Model.Sonardyne
import Verif.Model.Parsers

/-! /repo/src/auv_nav/parsers/parse_sonardyne_mrt.py L557-743: from the folder of an MRT log to the USBL fixes. The folder is
the list of its files with their lines. `strptime(...).timestamp()` and `float` on texts and the geodesic library are parameters. -/

namespace Oplab

/-- `Path(name).stem` (parse_sonardyne_mrt.py L638): the name without what follows its last dot, if that is neither its first
nor its last character. -/
def pyStem (name : List Char) : List Char :=
  match name.reverse.dropWhile (· ≠ '.') with
  | [] => name
  | _ :: base => if base = [] ∨ name.reverse.head? = some '.' then name else base.reverse

/-- parse_sonardyne_mrt.py L638-640: the files whose name is the stem followed by `_` and anything, sorted by name. (Special
characters of `glob` in the stem are not modelled.) -/
def mrtFiles {α : Type} (folder : List (List Char × α)) (configured : List Char) : List (List Char × α) :=
  (folder.filter fun f => (pyStem configured ++ ['_']).isPrefixOf f.1).mergeSort fun a b =>
    lexLe (a.1.map Char.toNat) (b.1.map Char.toNat)

/-- parse_sonardyne_mrt.py L562-570: the observations of one type and source (`source_name` is the third value, L24). -/
def mrtSelect (kind : String) (source : List Char) (obs : List MrtObs) : List MrtObs :=
  obs.filter fun o => o.kind = kind ∧ o.args[2]? = some source

/-- parse_sonardyne_mrt.py L32-38: an observation with its time (the seventh value, L28), `none` if the text cannot be read. -/
def mrtTimed (stamp : List Char → Option ℝ) (o : MrtObs) : Option ℝ × MrtObs := ((o.args[6]?).bind stamp, o)

open Classical in
/-- `list.sort(key=lambda x: x.epoch_timestamp)` (parse_sonardyne_mrt.py L573-575): with two or more entries a missing time
cannot be compared. -/
noncomputable def mrtSort (l : List (Option ℝ × MrtObs)) : Res (List (Option ℝ × MrtObs)) :=
  if 2 ≤ l.length ∧ ∃ p ∈ l, p.1 = none then .error .typeError
  else .ok (l.insertionSort fun a b => a.1.getD 0 ≤ b.1.getD 0)

/-- The times of a sorted list in the comparisons of parse_sonardyne_mrt.py L593 and L597, where a missing time (left in a list
of one) is a TypeError. (If the loop is left before the comparison, the code fails at L655 instead; which of the two errors it
is is not modelled.) -/
def mrtKnown (l : List (Option ℝ × MrtObs)) : Res (List (ℝ × MrtObs)) :=
  l.mapM fun p => match p.1 with
    | some t => .ok (t, p.2)
    | none => .error .typeError

/-- What is recorded of a fix: its values and the position and heading of the ship (parse_sonardyne_mrt.py L702-742). -/
structure MrtData where
  fix : SonardyneFix
  latShip : ℝ
  lonShip : ℝ
  heading : ℝ

/-- The settings read at parse_sonardyne_mrt.py L615-630. -/
structure MrtSetup where
  tzHours : ℝ
  timeoffset : ℝ
  lat0 : ℝ
  lon0 : ℝ
  factor : ℝ
  offset : ℝ

/-- A value of an observation as a number (`float(obs.…)`, parse_sonardyne_mrt.py L652-656, L714). -/
def mrtNumber (num : List Char → Res ℝ) (o : MrtObs) (k : Int) : Res ℝ := do
  let s ← pyGet o.args k
  num s

/-- parse_sonardyne_mrt.py L651-742, one position: the values of `LatLongObs` after the nine of the base are latitude, longitude
and altitude, those of `PitchRollHeadingObs` pitch, roll and heading. Without a ship position or heading stored with it the attribute
access fails. -/
noncomputable def mrtRecord (num : List Char → Res ℝ) (inv dir : ℝ → ℝ → ℝ → ℝ → ℝ × ℝ) (su : MrtSetup)
    (ships headings : List (ℝ × MrtObs)) (p : (ℝ × MrtObs) × Option (Nat × Nat)) : Res MrtData := do
  let lat ← mrtNumber num p.1.2 9
  let lon ← mrtNumber num p.1.2 10
  let alt ← mrtNumber num p.1.2 11
  match p.2 with
  | none => .error .attributeError
  | some (i, j) =>
    let s ← pyGet ships i
    let h ← pyGet headings j
    let latShip ← mrtNumber num s.2 9
    let lonShip ← mrtNumber num s.2 10
    let heading ← mrtNumber num h.2 11
    .ok ⟨mrtFix inv dir su.factor su.offset su.tzHours su.timeoffset su.lat0 su.lon0 p.1.1 lat lon alt latShip lonShip,
      latShip, lonShip, heading⟩

/-- parse_sonardyne_mrt.py L557-605 and L648-743: from all observations to the records. -/
noncomputable def mrtFixes (stamp : List Char → Option ℝ) (num : List Char → Res ℝ) (inv dir : ℝ → ℝ → ℝ → ℝ → ℝ × ℝ)
    (su : MrtSetup) (obs : List MrtObs) : Res (List MrtData) := do
  let auv ← mrtSort ((mrtSelect "LatLongObs" "AUV 1".toList obs).map (mrtTimed stamp))
  let ship ← mrtSort ((mrtSelect "LatLongObs" "GNSS 1".toList obs).map (mrtTimed stamp))
  let heading ← mrtSort ((mrtSelect "PitchRollHeadingObs" "MRT-USBL".toList obs).map (mrtTimed stamp))
  if auv.isEmpty then .ok []
  else do
    let auv ← mrtKnown auv
    let ship ← mrtKnown ship
    let heading ← mrtKnown heading
    (auv.zip (closestLoop (ship.map Prod.fst) (heading.map Prod.fst) 0 0 (auv.map Prod.fst))).mapM
      (mrtRecord num inv dir su ship heading)

/-- parse_sonardyne_mrt.py L607-743 `parse_sonardyne_mrt`: `none` is what is returned if the configured file does not exist. -/
noncomputable def mrtRun (stamp : List Char → Option ℝ) (num : List Char → Res ℝ) (inv dir : ℝ → ℝ → ℝ → ℝ → ℝ × ℝ)
    (su : MrtSetup) (folder : List (List Char × List (List Char))) (configured : List Char) : Res (Option (List MrtData)) :=
  if configured ∉ folder.map Prod.fst then .ok none
  else do
    let obs ← (mrtFiles folder configured).mapM fun f => parseMrtCsv f.2
    let fixes ← mrtFixes stamp num inv dir su obs.flatten
    .ok (some fixes)

end Oplab
