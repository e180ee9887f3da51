import Verif.Model.KoyoRun

/-! # The files that the conversion of a dive of the ROV of 2020 reads

Models /repo/src/auv_nav/parsers/koyo20rov.py L298-345 (`RovParser.__init__`) in front of `rovRun`. -/

namespace Oplab

/-- koyo20rov.py L322 `glob("*[!FIX].csv")`: a name that ends in `.csv`, with a character before that is not F, I or X. -/
def koyoPattern (name : List Char) : Bool :=
  match name.reverse with
  | 'v' :: 's' :: 'c' :: '.' :: c :: _ => c != 'F' && c != 'I' && c != 'X'
  | _ => false

/-- The folder of a dive: the files of `nav/ship_log` in the order of the listing with their rows, and whether the dive and the other inputs exist
(koyo20rov.py L312-344). -/
structure KoyoDive where
  dive : Bool
  shipLog : List (List Char × List (Option (ℝ × RovShip)))
  turns : Option (List (Option (ℝ × RovTurn)))
  laser : Option (List (Option RovImage))
  camera : Option (List (Option RovImage))
  vehicle : Bool
  mission : Bool

/-- koyo20rov.py L318-323: the position files. -/
def koyoShipFiles (d : KoyoDive) : List (List Char × List (Option (ℝ × RovShip))) := d.shipLog.filter fun f => koyoPattern f.1

/-- convert.py L42-50 with koyo20rov.py L298-345: the inputs must exist, then the conversion runs. -/
noncomputable def koyoConvert (c : RovSetup) (forcing : Bool) (exist : List (String × Bool)) (d : KoyoDive) : Res RovFiles :=
  if d.dive = false then .error .assertion
  else
    match d.turns, d.laser, d.camera with
    | some turns, some laser, some camera =>
      if d.vehicle && d.mission then rovRun c forcing exist ((koyoShipFiles d).map Prod.snd) turns laser camera else .error .assertion
    | _, _, _ => .error .assertion

end Oplab
