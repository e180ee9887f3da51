import Verif.Model.CsvFiles
import Verif.Model.Sonardyne

/-!
# The file of the USBL fixes

Models the part of `process` (/repo/src/auv_nav/process.py) that writes `auv_usbl.csv`: its file operations and the creation of its folder,
which threads started earlier may create as well. Values are already texts (`str`).
-/

namespace Oplab

/-- A fix, its values as texts. (/repo/src/auv_nav/process.py L1728-1739) -/
structure FixTexts where
  time : Text
  north : Text
  east : Text
  depth : Text
  lat : Text
  lon : Text
  deriving DecidableEq

/-- process.py L1720-1723: the header; the text literal goes on in a second line, whose indentation is part of it. -/
def usblHeader : Text :=
  "Timestamp, Northing [m], Easting [m], Depth [m],                         Latitude [deg], Longitude [deg]\n".toList

/-- process.py L1728-1740: the line of a fix. -/
def usblLine (f : FixTexts) : Text :=
  f.time ++ [','] ++ f.north ++ [','] ++ f.east ++ [','] ++ f.depth ++ [','] ++ f.lat ++ [','] ++ f.lon ++ ['\n']

/-- process.py L1724-1743: one line after the other, each with its own opening and closing. -/
def usblRowOps {F : Type} (file : F) : List FixTexts → List (FOp F)
  | [] => []
  | f :: rest => [.openA file, .write file (usblLine f), .close file] ++ usblRowOps file rest

/-- process.py L1713-1743: all operations on the file. -/
def usblOps {F : Type} (flag : Bool) (file : F) (fixes : List FixTexts) : List (FOp F) :=
  if flag then
    if 1 < fixes.length then
      [.openW file, .write file usblHeader, .close file] ++ usblRowOps file fixes
    else []
  else []

/-- Steps on the folder of the csv files: `look` is process.py L1715 `csvpath.exists()`, `make` is L1716 `csvpath.mkdir()`, `thread` is a writer
of raw measurements (L595-638) creating it with its parents (csv_tools.py L51-56, which accepts that it exists). -/
inductive UsblDirEv where
  | look
  | make
  | thread
  deriving DecidableEq

/-- Whether the folder exists, what `look` has seen, whether `mkdir` has raised `FileExistsError`. (process.py L1715-1716) -/
structure UsblDir where
  there : Bool
  seen : Bool
  failed : Bool
  deriving DecidableEq

/-- process.py L1715-1716, csv_tools.py L51-56. -/
def UsblDir.step (s : UsblDir) : UsblDirEv → UsblDir
  | .look => { s with seen := s.there }
  | .make => if s.seen then s else if s.there then { s with failed := true } else { s with there := true }
  | .thread => { s with there := true }

/-- process.py L595-638 and L1715-1716: the main thread and `n` writers of raw measurements. -/
def usblDirThreads (n : Nat) : List (List UsblDirEv) := [.look, .make] :: List.replicate n [.thread]

end Oplab
