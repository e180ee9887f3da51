import Verif.Model.Basic

/-! # Which navigation the other programs use

Models the choice of the file with the positions of a camera in /repo/src/correct_images/corrector.py L540-575, and the choices of
/repo/src/auv_nav/convert.py L234-245, /repo/src/correct_images/corrections/rescale.py L164-169 and /repo/src/scripts/merge_dataset_csv.py L8-21. -/

namespace Oplab

/-- The processed folder of a dive: its entries in the order of the listing; which of them have a folder `csv/ekf`; and the cameras with a table in
`csv/ekf` and `csv/dead_reckoning` of each (/repo/src/correct_images/corrector.py L545-575). -/
structure NavDir where
  listing : List (List Char)
  ekfFolder : List Char → Bool
  ekf : List Char → String → Bool
  dr : List Char → String → Bool

/-- A table with the positions of a camera: the folder, whether it is of the filter (else of dead reckoning), and the camera
(/repo/src/correct_images/corrector.py L561-567). -/
structure NavTable where
  folder : List Char
  filter : Bool
  camera : String
  deriving DecidableEq

/-- `glob("json_*")` (/repo/src/correct_images/corrector.py L546, /repo/src/auv_nav/convert.py L235). -/
def jsonNamed (name : List Char) : Bool := ['j', 's', 'o', 'n', '_'].isPrefixOf name

/-- `glob("json_renav_*")` (/repo/src/scripts/merge_dataset_csv.py L12). -/
def renavNamed (name : List Char) : Bool := ['j', 's', 'o', 'n', '_', 'r', 'e', 'n', 'a', 'v', '_'].isPrefixOf name

/-- corrector.py L540-559: `none` stands for the configured text `json_renav_*`, the default; then the first entry of the listing is taken. -/
def navFolder (d : NavDir) : Option (List Char) → Res (List Char)
  | some name => .ok name
  | none =>
    match d.listing.filter jsonNamed with
    | [] => .error .quit
    | f :: _ => .ok f

/-- corrector.py L560-575: the table of the filter if there is a folder for it, else that of dead reckoning; the program ends if it does not exist. -/
def navTable (d : NavDir) (configured : Option (List Char)) (camera : String) : Res NavTable := do
  let f ← navFolder d configured
  if d.ekfFolder f then
    if d.ekf f camera then .ok ⟨f, true, camera⟩ else .error .quit
  else if d.dr f camera then .ok ⟨f, false, camera⟩
  else .error .quit

/-- corrector.py L198: `load_configuration` sets `self.distance_path` to what is configured, whatever it was. -/
def loadPath (_before configured : Option (List Char)) : Option (List Char) := configured

/-- corrector.py L285-300 with L198 and L557: the loop over the dives. `path` is `self.distance_path`, which the choice overwrites and
`load_configuration` sets again for each dive. -/
def navDives (camera : String) (path : Option (List Char)) : List (NavDir × Option (List Char)) → Res (List NavTable)
  | [] => .ok []
  | (d, configured) :: rest => do
    let f ← navFolder d (loadPath path configured)
    let t ← navTable d (some f) camera
    let ts ← navDives camera (some f) rest
    .ok (t :: ts)

/-- convert.py L234-245 and L267-283: the tables that the conversion to the ACFR format reads, for a camera. -/
def acfrTable (d : NavDir) (camera : String) : Res NavTable :=
  match d.listing.filter jsonNamed with
  | [] => .error .quit
  | f :: _ => if d.ekf f camera then .ok ⟨f, true, camera⟩ else .error .valueError

/-- rescale.py L164-169 and L191: the table that rescaling reads; the name of the folder is used as configured. -/
def rescaleTable (d : NavDir) (configured : List Char) (camera : String) : Res NavTable :=
  if d.ekf configured camera then .ok ⟨configured, true, camera⟩ else .error .valueError

/-- merge_dataset_csv.py L8-21 `find_navigation_csv`. -/
def mergeTable (d : NavDir) (camera : String) : Res NavTable :=
  match d.listing.filter renavNamed with
  | [] => .error .quit
  | f :: _ => if d.ekf f camera then .ok ⟨f, true, camera⟩ else .error .quit

end Oplab
