import Verif.Model.Parsers
import Verif.Model.Interpolate

/-! `auv_nav parse`: image stamps across dives, tide correction, merging of dives, the output guard. -/

namespace Oplab

/-! ## Image stamps across dives -/

section Dives
variable {K : Type} [Field K] [LinearOrder K]

/-- The images of a dive: file name and time read from it, for both cameras. -/
structure DiveImages (K : Type) where
  cam1 : List (String × K)
  cam2 : List (String × K)

/-- An image record of the output: time and name of the first and second image. -/
structure ImageRecord (K : Type) where
  t1 : K
  name1 : String
  t2 : K
  name2 : String
  deriving DecidableEq

/-- /repo/src/auv_nav/parsers/parse_acfr_images.py L19-20: module-level lists, created when the module is
imported and never emptied (parse_biocam_images.py L23-26 and parse_ntnu_stereo.py L17-18 have the same shape). -/
structure StampLists (K : Type) where
  cam1 : List K := []
  cam2 : List K := []

/-- parse_acfr_images.py L85-165 `parse_acfr_images` (oplab format): the stamps of the dive are appended to the
module-level lists, which are then indexed from 0. Folder listing and number formatting not modelled. -/
def parseAcfrImages (tol : K) (st : StampLists K) (d : DiveImages K) : StampLists K × Res (List (ImageRecord K)) :=
  let files2 := if d.cam2 = [] then d.cam1 else d.cam2
  let st' : StampLists K := ⟨st.cam1 ++ d.cam1.map Prod.snd, st.cam2 ++ files2.map Prod.snd⟩
  let left := st'.cam1.take d.cam1.length
  let right := st'.cam2.take files2.length
  (st', do
    let pairs ← acfrPairs tol left right
    .ok (pairs.filterMap fun p =>
      match left[p.1]?, d.cam1[p.1]?, right[p.2]?, files2[p.2]? with
      | some t1, some f1, some t2, some f2 => some ⟨t1, f1.1, t2, f2.1⟩
      | _, _, _, _ => none))

/-- /repo/src/auv_nav/parse.py L100-104 `parse`: the dives one after the other in one process. -/
def parseDives (tol : K) (st : StampLists K) : List (DiveImages K) → List (Res (List (ImageRecord K)))
  | [] => []
  | d :: ds => (parseAcfrImages tol st d).2 :: parseDives tol (parseAcfrImages tol st d).1 ds

end Dives

/-! ## Tide correction -/

section Tide
variable {K : Type} [Field K] [LinearOrder K]

/-- A sample: time and value (tide height, or measured depth). -/
structure TSample (K : Type) where
  t : K
  v : K
  deriving DecidableEq

/-- parse.py L714-719: `while j < len(tide)-2 and tide[j].t < t: j += 1`; `fuel` bounds the steps by the length. -/
def tideSeek (tide : List (TSample K)) (t : K) : Nat → Nat → Nat
  | 0, j => j
  | fuel + 1, j =>
    if j + 2 < tide.length then
      match tide[j]? with
      | some s => if s.t < t then tideSeek tide t fuel (j + 1) else j
      | none => j
    else j

/-- parse.py L721-743: the corrected value once `j` has been advanced. -/
def tideApply (tide : List (TSample K)) (j : Nat) (r : TSample K) : Res (TSample K) :=
  if j = 0 then .ok r
  else match tide[j - 1]?, tide[j]? with
    | some a, some b => if r.t ≤ b.t then .ok ⟨r.t, r.v - interpolate r.t a.t b.t a.v b.v⟩ else .ok r
    | _, _ => .error .indexError

/-- parse.py L712-743: the loop over the depth (or USBL depth) results, `j` carried along. -/
def tideCorrect (tide : List (TSample K)) (j : Nat) : List (TSample K) → Res (List (TSample K))
  | [] => .ok []
  | r :: rs => do
    let j' := tideSeek tide r.t tide.length j
    let r' ← tideApply tide j' r
    let rest ← tideCorrect tide j' rs
    .ok (r' :: rest)

end Tide

/-! ## Merging dives -/

/-- An entry of `nav_standard.json` as far as merging looks at it; `body` stands for everything else. -/
structure NavItem where
  category : String
  camera1 : Option String
  camera2 : Option String
  camera3 : Option String
  filename : Option String
  body : String
  deriving DecidableEq

/-- The JSON file of a dive: the name of the dive folder, its origin entry and the other entries. -/
structure DiveJson (K : Type) where
  name : String
  lat : K
  lon : K
  items : List NavItem

/-- parse.py L81-96: the new file names of an entry. -/
def mergeItem (pre : String) (i : NavItem) : Res NavItem :=
  let i := { i with camera1 := i.camera1.map (pre ++ ·) }
  let i := { i with camera2 := i.camera2.map (pre ++ ·) }
  let i := { i with camera3 := i.camera3.map (pre ++ ·) }
  if i.category = "laser" then
    match i.filename with
    | none => .error .keyError
    | some f => .ok { i with filename := some (pre ++ f) }
  else .ok i

/-- parse.py L54-97: the loop over the files; `origin` is the origin seen first, if any. -/
def mergeLoop {K} [DecidableEq K] (origin : Option (K × K)) : List (DiveJson K) → Res (List ((K × K) ⊕ NavItem))
  | [] => .ok []
  | d :: ds => do
    let head ← match origin with
      | none => .ok [Sum.inl (d.lat, d.lon)]
      | some o => if o.1 ≠ d.lat ∨ o.2 ≠ d.lon then .error .quit else .ok []
    let items ← d.items.mapM (mergeItem (d.name ++ "/"))
    let rest ← mergeLoop (some (origin.getD (d.lat, d.lon))) ds
    .ok (head ++ items.map Sum.inr ++ rest)

/-- parse.py L49-97 `merge_json_files`. A file without origin entry (IndexError) is not represented. -/
def mergeJsonFiles {K} [DecidableEq K] (ds : List (DiveJson K)) : Res (List ((K × K) ⊕ NavItem)) := mergeLoop none ds

/-! ## The output guard -/

/-- A path as its components; a file system as the list of existing paths. -/
abbrev Path' := List String
abbrev Fs := List Path'

/-- All ancestors of a path and the path itself (`mkdir(parents=True)`). (parse.py L216-233) -/
def withParents (p : Path') : Fs := p.inits

/-- parse.py L789-812 `check_output_files_exist`: `camera_file` is the folder itself. -/
def outputFilesExist (fs : Fs) (dir : Path') : Bool :=
  dir ++ ["mission.yaml"] ∈ fs ∨ dir ++ ["vehicle.yaml"] ∈ fs ∨ dir ∈ fs ∨
  dir ++ ["nav", "nav_standard.json"] ∈ fs ∨ dir ++ ["nav", "json_data_info.html"] ∈ fs ∨
  dir ++ ["nav", "timestamp_history.html"] ∈ fs

/-- parse.py L179-197 `parse_single`: whether the dive is skipped. -/
def parseSkips (fs : Fs) (force : Bool) (dir : Path') : Bool :=
  if force = false then outputFilesExist fs dir else false

/-- The paths a completed `parse_single` has created (L216-221, L224-233, L771-774). -/
def parseWrites (dir : Path') : Fs :=
  withParents (dir ++ ["log"]) ++ withParents (dir ++ ["nav", "nav_standard.json"])

/-- parse.py L100-104: skip decisions of the dives in turn. -/
def parseAll (fs : Fs) (force : Bool) : List Path' → List Bool
  | [] => []
  | d :: ds =>
    let s := parseSkips fs force d
    s :: parseAll (if s then fs else fs ++ parseWrites d) force ds

/-- parse.py L100-104: the paths that exist after the dives have been dealt with in turn. -/
def parseFs (fs : Fs) (force : Bool) : List Path' → Fs
  | [] => fs
  | d :: ds => parseFs (if parseSkips fs force d then fs else fs ++ parseWrites d) force ds

/-- /repo/src/auv_nav/auv_nav.py L299-305 `call_parse_data` with /repo/src/oplab/console.py L278-283: the log folder
of the first dive is created, then the dives are parsed. -/
def callParse (fs : Fs) (force : Bool) (dirs : List Path') : List Bool :=
  match dirs with
  | [] => []
  | d :: _ => parseAll (fs ++ withParents (d ++ ["log"])) force dirs

end Oplab
