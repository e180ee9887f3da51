import Verif.Model.Time
import Verif.Model.Parse

/-! # `auv_nav parse --merge`

`/repo/src/auv_nav/parse.py` L100-175 with the files `parse_single` leaves behind. Files are contents by path; folders are created as needed. -/

namespace Oplab

/-- Contents of the files. (parse.py L100-175) -/
abbrev FileStore := Path' → Option String

/-- Writing a file. (parse.py L149-151, L772-774) -/
def FileStore.put (fs : FileStore) (p : Path') (s : String) : FileStore := fun q => if q = p then some s else fs q

/-- How a command ends. (parse.py L100-175) -/
inductive RunEnd
  | done
  | noFile (p : Path')
  | failed (e : Err)
  deriving DecidableEq

/-- folder_structure.py L138-144 `copy`: `shutil.copyfile` needs the source. -/
def copyFile (fs : FileStore) (src dst : Path') : FileStore × RunEnd :=
  match fs src with
  | some s => (fs.put dst s, .done)
  | none => (fs, .noFile src)

/-- Copies in turn. (parse.py L155-165, L219-221) -/
def copyFiles (fs : FileStore) : List (Path' × Path') → FileStore × RunEnd
  | [] => (fs, .done)
  | (a, b) :: l =>
    match copyFile fs a b with
    | (fs', .done) => copyFiles fs' l
    | r => r

/-- A dive: the name of its folder, its raw and its processed folder. (parse.py L115-128) -/
structure MergeDive where
  name : List Char
  raw : Path'
  processed : Path'

/-- The three settings files. (parse.py L203-205, L155-160) -/
def settingsFiles : List String := ["mission.yaml", "vehicle.yaml", "camera.yaml"]

/-- parse.py L201-233, L771-774 `parse_single` of a dive that is not skipped: the settings are copied to the log folder, then the navigation, here `nav`, is
written and sorted. `Mission` and `Vehicle` need their files (L210, L213). -/
def parseDive (time nav : String) (fs : FileStore) (d : MergeDive) : FileStore × RunEnd :=
  match copyFiles fs (settingsFiles.map fun f => (d.raw ++ [f], d.processed ++ ["log", time ++ "_" ++ f])) with
  | (fs', .done) => (fs'.put (d.processed ++ ["nav", "nav_standard.json"]) nav, .done)
  | r => r

/-- parse.py L100-104: the dives in turn, each with its navigation. -/
def parseDiveFiles (time : String) (fs : FileStore) : List (MergeDive × String) → FileStore × RunEnd
  | [] => (fs, .done)
  | (d, nav) :: l =>
    match parseDive time nav fs d with
    | (fs', .done) => parseDiveFiles time fs' l
    | r => r

/-- parse.py L116-123: the date in the name of a folder, as in 20170817_041459_ts_un6k. -/
def diveDate (name : List Char) : Res DateTime := do
  let y ← pyInt (slice name 0 4)
  let mo ← pyInt (slice name 4 6)
  let d ← pyInt (slice name 6 8)
  let h ← pyInt (slice name 9 11)
  let mi ← pyInt (slice name 11 13)
  let s ← pyInt (slice name 13 15)
  let c : DateTime := ⟨y, mo, d, h, mi, s, 0⟩
  if c.ok then .ok c else .error .valueError

/-- `strftime("%Y%m%d%H%M%S")`, for years of four digits. (parse.py L135-137) -/
def stampText (c : DateTime) : List Char :=
  padDigits 4 c.year ++ padDigits 2 c.month ++ padDigits 2 c.day ++ padDigits 2 c.hour ++ padDigits 2 c.minute ++ padDigits 2 c.second

/-- parse.py L133-139: the first of the sorted dates. -/
def earliest : DateTime → List DateTime → DateTime
  | c, [] => c
  | c, d :: l => earliest (if d.seconds < c.seconds then d else c) l

/-- parse.py L133-139: the last of the sorted dates. -/
def latest : DateTime → List DateTime → DateTime
  | c, [] => c
  | c, d :: l => latest (if c.seconds < d.seconds then d else c) l

/-- parse.py L134-140: the name of the folder of the merged dives. -/
def mergedName : List DateTime → List Char
  | [] => []
  | c :: l => stampText (earliest c l) ++ ['_'] ++ stampText (latest c l) ++ ['_', 'm', 'e', 'r', 'g', 'e', 'd']

/-- The first of the files that is missing; otherwise their contents. (parse.py L54-57) -/
def readFiles (fs : FileStore) : List Path' → Path' ⊕ List String
  | [] => .inr []
  | p :: l =>
    match fs p, readFiles fs l with
    | none, _ => .inl p
    | some _, .inl q => .inl q
    | some s, .inr r => .inr (s :: r)

/-- parse.py L106-172, after the dives have been parsed: `merge` is `merge_json_files` on the contents of the files (a missing file is taken to be noticed before
the origins are compared), `interlace` the sorting of a file, which is written again. -/
def mergeDives (merge : List String → Res String) (interlace : String → String) (fs : FileStore) (dives : List MergeDive) : FileStore × RunEnd :=
  match dives with
  | [] => (fs, .done)
  | [_] => (fs, .done)
  | first :: _ =>
    match dives.mapM fun d => diveDate d.name with
    | .error e => (fs, .failed e)
    | .ok dates =>
      match readFiles fs (dives.map fun d => d.processed ++ ["nav", "nav_standard.json"]) with
      | .inl p => (fs, .noFile p)
      | .inr contents =>
        match merge contents with
        | .error e => (fs, .failed e)
        | .ok merged =>
          let out := first.processed.dropLast ++ [String.ofList (mergedName dates)]
          let nav := out ++ ["nav", "nav_standard.json"]
          match copyFiles (fs.put nav merged) (settingsFiles.map fun f => (first.processed ++ [f], out ++ [f])) with
          | (fs', .done) => (fs'.put nav (interlace merged), .done)
          | r => r

/-- parse.py L100-175 `parse` with `merge`. -/
def parseMerge (time : String) (merge : List String → Res String) (interlace : String → String) (fs : FileStore) (dives : List (MergeDive × String)) :
    FileStore × RunEnd :=
  match parseDiveFiles time fs dives with
  | (fs', .done) => mergeDives merge interlace fs' (dives.map Prod.fst)
  | r => r

end Oplab
