import Verif.Model.TideRun

/-!
Model of the merging of the navigation files of several dives on their records: /repo/src/auv_nav/parse.py L49-97
`merge_json_files` and L128, L149-151, L170.
-/

namespace Oplab

namespace Json
variable {K : Type}

/-- `if cam in item: item[cam][0]["filename"] = dive_prefix + item[cam][0]["filename"]`. (parse.py L81-92) -/
def prefixCam (j : Json K) (cam pre : String) : Res (Json K) :=
  if j.has cam then do
    let a ← j.key cam
    let b ← a.idx 0
    let c ← b.key "filename"
    let f ← c.asStr
    .ok (j.setKey cam (a.setIdx 0 (b.setKey "filename" (.str (pre ++ f)))))
  else .ok j

end Json

/-- parse.py L80-95: one record; the time stamp is not touched. -/
def mergeRecord (pre : String) (e : Stamp × Json ℚ) : Res (Stamp × Json ℚ) := do
  let j ← e.2.prefixCam "camera1" pre
  let j ← j.prefixCam "camera2" pre
  let j ← j.prefixCam "camera3" pre
  let c ← j.key "category"
  let cat ← c.asStr
  if cat = "laser" then do
    let f ← j.key "filename"
    let f ← f.asStr
    .ok (e.1, j.setKey "filename" (.str (pre ++ f)))
  else .ok (e.1, j)

/-- parse.py L59-61: latitude and longitude of the first record of a file. -/
def originOf (j : Json ℚ) : Res (Option ℚ × Option ℚ) := do
  let lat ← j.at3 "data" 0 "latitude"
  let lon ← j.at3 "data" 0 "longitude"
  .ok (lat, lon)

/-- parse.py L54-97: the loop over the files; `origin` is the origin so far, whose latitude is `None` at first. A dive is the name of
its folder and its file. -/
def mergeFiles (origin : Option ℚ × Option ℚ) : List (String × List (Stamp × Json ℚ)) → Res (List (Stamp × Json ℚ))
  | [] => .ok []
  | (_, []) :: _ => .error .indexError
  | (name, first :: items) :: rest => do
    let o ← originOf first.2
    if origin.1 = none then do
      let out ← items.mapM (mergeRecord (name ++ "/"))
      let more ← mergeFiles o rest
      .ok (first :: out ++ more)
    else if origin.1 ≠ o.1 ∨ origin.2 ≠ o.2 then .error .quit
    else do
      let out ← items.mapM (mergeRecord (name ++ "/"))
      let more ← mergeFiles origin rest
      .ok (out ++ more)

/-- parse.py L663-783: the file of a dive, with the texts of the time stamps. -/
def diveFile (origin : Json ℚ) (results : List (List NavRecord)) : Res (List (Stamp × Json ℚ)) := do
  let l ← readEntries (compileNav origin results)
  interlace l

/-- parse.py L128, L149-151, L170: the merged file, sorted. -/
def mergedNav (dives : List (String × List (Stamp × Json ℚ))) : Res (List (Json ℚ)) := do
  let l ← mergeFiles (none, none) dives
  let out ← interlace l
  .ok (out.map Prod.snd)

/-- A dive of a merge: the name of its folder, the coordinates of its origin and what its parsers return. (parse.py L100-128) -/
structure ParsedDive where
  name : String
  origin : Json ℚ
  results : List (List NavRecord)

/-- parse.py L100-170: all dives are parsed, then merged. (That the command stops before the end is in `Model/Merge.lean`.) -/
def parseAndMerge (dives : List ParsedDive) : Res (List (Json ℚ)) := do
  let files ← dives.mapM fun d => do
    let f ← diveFile d.origin d.results
    .ok (d.name, f)
  mergedNav files

end Oplab
