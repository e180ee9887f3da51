import Verif.Model.Basic
import Mathlib.Algebra.Order.Ring.Rat
import Mathlib.Algebra.Order.Floor.Semiring
import Mathlib.Data.Rat.Floor

/-!
# Image selection and bookkeeping of correct_images

Models parts of /repo/src/correct_images/corrector.py and tools/file_handlers.py: which images are
used, how they are paired with altitudes and depth maps, the altitude bins and their parallel
computation, the overwrite guards, and how output images are written and listed.

`stem` stands for `Path(..).stem` of pathlib and is a parameter.  A pandas table is the list of
its rows.  Messages are left out.
-/

namespace Oplab

/-! ## Image lists -/

/-- A cell of the column "altitude [m]": the text None, NaN, or a number. -/
inductive AltCell (K : Type) where
  | none
  | nan
  | val (a : K)

/-- A row of the navigation table of a camera: columns "relative_path", "altitude [m]" and
"timestamp [s]". -/
structure NavRow (K : Type) where
  path : String
  alt : AltCell K
  stamp : K

/-- What the image list refers to: a file below the raw folder, or a time stamp in a bag file. -/
inductive ImgRef (K : Type) where
  | file (path : String)
  | stamp (t : K)

/-- What `get_imagelist` reads for a dive. `userList` is `none` for the configured text "none", otherwise the
lines of the file; `onDisk` tells which relative paths exist below the raw folder; `cameraImages` is the list of
images found in the camera's folder. -/
structure ImgDive (K : Type) where
  bag : Bool
  rows : List (NavRow K)
  userList : Option (List String)
  onDisk : String → Bool
  altMin : K
  altMax : K
  cameraImages : List String

/-- `camera_image_list` and `altitude_list`. -/
structure ImgSel (K : Type) where
  images : List (ImgRef K)
  alts : List K

/-- file_handlers.py L29-52 `trim_csv_files`, with L55-66 `get_imagename_list`: the stems of the user's lines,
the paths whose stem is among them, and the rows whose path is among those paths. -/
def trimRows {K : Type} (stem : String → String) (lines : List String) (rows : List (NavRow K)) : List (NavRow K) :=
  let names := lines.map stem
  let trimmed := (rows.map (·.path)).filter fun p => names.contains (stem p)
  rows.filter fun r => trimmed.contains r.path

/-- corrector.py L635-644: one row of the loop that fills the two lists. -/
def selectRow {K : Type} [LT K] [DecidableLT K] (d : ImgDive K) (s : ImgSel K) (r : NavRow K) : ImgSel K :=
  match r.alt with
  | .val a =>
    if d.altMin < a ∧ a < d.altMax then
      ⟨s.images ++ [if d.bag then .stamp r.stamp else .file r.path], s.alts ++ [a]⟩
    else s
  | _ => s

/-- corrector.py L626-633: the altitude cell does not contain the text None. -/
def AltCell.notNone {K : Type} : AltCell K → Bool
  | .none => false
  | _ => true

/-- corrector.py L585-602: the rows left after the user's list is applied. -/
def listedRows {K : Type} (stem : String → String) (d : ImgDive K) : Res (List (NavRow K)) :=
  match d.userList with
  | none => .ok d.rows
  | some lines =>
    let t := trimRows stem lines d.rows
    if t.isEmpty then .error .quit else .ok t

/-- corrector.py L604-624: rows whose image exists (all rows for bag files). -/
def existingRows {K : Type} (d : ImgDive K) (rows : List (NavRow K)) : Res (List (NavRow K)) :=
  let v := rows.filter fun r => d.bag || d.onDisk r.path
  if v.isEmpty then .error .quit else .ok v

/-- corrector.py L519-666: the branch of `get_imagelist` for colour correction and for bag files. The choice of the
navigation file is left out: `rows` is its content. -/
def selectImages {K : Type} [LT K] [DecidableLT K] (stem : String → String) (d : ImgDive K) : Res (ImgSel K) :=
  if d.rows.isEmpty then .error .quit
  else do
    let rows ← listedRows stem d
    let rows ← existingRows d rows
    let rows := rows.filter (·.alt.notNone)
    let sel := rows.foldl (selectRow d) ⟨[], []⟩
    if rows.isEmpty then .error .quit else .ok sel

/-- corrector.py L508-679 `get_imagelist` as called once by `process`: with manual balance and no bag files the
images of the camera's folder, without altitudes (L667-669). -/
def processImages {K : Type} [LT K] [DecidableLT K] (stem : String → String) (colour : Bool) (d : ImgDive K) :
    Res (ImgSel K) :=
  if colour || d.bag then selectImages stem d
  else .ok ⟨d.cameraImages.map .file, []⟩

/-- corrector.py L508-516 and L519-666: `get_imagelist` with the lists of the dives before. The lists are emptied
first; they would be joined again only in the branch for manual balance (L671-679). -/
def nextDive {K : Type} [LT K] [DecidableLT K] (stem : String → String) (_before : ImgSel K) (d : ImgDive K) :
    Res (ImgSel K) := selectImages stem d

/-- The loop over the dives, corrector.py L285-300. -/
def diveLoop {K : Type} [LT K] [DecidableLT K] (stem : String → String) : ImgSel K → List (ImgDive K) → Res (ImgSel K)
  | s, [] => .ok s
  | s, d :: ds => do
    let s ← nextDive stem s d
    diveLoop stem s ds

/-- corrector.py L279-309 `parse` for colour correction up to the computation: the images used for the attenuation
parameters. -/
def parseImages {K : Type} [LT K] [DecidableLT K] (stem : String → String) (dives : List (ImgDive K)) :
    Res (ImgSel K) := do
  let s ← diveLoop stem ⟨[], []⟩ dives
  if s.alts.length < 3 then .error .quit else .ok s

/-! ## Depth maps -/

/-- corrector.py L699-706: the loop that collects depth maps and indices to drop. -/
def depthScan {I P : Type} (mapOf : I → P) (found : P → Bool) : ℕ → List I → List P × List ℕ
  | _, [] => ([], [])
  | k, im :: ims =>
    let r := depthScan mapOf found (k + 1) ims
    if found (mapOf im) then (mapOf im :: r.1, r.2) else (r.1, k :: r.2)

/-- corrector.py L721-722: delete at the given indices, the largest first. -/
def dropAll {I : Type} (images : List I) (idxs : List ℕ) : List I :=
  (idxs.reverse).foldl (fun l k => l.eraseIdx k) images

/-- corrector.py L681-726 `get_altitude_and_depth_maps` for the depth_map metric with an existing folder: the lists
of images and depth maps afterwards. The indices are in increasing order, so sorting in reverse is reversing. -/
def depthMaps {I P : Type} (mapOf : I → P) (found : P → Bool) (images : List I) : Res (List I × List P) :=
  let (maps, drop) := depthScan mapOf found 0 images
  if 0 < drop.length ∧ drop.length = images.length then .error .quit
  else
    let left := dropAll images drop
    if left.length = maps.length then .ok (left, maps) else .error .assertion

/-! ## Altitude bins -/

section Bins
variable {K : Type} [Field K] [LinearOrder K] [FloorSemiring K]

/-- corrector.py L776-781: number of edges `np.arange(min, max + 0.5 * 0.1, 0.1)` has (real arithmetic). -/
def edgeCount (altMin altMax : K) : ℕ := ⌈(altMax + 1 / 20 - altMin) / (1 / 10)⌉₊

/-- corrector.py L776-781: the edges of the bins. -/
def histBins (altMin altMax : K) : List K :=
  (List.range (edgeCount altMin altMax)).map fun (k : ℕ) => altMin + (k : K) * (1 / 10)

/-- `np.digitize(x, bins)` for increasing bins: the number of edges not above `x`. (corrector.py L806) -/
def digitize (bins : List K) (x : K) : ℕ := (bins.filter fun e => e ≤ x).length

/-- corrector.py L806: `np.digitize(..) - 1`. -/
def binOf (bins : List K) (x : K) : ℤ := (digitize bins x : ℤ) - 1

/-- corrector.py L1127: the positions of the images in a bin. -/
def inBin (bins : List K) (alts : List K) (k : ℕ) : List ℕ :=
  (List.range alts.length).filter fun i => decide ((alts[i]?.map (binOf bins)) = some (k : ℤ))

end Bins

/-- A write of one of the parallel tasks to its row of `images_map` or `distances_map`. -/
inductive BinWrite (R : Type) where
  | image (k : ℕ) (row : R)
  | distance (k : ℕ) (row : R)

/-- The two tables shared by the tasks. -/
structure BinMaps (R : Type) where
  images : ℕ → R
  distances : ℕ → R

/-- The effect of a write. (corrector.py L1116-1235) -/
def BinMaps.write {R : Type} (m : BinMaps R) : BinWrite R → BinMaps R
  | .image k r => { m with images := fun j => if j = k then r else m.images j }
  | .distance k r => { m with distances := fun j => if j = k then r else m.distances j }

/-- corrector.py L1116-1235 `compute_distance_bin`: nothing for fewer than ten images, otherwise one write to each
table. `imageOf` and `distanceOf` are the averages of the images and of the distances at the given positions
(including the random choice for bins that are too large). -/
def binTask {R : Type} (imageOf distanceOf : ℕ → R) (members : ℕ → List ℕ) (k : ℕ) : List (BinWrite R) :=
  if 10 ≤ (members k).length then [.image k (imageOf k), .distance k (distanceOf k)] else []

/-- corrector.py L850-863: all writes of the tasks for the bins 0 to `n - 1`. -/
def binWrites {R : Type} (imageOf distanceOf : ℕ → R) (members : ℕ → List ℕ) (n : ℕ) : List (BinWrite R) :=
  (List.range n).flatMap (binTask imageOf distanceOf members)

/-! ## Overwrite guards -/

/-- A file system: contents by folder and name. The newest entry counts. -/
abbrev CorrFs (C : Type) := List ((String × List Char) × C)

/-- Content of a file. (the files looked at by corrector.py L456-488) -/
def CorrFs.content {C : Type} (fs : CorrFs C) (folder : String) (name : List Char) : Option C :=
  List.lookup (folder, name) fs

/-- Names of the files in a folder. (corrector.py L460 and L477) -/
def CorrFs.names {C : Type} (fs : CorrFs C) (folder : String) : List (List Char) :=
  (fs.filter fun e => e.1.1 = folder).map fun e => e.1.2

/-- `glob("*.npy")`. (corrector.py L460) -/
def isNpy (name : List Char) : Bool := ['.', 'n', 'p', 'y'].isSuffixOf name

/-- `glob("*.*")`. (corrector.py L477) -/
def hasDot (name : List Char) : Bool := name.contains '.'

/-- corrector.py L456-488: the guard of `create_output_directories` for the folder of the mode. A missing folder is
an empty one; its creation is left out. -/
def correctGuard {C : Type} (parse force : Bool) (fs : CorrFs C) (folder : String) : Res Unit :=
  let files := (fs.names folder).filter (if parse then isNpy else hasDot)
  if 0 < files.length ∧ force = false then .error .quit else .ok ()

/-- Writing files to a folder. (the files written after the guard of corrector.py L456-488) -/
def CorrFs.writeAll {C : Type} (fs : CorrFs C) (folder : String) (files : List (List Char × C)) : CorrFs C :=
  files.foldl (fun fs f => ((folder, f.1), f.2) :: fs) fs

/-- The guards of all dives, corrector.py L285-295 (`load_configuration` calls the guard). -/
def guardAll {C : Type} (force : Bool) (fs : CorrFs C) : List String → Res Unit
  | [] => .ok ()
  | f :: rest => do
    correctGuard true force fs f
    guardAll force fs rest

/-- corrector.py L279-339 `parse`: guards for the parameter folders of all dives, then the files of the last one are
written and those named in `copied` are copied to the others (L324-337). The state after the run, whether or not it
ends early, and its outcome. -/
def parseRun {C : Type} (force : Bool) (fs : CorrFs C) (others : List String) (last : String)
    (files copied : List (List Char × C)) : CorrFs C × Res Unit :=
  match guardAll force fs (others ++ [last]) with
  | .error e => (fs, .error e)
  | .ok () => (others.foldl (fun fs o => fs.writeAll o copied) (fs.writeAll last files), .ok ())

/-- corrector.py L341-410 `process` for a camera: guard, then the corrected images are written to the folder. -/
def processRun {C : Type} (force : Bool) (fs : CorrFs C) (folder : String) (files : List (List Char × C)) :
    CorrFs C × Res Unit :=
  match correctGuard false force fs folder with
  | .error e => (fs, .error e)
  | .ok () => (fs.writeAll folder files, .ok ())

/-! ## Output images -/

/-- What happens in one attempt to write an image. -/
inductive WriteTry where
  | writeRaises
  | readRaises
  | good
  deriving DecidableEq

/-- file_handlers.py L137-148: the loop, with the number of failed attempts so far. Attempts after the last one
given do not happen. The result is the number of writes and the value of `i`, or the exception of `imwrite`. -/
def writeLoop (attempt : ℕ → WriteTry) : ℕ → ℕ → ℕ → Res (ℕ × ℕ)
  | 0, writes, i => .ok (writes, i)
  | fuel + 1, writes, i =>
    match attempt writes with
    | .writeRaises => .error .valueError
    | .good => .ok (writes + 1, i)
    | .readRaises => writeLoop attempt fuel (writes + 1) (i + 1)

/-- What `write_output_image` does at the end. -/
inductive WriteEnd where
  | silent
  | reportedFailure
  deriving DecidableEq

/-- file_handlers.py L116-159 `write_output_image`: number of writes and how it ends. `Console` has no method
`warning` (console.py), so the message after a success with retries raises AttributeError. -/
def writeOutput (attempt : ℕ → WriteTry) : Res (ℕ × WriteEnd) := do
  let (writes, i) ← writeLoop attempt 5 0 0
  if 5 ≤ i then .ok (writes, .reportedFailure)
  else if 0 < i then .error .attributeError
  else .ok (writes, .silent)

/-- corrector.py L1273-1305: `filelist.csv`. `nav` is the navigation table, absent when `altitude_csv_path` is still
None (manual balance without bag files): reading it raises ValueError. `processed` holds the path returned for every
image, None if there is none; then the columns differ in length and the table cannot be made. A row is kept with the
path of the first processed image of the same stem (the code keeps its last component). The column raw_relative_path
is left out. -/
def correctedList {K : Type} (stem : String → String) (nav : Option (List (NavRow K))) (processed : List (Option String)) :
    Res (List (NavRow K × String)) :=
  let names := processed.filterMap (·.map stem)
  if names.length ≠ processed.length then .error .valueError
  else
    match nav with
    | none => .error .valueError
    | some rows =>
      let table := processed.filterMap (·.map fun p => (stem p, p))
      .ok (rows.filterMap fun r => (table.lookup (stem r.path)).map fun p => (r, p))

/-! ## Clock offset of bag cameras -/

/-- mission.py L40-71: the numerical attributes an `ImageEntry` object has after loading. -/
def imageAttributes (timezone timeoffset : ℚ) : List (String × ℚ) :=
  [("timezone", timezone), ("offset_s", timezone * 60 * 60 + timeoffset), ("timeoffset_s", timeoffset),
    ("timezone_s", timezone * 60 * 60)]

/-- Attribute access. (corrector.py L271-275) -/
def getAttribute (o : List (String × ℚ)) (name : String) : Res ℚ :=
  match o.lookup name with
  | some v => .ok v
  | none => .error .attributeError

/-- corrector.py L271-275: the offset image correction uses. After loading, the time zone is a number, which
`read_timezone` returns unchanged. -/
def correctOffset (timezone timeoffset : ℚ) : Res ℚ := do
  let o := imageAttributes timezone timeoffset
  let tz ← getAttribute o "timezone"
  let dt ← getAttribute o "timeoffset"
  .ok (tz * 60 + dt)

/-- parse_rosbag.py L167-169: the offset navigation uses. -/
def navOffset (timezone timeoffset : ℚ) : Res ℚ := do
  let o := imageAttributes timezone timeoffset
  let tz ← getAttribute o "timezone"
  let dt ← getAttribute o "offset_s"
  .ok (tz * 60 + dt)

end Oplab
