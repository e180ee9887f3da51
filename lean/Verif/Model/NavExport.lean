import Verif.Model.Basic
import Mathlib.Data.Rat.Floor
import Mathlib.Data.List.Sort

/-!
Model of /repo/src/scripts/simplify_nav_file.py and /repo/src/scripts/generate_nav_file_for_squidle.py: navigation
files reduced to the images of a folder.  A navigation file is a list of rows with cells for the names of columns.
`stem` and `base` are `Path(x).stem` and `Path(x).name`.  Pandas may order rows with the same time in any way; here they
keep their order.
-/

namespace Oplab

/-- A row of a navigation file: the image, the number in the column of times, and the text of all columns.
(simplify_nav_file.py L58, generate_nav_file_for_squidle.py L48) -/
structure ExportRow (K : Type) where
  path : String
  time : K
  cells : String → String

/-- A navigation file: names of its columns and rows. -/
structure ExportNav (K : Type) where
  columns : List String
  rows : List (ExportRow K)

/-- The ways in which the scripts end: with a message, or with a file written. -/
inductive ExportEnd where
  | bothOptions | outputExists | noNavFile | emptyNavFile | bothKinds | noImages | noneInFolder
  | written (header : List String) (rows : List (List String))

/-- `sort_values(by="timestamp [s]")`. (simplify_nav_file.py L113-115, generate_nav_file_for_squidle.py L81-83) -/
def sortByTime {K : Type} [LinearOrder K] {α : Type} (l : List (ExportRow K × α)) : List (ExportRow K × α) :=
  l.mergeSort fun a b => decide (a.1.time ≤ b.1.time)

/-- simplify_nav_file.py L118-149: the columns of the output. -/
def simpleColumns (short long : Bool) : List String :=
  if short then ["filename", "latitude [deg]", "longitude [deg]"]
  else if long then ["filename", "timestamp [s]", "latitude [deg]", "longitude [deg]", "depth [m]", "altitude [m]",
    "roll [deg]", "pitch [deg]", "heading [deg]", "northing [m]", "easting [m]"]
  else ["filename", "timestamp [s]", "latitude [deg]", "longitude [deg]", "depth [m]", "altitude [m]",
    "roll [deg]", "pitch [deg]", "heading [deg]"]

/-- `Path(folder).glob("*" + ext)` for a name. (simplify_nav_file.py L70, L73, L85) -/
def endsIn (f ext : String) : Bool := ext.toList.isSuffixOf f.toList

/-- simplify_nav_file.py L69-81, generate_nav_file_for_squidle.py L58-73: the ending of the images of a folder; `files` are the names in it. -/
def folderKind (files : List String) : Except ExportEnd String :=
  let png := files.any fun f => endsIn f ".png"
  let jpg := files.any fun f => endsIn f ".jpg"
  if png && jpg then .error .bothKinds
  else if jpg then .ok ".jpg"
  else if png then .ok ".png"
  else .error .noImages

/-- simplify_nav_file.py L43-155 `simplify_nav_file`. A column that is missing is a `KeyError`; the bounding box that is
printed is not modelled. -/
def simplifyNav {K : Type} [LinearOrder K] (stem base : String → String) (short long force outputExists : Bool)
    (nav : Option (ExportNav K)) (folder : Option (List String)) : Res ExportEnd :=
  if short && long then .ok .bothOptions
  else if outputExists && !force then .ok .outputExists
  else match nav with
    | none => .ok .noNavFile
    | some n =>
      if n.rows = [] then .ok .emptyNavFile
      else
        let finish := fun (l : List (ExportRow K × String)) =>
          let cols := simpleColumns short long
          if "timestamp [s]" ∉ n.columns ∨ ∃ c ∈ cols, c ≠ "filename" ∧ c ∉ n.columns then (.error .keyError : Res ExportEnd)
          else .ok (.written cols ((sortByTime l).map fun q => cols.map fun c => if c = "filename" then q.2 else q.1.cells c))
        match folder with
        | none =>
          if "relative_path" ∉ n.columns then .error .keyError
          else finish (n.rows.map fun r => (r, base r.path))
        | some files =>
          match folderKind files with
          | .error e => .ok e
          | .ok ext =>
            if "relative_path" ∉ n.columns then .error .keyError
            else
              let images := files.filter fun f => endsIn f ext
              let l := (n.rows.map fun r => (r, stem r.path ++ ext)).filter fun q => decide (q.2 ∈ images)
              if l = [] then .ok .noneInFolder else finish l

/-- generate_nav_file_for_squidle.py L95-107: names of columns of a navigation file and of a file for Squidle. -/
def squidleNames : List (String × String) :=
  [("pose.lat", "latitude [deg]"), ("pose.lon", "longitude [deg]"), ("pose.dep", "depth [m]"), ("pose.alt", "altitude [m]"),
   ("pose.data.northing_m", "northing [m]"), ("pose.data.easting_m", "easting [m]"), ("pose.data.roll", "roll [deg]"),
   ("pose.data.pitch", "pitch [deg]"), ("pose.data.heading", "heading [deg]")]

/-- generate_nav_file_for_squidle.py L114-126. -/
def squidleColumns : List String :=
  ["key", "pose.lat", "pose.lon", "pose.dep", "pose.alt", "timestamp_start", "pose.data.northing_m", "pose.data.easting_m",
   "pose.data.roll", "pose.data.pitch", "pose.data.heading"]

/-- generate_nav_file_for_squidle.py L37-127 `generate_nav_file_for_squidle` up to the checks after the file is written.
`utc` is the text of a time (`pd.to_datetime`). -/
def squidleNav {K : Type} [LinearOrder K] (stem : String → String) (utc : K → String) (force outputExists : Bool)
    (nav : Option (ExportNav K)) (files : List String) : Res ExportEnd :=
  if outputExists && !force then .ok .outputExists
  else match nav with
    | none => .ok .noNavFile
    | some n =>
      if n.rows = [] then .ok .emptyNavFile
      else if "relative_path" ∉ n.columns then .error .keyError
      else match folderKind files with
        | .error e => .ok e
        | .ok ext =>
          let images := files.filter fun f => endsIn f ext
          let l := (n.rows.map fun r => (r, stem r.path)).filter fun q => decide (q.2 ++ ext ∈ images)
          if l = [] then .ok .noneInFolder
          else if "timestamp [s]" ∉ n.columns ∨ ∃ c ∈ squidleNames, c.2 ∉ n.columns then .error .keyError
          else .ok (.written squidleColumns ((sortByTime l).map fun q => squidleColumns.map fun c =>
            if c = "key" then q.2 else if c = "timestamp_start" then utc q.1.time
            else match squidleNames.find? fun p => p.1 = c with
              | some p => q.1.cells p.2
              | none => ""))

/-- generate_nav_file_for_squidle.py L151-159: the images for which no thumbnail is found, by their stems. -/
def withoutThumbnail (images thumbnails : List String) : List String :=
  images.filter fun f => decide (f ++ "_THM" ∉ thumbnails)

section
variable {K : Type} [Field K] [LinearOrder K] [FloorRing K]

/-- simplify_nav_file.py L33-40 `deg_to_deg_min`: whole degrees and minutes with their sign, before the minutes are
rounded to three decimals. -/
def degToDegMin (deg : K) : ℤ × K :=
  let sign : ℤ := if deg ≥ 0 then 1 else -1
  let deg := deg * sign
  let d := ⌊deg⌋
  (sign * d, sign * (deg - d) * 60)

end

end Oplab
