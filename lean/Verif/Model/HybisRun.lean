import Mathlib.Analysis.SpecialFunctions.Trigonometric.Basic
import Mathlib.Data.List.Sort
import Verif.Model.Hybis

/-! # The conversion of HyBIS dives as a whole

`HybisParser.__init__` of /repo/src/auv_nav/parsers/hybis.py and `hybis_to_oplab` of /repo/src/auv_nav/convert.py up to the parser, with the
parts of `Hybis.lean`. Texts of the output are left out: a line holds the values listed here in this order. -/

namespace Oplab

/-- A row of the log as pandas gives it (hybis.py L88-97). Numbers are the results of `float`; an empty position is not a text. -/
structure HybisRow where
  date : List Char
  time : List Char
  roll : ℚ
  pitch : ℚ
  heading : ℚ
  depth : ℚ
  altitude : ℚ
  lon : Option (List Char)
  lat : List Char

/-- hybis.py L21-47 `HyBisPos`. -/
structure HybisPos where
  time : ℚ
  roll : ℚ
  pitch : ℚ
  heading : ℚ
  depth : ℚ
  altitude : ℚ
  lon : ℚ
  lat : ℚ

/-- hybis.py L100-115: rows with a short longitude are skipped; `len` of an empty one fails. -/
def hybisLog (toFloat : List Char → Res ℚ) : List HybisRow → Res (List HybisPos)
  | [] => .ok []
  | r :: rest =>
    match r.lon with
    | none => .error .typeError
    | some l =>
      if l.length < 11 then hybisLog toFloat rest
      else do
        let t ← hybisTime r.date r.time
        let lon ← hybisLatLon toFloat l
        let lat ← hybisLatLon toFloat r.lat
        let ps ← hybisLog toFloat rest
        .ok (⟨t, r.roll, r.pitch, r.heading, r.depth, r.altitude, lon, lat⟩ :: ps)

/-- A line of the output (hybis.py L234-258). -/
structure HybisLine (I : Type) where
  number : ℕ
  northing : ℝ
  easting : ℝ
  depth : ℚ
  roll : ℚ
  pitch : ℚ
  heading : ℚ
  altitude : ℚ
  time : ℚ
  lat : ℚ
  lon : ℚ
  file : I

/-- The reference as the caller gives it: numbers, or texts as the command line does (auv_nav.py L266-275 has no `type`). -/
inductive HybisRef where
  | numbers (lat lon : ℚ)
  | texts (lat lon : List Char)

/-- hybis.py L135-143: a text is never equal to 0 and is used as it is. -/
def hybisChooseRef (ps : List HybisPos) : HybisRef → Res HybisRef
  | .numbers lat lon => do
    let r ← hybisReference lat lon (ps.map fun p => (p.lat, p.lon))
    .ok (.numbers r.1 r.2)
  | .texts lat lon => .ok (.texts lat lon)

/-- hybis.py L227-229 with latlon_wgs84.py L14-20: distance and bearing from the reference; `metres lat lon lat0 lon0` stands for
`Geodesic.WGS84.Inverse`, which computes with its arguments, so that texts raise TypeError. -/
def hybisMetres (metres : ℚ → ℚ → ℚ → ℚ → ℝ × ℝ) (lat lon : ℚ) : HybisRef → Res (ℝ × ℝ)
  | .numbers lat0 lon0 => .ok (metres lat lon lat0 lon0)
  | .texts _ _ => .error .typeError

/-- hybis.py L163-258: the line of image `k`, a file `file` written at `m`. `depths` and `altitudes` are those after the missing ones have been
replaced. -/
noncomputable def hybisImage {I : Type} (metres : ℚ → ℚ → ℚ → ℚ → ℝ × ℝ) (ps : List HybisPos) (depths altitudes : List ℚ) (ref : HybisRef)
    (k : ℕ) (file : I) (m : ℚ) : Res (HybisLine I) := do
  let ts := ps.map HybisPos.time
  let lat ← hybisAt ts (ps.map HybisPos.lat) m
  let lon ← hybisAt ts (ps.map HybisPos.lon) m
  let depth ← hybisAt ts depths m
  let roll ← hybisAt ts (ps.map HybisPos.roll) m
  let pitch ← hybisAt ts (ps.map HybisPos.pitch) m
  let heading ← hybisAt ts (ps.map HybisPos.heading) m
  let altitude ← hybisAt ts altitudes m
  let db ← hybisMetres metres lat lon ref
  .ok ⟨k, Real.cos (db.2 * Real.pi / 180) * db.1, Real.sin (db.2 * Real.pi / 180) * db.1, depth, roll, pitch, heading, altitude, m, lat, lon, file⟩

/-- hybis.py L163: the loop over the files, numbered from `k`. -/
noncomputable def hybisImages {I : Type} (metres : ℚ → ℚ → ℚ → ℚ → ℝ × ℝ) (ps : List HybisPos) (depths altitudes : List ℚ) (ref : HybisRef)
    (mtime : I → ℚ) : ℕ → List I → Res (List (HybisLine I))
  | _, [] => .ok []
  | k, f :: fs => do
    let l ← hybisImage metres ps depths altitudes ref k f (mtime f)
    let ls ← hybisImages metres ps depths altitudes ref mtime (k + 1) fs
    .ok (l :: ls)

/-- What the parser holds afterwards: the lines, and the times of the first and the last record (hybis.py L260-261). -/
structure HybisResult (I : Type) where
  lines : List (HybisLine I)
  start : ℚ
  finish : ℚ

/-- hybis.py L81-261 `HybisParser.__init__`. `files` are all entries of the image folder, `mtime` their modification times. -/
noncomputable def hybisConvert {I : Type} [LinearOrder I] (toFloat : List Char → Res ℚ) (metres : ℚ → ℚ → ℚ → ℚ → ℝ × ℝ) (rows : List HybisRow)
    (ref : HybisRef) (mtime : I → ℚ) (files : List I) : Res (HybisResult I) := do
  let ps ← hybisLog toFloat rows
  let ts := ps.map HybisPos.time
  let altitudes := hybisRepair ts (ps.map HybisPos.altitude)
  let depths := hybisRepair ts (ps.map HybisPos.depth)
  let r ← hybisChooseRef ps ref
  let lines ← hybisImages metres ps depths altitudes r mtime 0 (files.insertionSort (· ≤ ·))
  match ps.head?, ps.getLast? with
  | some a, some b => .ok ⟨lines, a.time, b.time⟩
  | _, _ => .error .indexError

/-- convert.py L52-75 `hybis_to_oplab` up to the parser, for the reference given on the command line, `none` if it is not given; the other
arguments are given. -/
noncomputable def hybisCommand {I : Type} [LinearOrder I] (toFloat : List Char → Res ℚ) (metres : ℚ → ℚ → ℚ → ℚ → ℝ × ℝ) (rows : List HybisRow)
    (lat lon : Option (List Char)) (mtime : I → ℚ) (files : List I) : Res (HybisResult I) :=
  match lat, lon with
  | some a, some b => hybisConvert toFloat metres rows (.texts a b) mtime files
  | _, _ => .error .quit

end Oplab
