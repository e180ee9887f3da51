import Mathlib.Algebra.Order.Field.Basic
import Mathlib.Algebra.Order.Group.Unbundled.Abs
import Mathlib.Data.Rat.Defs
import Verif.Model.Basic
import Verif.Model.Time

/-! Navigation log parsers. -/

namespace Oplab

/-! ## Interlacer -/

/-- A non-negative timestamp by the digits of its Python `str(float)`: integer digits and fraction digits
(positional notation, which Python uses for 1e-4 ≤ x < 1e16 and for 0). -/
structure Stamp where
  ip : List Nat
  fp : List Nat
  deriving DecidableEq, Repr

/-- Code points of `str(float(t))`: digits, '.', digits. (/repo/src/auv_nav/parsers/parse_interlacer.py L23-49) -/
def Stamp.text (s : Stamp) : List Nat := s.ip.map (· + 48) ++ [46] ++ s.fp.map (· + 48)

/-- Python string comparison `a <= b`, by code points. (parse_interlacer.py L16-19) -/
def lexLe : List Nat → List Nat → Bool
  | [], _ => true
  | _ :: _, [] => false
  | a :: as, b :: bs => if a < b then true else if a = b then lexLe as bs else false

/-- /repo/src/auv_nav/parsers/parse_interlacer.py L16-49 (`sort_values` L16-19, `parse_interlacer` L23-49): the
entries of the JSON file, stably sorted by the *text* of their time stamp. An empty file fails to unpack. -/
def interlace {α} (data : List (Stamp × α)) : Res (List (Stamp × α)) :=
  if data = [] then .error .valueError
  else .ok (data.mergeSort fun a b => lexLe a.1.text b.1.text)

/-! ## GAPS -/

/-- What a line of a GAPS log is to the parser: a `$PTSAG` ship position (beacon "0"), a `$PTSAG` telegram of the
wanted beacon (`valid`: fields 11, 13 are "F", "1"; `timeOk`: its time fields parse and are in range), a `$HEHDT` heading,
anything else. -/
inductive GapsLine where
  | ship
  | target (valid timeOk : Bool)
  | heading
  | other
  deriving DecidableEq, Repr

/-- A produced USBL fix: the numbers of the lines its values were read from, and the line at which it was output. -/
structure GapsFix where
  priorShip : Nat
  priorHeading : Nat
  target : Nat
  postShip : Nat
  postHeading : Nat
  at_ : Nat
  deriving DecidableEq, Repr

/-- The parser's variables; `none` = not yet assigned. -/
structure GapsState where
  flag : Nat := 0
  priorShip : Option Nat := none
  priorHeading : Option Nat := none
  target : Option Nat := none
  postShip : Option Nat := none
  postHeading : Option Nat := none
  deriving DecidableEq, Repr

/-- parse_gaps.py L81-303: the effect of line number `i` on the variables. -/
def gapsRead (s : GapsState) (i : Nat) : GapsLine → GapsState
  | .target valid _ =>
    if s.flag = 2 then
      if valid then { s with target := some i, flag := 3 } else { s with flag := 0 }
    else s
  | .ship =>
    if s.flag < 3 then { s with priorShip := some i, flag := if s.flag < 2 then s.flag + 1 else s.flag }
    else { s with postShip := some i, flag := s.flag + 1 }
  | .heading =>
    if s.flag < 3 then { s with priorHeading := some i, flag := if s.flag < 2 then s.flag + 1 else s.flag }
    else { s with postHeading := some i, flag := s.flag + 1 }
  | .other => s

/-- parse_gaps.py L305-469: output when the flag has reached 5 (an unassigned variable is an UnboundLocalError);
`broken_packet_flag` is reset at every line (L76) and is never set on the line that completes a fix, so it never
suppresses one. -/
def gapsEmit (s : GapsState) (i : Nat) : Res (GapsState × List GapsFix) :=
  if 5 ≤ s.flag then
    match s.priorShip, s.priorHeading, s.target, s.postShip, s.postHeading with
    | some a, some b, some c, some d, some e => .ok ({ s with flag := 0 }, [⟨a, b, c, d, e, i⟩])
    | _, _, _, _, _ => .error .unboundLocal
  else .ok (s, [])

/-- parse_gaps.py L73-469: the loop over the lines of one file, starting at line number `i`. -/
def gapsRun (s : GapsState) (i : Nat) : List GapsLine → Res (List GapsFix)
  | [] => .ok []
  | l :: ls => do
    let (s', out) ← gapsEmit (gapsRead s i l) i
    let rest ← gapsRun s' (i + 1) ls
    .ok (out ++ rest)

/-- `parse_gaps` on one file. (parse_gaps.py L26-469) -/
def parseGaps (ls : List GapsLine) : Res (List GapsFix) := gapsRun {} 0 ls

/-- parse_gaps.py L307-321: ship value at the time of the fix. -/
def gapsInterp {K} [Field K] (t tPrior tPost prior post : K) : K :=
  (t - tPrior) / (tPost - tPrior) * (post - prior) + prior

/-! ## Degrees and minutes -/

section DegMin
variable {K : Type} [Field K]

/-- parse_gaps.py L130-152 (latitude: `w = 2`, digits 0..1 and 2..9; longitude: `w = 3`, digits 0..2 and 3..10):
degrees and minutes to signed degrees; `toFloat` is Python `float` on text, `neg` the letter meaning negative. -/
def gapsDegMin (toFloat : List Char → Res K) (w : Nat) (neg : String) (text : List Char) (hemi : String) : Res K := do
  let d ← pyInt (text.take w)
  let m ← toFloat ((text.take (w + 8)).drop w)
  let v : K := d + m / 60
  .ok (if hemi = neg then -v else v)

/-- /repo/src/auv_nav/parsers/parse_usbl_dump.py L83-104: the sign is applied to the degrees only. -/
def usblDumpDegMin (deg : Nat) (minutes : K) (pos hemi : String) : K :=
  let d : K := if hemi ≠ pos then deg * (-1) else deg
  d + minutes / 60

end DegMin

/-! ## PHINS -/

/-- `",".join(line)`. -/
def joinComma : List (List Char) → List Char
  | [] => []
  | [x] => x
  | x :: xs => x ++ ',' :: joinComma xs

/-- Exclusive or of the code points (parse_phins.py L119-122). -/
def xorSum (cs : List Char) : Nat := cs.foldl (fun n c => n ^^^ c.toNat) 0

/-- One upper-case hexadecimal digit. (parse_phins.py L124) -/
def hexDigit (n : Nat) : Char := if n < 10 then Char.ofNat (48 + n) else Char.ofNat (55 + n)

/-- `hex(n)[2:].upper()`, most significant digit first. (parse_phins.py L124) -/
def hexUpper (n : Nat) : List Char :=
  if n < 16 then [hexDigit n] else hexUpper (n / 16) ++ [hexDigit (n % 16)]
  termination_by n

/-- `s.zfill(2)` for text without sign. (parse_phins.py L124) -/
def zfill2 (s : List Char) : List Char := List.replicate (2 - s.length) '0' ++ s

/-- /repo/src/auv_nav/parsers/parse_phins.py L107-134 `line_is_valid`: `fields` are the comma separated fields
of the part before '*', `parts` the '*' separated parts. `upper` is Python's `str.upper`. -/
def lineIsValid (upper : List Char → List Char) (fields parts : List (List Char)) : Bool :=
  match fields, parts with
  | hd :: _, [_, checkSum] =>
    (hd = "$PIXSE".toList ∨ hd = "$HEHDT".toList) ∧
      zfill2 (hexUpper (xorSum ((joinComma fields).drop 1))) = upper checkSum
  | _, _ => false

/-! ## RDI -/

/-- A line of an RDI PD6 log, as far as the parser looks at it. -/
inductive RdiLine (K : Type) where
  /-- `:TS`, with its time stamp -/
  | ts (t : K)
  /-- `:BI`, with status "A" or not, and the velocity -/
  | bi (ok : Bool) (v : V3 K)
  /-- `:BD`, with the range to the bottom -/
  | bd (alt : K)
  /-- `:SA`, with roll, pitch, yaw -/
  | sa (att : V3 K)
  | other

/-- Variables of the parser that carry the exported records: `BodyVelocity`, `Altitude` and `Orientation`. -/
structure RdiState (K : Type) where
  stamp : Option K := none
  stampDvl : Option K := none
  vel : Option (V3 K) := none
  stampAlt : Option K := none
  alt : Option K := none
  altValid : Bool := false
  att : Option (V3 K) := none

section Rdi
variable {K : Type}

/-- /repo/src/auv_nav/sensors.py L115-126 `export` with L152-168 (BodyVelocity): a record if valid, then clear. -/
def exportVel (s : RdiState K) : RdiState K × Option (K × V3 K) :=
  match s.vel, s.stamp, s.stampDvl with
  | some v, some t, some _ => ({ s with vel := none, stampDvl := none }, some (t, v))
  | _, _, _ => (s, none)

/-- The same for Altitude (sensors.py L996-1010). -/
def exportAlt (s : RdiState K) : RdiState K × Option (K × K) :=
  match s.alt, s.stamp, s.stampAlt with
  | some a, some t, some _ => ({ s with alt := none, stampAlt := none }, some (t, a))
  | _, _, _ => (s, none)

/-- The same for Orientation (sensors.py L617-628), whose standard deviation was given by the mission. -/
def exportAtt (s : RdiState K) : RdiState K × Option (K × V3 K) :=
  match s.att, s.stamp with
  | some a, some t => ({ s with att := none }, some (t, a))
  | _, _ => (s, none)

/-- /repo/src/auv_nav/parsers/parse_rdi.py L66-137: one line. `exp` exports the record of the requested category. Text
to number conversion, the heading offset rotation and the mm to m factor are done before. -/
def rdiStep {R} (exp : RdiState K → RdiState K × Option R) (s : RdiState K) : RdiLine K → RdiState K × List R
  | .sa a => ({ s with att := some a }, [])
  | .ts t =>
    let (s', r) := exp s
    ({ s' with stamp := some t, stampDvl := some t, stampAlt := some t, altValid := false }, r.toList)
  | .bi ok v => (if ok then { s with altValid := true, vel := some v } else s, [])
  | .bd a => (if s.altValid then { s with alt := some a } else s, [])
  | .other => (s, [])

/-- The loop over the lines. (parse_rdi.py L66-137) -/
def rdiRun {R} (exp : RdiState K → RdiState K × Option R) (s : RdiState K) : List (RdiLine K) → List R
  | [] => []
  | l :: ls => (rdiStep exp s l).2 ++ rdiRun exp (rdiStep exp s l).1 ls

/-- parse_rdi for category VELOCITY. (parse_rdi.py L46-50, L66-137) -/
def rdiVelocity (ls : List (RdiLine K)) : List (K × V3 K) := rdiRun exportVel {} ls
/-- parse_rdi for category ALTITUDE. (parse_rdi.py L56-60, L66-137) -/
def rdiAltitude (ls : List (RdiLine K)) : List (K × K) := rdiRun exportAlt {} ls
/-- parse_rdi for category ORIENTATION. (parse_rdi.py L51-55, L66-137) -/
def rdiOrientation (ls : List (RdiLine K)) : List (K × V3 K) := rdiRun exportAtt {} ls

end Rdi

/-! ## Stereo pairs, clock correction, duplicate times -/

section Ordered
variable {K : Type} [Field K] [LinearOrder K]

/-- `min((v, k) for k, v in enumerate(values))`: smallest value, first index; `ValueError` if empty.
`k` is the index of the first element of the list. (/repo/src/auv_nav/parsers/parse_biocam_images.py L192) -/
def minIdx (k : Nat) : List K → Option (K × Nat)
  | [] => none
  | v :: vs =>
    match minIdx (k + 1) vs with
    | none => some (v, k)
    | some (w, j) => if w < v then some (w, j) else some (v, k)

/-- The pairing loop: pairs of indices of left and right images; `keep` says whether the smallest
difference is acceptable, `i` is the index of the first left image. (parse_biocam_images.py L187-194) -/
def stereoPairsFrom (keep : K → Bool) (right : List K) (i : Nat) : List K → Res (List (Nat × Nat))
  | [] => .ok []
  | l :: ls =>
    match minIdx 0 (right.map fun r => |l - r|) with
    | none => .error .valueError
    | some (d, j) => do
      let rest ← stereoPairsFrom keep right (i + 1) ls
      .ok (if keep d then (i, j) :: rest else rest)

/-- /repo/src/auv_nav/parsers/parse_acfr_images.py L124-137 and parse_ntnu_stereo.py L112-127: a left image is
skipped when `sync_difference > tolerance`. -/
def acfrPairs (tol : K) (left right : List K) : Res (List (Nat × Nat)) :=
  stereoPairsFrom (fun d => ¬ d > tol) right 0 left

/-- /repo/src/auv_nav/parsers/parse_biocam_images.py L187-194: kept when `sync_difference < tolerance`. -/
def biocamPairs (tol : K) (left right : List K) : Res (List (Nat × Nat)) :=
  stereoPairsFrom (fun d => d < tol) right 0 left

/-- `np.min` of a list; `ValueError` if empty. (parse_biocam_images.py L317) -/
def npMin : List K → Res K
  | [] => .error .valueError
  | v :: vs => .ok (vs.foldl min v)

/-- parse_biocam_images.py L313-319 `line_fit`; `m`, `c` are slope and intercept returned by `linregress`. -/
def lineFit (m c : K) (xs ys : List K) : Res (K × K) := do
  let d ← npMin ((xs.zip ys).map fun p => p.2 - m * p.1 - c)
  .ok (m, c + d)

/-- parse_biocam_images.py L324-330 `predict_cpu_time`. -/
def predictCpu (m c : K) (xs : List K) : List K := xs.map fun x => (m + 1) * x + c

/-- parse_biocam_images.py L272-386 `correct_timestamps`, for the frames of camera 1: (camera clock, cpu clock) pairs.
The plot lines L338-345 read entries 1 and -2 of the list. -/
def correctStamps (m c : K) (frames : List (K × K)) : Res (List K) := do
  let xs := frames.map Prod.fst
  let ys := frames.map fun f => f.2 - f.1
  let (m', c') ← lineFit m c xs ys
  let pred := predictCpu m' c' xs
  if frames.length < 2 then .error .indexError else .ok pred

/-- /repo/src/auv_nav/parsers/parse_alr.py L80-175 and parse_autosub.py L57-100: append a record whose time is
larger than the previous one, otherwise overwrite the last output record (`data_list[-1]`, IndexError if there is
none). -/
def dedupe {α} (prev : K) (out : List (K × α)) : List (K × α) → Res (List (K × α))
  | [] => .ok out
  | (t, a) :: rest =>
    if prev < t then dedupe t (out ++ [(t, a)]) rest
    else if out = [] then .error .indexError
    else dedupe t (out.dropLast ++ [(t, a)]) rest

/-- The parser loop: starts with `previous_timestamp = 0` and an empty list. (parse_alr.py L80-175) -/
def alrRecords {α} (recs : List (K × α)) : Res (List (K × α)) := dedupe 0 [] recs

end Ordered

end Oplab
