import Mathlib.Analysis.SpecialFunctions.Pow.Real
import Verif.Model.Interpolate

/-! /repo/src/auv_nav/localisation/usbl_filter.py -/

namespace Oplab

section
variable {K : Type} [Field K] [LinearOrder K]

/-- The fields of `Usbl` used by the filter. -/
structure UsblFix (K : Type) where
  t : K
  north : K
  east : K
  northStd : K
  eastStd : K
  depth : K
  depthStd : K
  deriving DecidableEq

/-- The fields of `Depth` used by the filter. -/
structure DepthSample (K : Type) where
  t : K
  depth : K
  std : K
  deriving DecidableEq

/-- usbl_filter.py L26-30 `depth_filter`. -/
def depthFilter (u : UsblFix K) (depth std sigma : K) : Bool :=
  |u.depth - depth| ≤ sigma * (|u.depthStd| + |std|)

/-- usbl_filter.py L81-101: time filter, against the first and last depth sample. -/
def usblTimeOk (first last : DepthSample K) (u : UsblFix K) : Bool :=
  if u.t < first.t + 1 then false else if u.t + 1 > last.t then false else true

/-- usbl_filter.py L121-125: `while j < len(depth)-1 and depth[j].t < t: j += 1`. -/
def depthSeek (ds : List (DepthSample K)) (t : K) : Nat → Nat → Nat
  | 0, j => j
  | fuel + 1, j =>
    if j + 1 < ds.length then
      match ds[j]? with
      | some d => if d.t < t then depthSeek ds t fuel (j + 1) else j
      | none => j
    else j

/-- usbl_filter.py L115-144: interpolated depths and their standard deviations; nothing is appended while `j` is 0. -/
def depthInterp (ds : List (DepthSample K)) (j : Nat) : List (UsblFix K) → List (K × K)
  | [] => []
  | u :: us =>
    let j := depthSeek ds u.t ds.length j
    let rest := depthInterp ds j us
    if 1 ≤ j then
      match ds[j - 1]?, ds[j]? with
      | some a, some b => (interpolate u.t a.t b.t a.depth b.depth, interpolate u.t a.t b.t a.std b.std) :: rest
      | _, _ => rest
    else rest

/-- usbl_filter.py L146-153: entry `i` of the interpolated list belongs to fix `i`. -/
def usblDepthFiltered (ds : List (DepthSample K)) (sigma : K) (us : List (UsblFix K)) : List (UsblFix K) :=
  ((us.zip (depthInterp ds 0 us)).filter fun p => depthFilter p.1 p.2.1 p.2.2 sigma).map Prod.fst

/-- usbl_filter.py L175-177: the offset after `n` (0 is left out). -/
def nextOffset (n : Int) : Int := if n + 1 = 0 then n + 1 + 1 else n + 1

/-- usbl_filter.py L171-184: the loop `while i < len - 2`, at fix `i` with neighbour offset `n` (the code starts at
`i = 2`, `n = -2`; indices `i + n` are then never negative); `near` is the distance filter. -/
def distLoop {α} (near : α → α → Bool) (us : List α) (i : Nat) (n : Int) : List α :=
  if _h : i + 2 < us.length then
    match us[i]?, us[(i + n).toNat]? with
    | some a, some b =>
      if near a b then
        if _h2 : nextOffset n > 2 then a :: distLoop near us (i + 1) (-2)
        else distLoop near us i (nextOffset n)
      else distLoop near us (i + 1) (-2)
    | _, _ => []
  else []
  termination_by (us.length - i, (3 - n).toNat)
  decreasing_by
  · left; omega
  · have hn : n < nextOffset n := by simp only [nextOffset]; split <;> omega
    right; omega
  · left; omega

/-- usbl_filter.py L51-193 `usbl_filter`: the two returned lists. -/
def usblFilter (near : UsblFix K → UsblFix K → Bool) (sigma : K) (northEast depthFlag : Bool) (us : List (UsblFix K))
    (ds : List (DepthSample K)) : List (UsblFix K) × List (UsblFix K) :=
  match ds.head?, ds.getLast? with
  | some first, some last =>
    let timed := us.filter (usblTimeOk first last)
    let (l1, f1) := if depthFlag then (timed, usblDepthFiltered ds sigma timed) else (us, timed)
    if northEast then (f1, distLoop near f1 2 (-2)) else (l1, f1)
  | _, _ => ([], [])

end

/-- usbl_filter.py L36-48 `distance_filter`, over the reals. -/
noncomputable def distanceFilter (sigma vmax : ℝ) (a b : UsblFix ℝ) : Bool :=
  let lateral := Real.sqrt ((a.north - b.north) ^ 2 + (a.east - b.east) ^ 2)
  let dt := |a.t - b.t|
  let envelope := (Real.sqrt (a.northStd ^ 2 + a.eastStd ^ 2) + Real.sqrt (b.northStd ^ 2 + b.eastStd ^ 2)) + dt * vmax
  lateral ≤ sigma * envelope

end Oplab
