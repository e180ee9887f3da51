import Verif.Model.Sync

/-! Shift of the dead reckoned track onto the USBL fixes, /repo/src/auv_nav/localisation/usbl_offset.py L20-134, and what
/repo/src/auv_nav/process.py L1098-1213 does with it. -/

namespace Oplab

section
variable {K : Type} [Field K] [LinearOrder K]

/-- A time with northings and eastings. -/
structure TrackPt (K : Type) where
  t : K
  n : K
  e : K
  deriving DecidableEq

/-- usbl_offset.py L36-55: the search when the fixes start before dead reckoning; `s`, `d` are `start_usbl` and
`start_dead_reckoning`. -/
def startBefore (dr us : List (TrackPt K)) (s d : Nat) : Res (Nat × Nat) :=
  if _h : us.length ≤ s + 1 then .ok (s, d)
  else if _hd : dr.length ≤ d then .error .indexError
  else do
    let x ← pyGet dr d
    let a ← pyGet us s
    let b ← pyGet us ((s : Int) + 1)
    if x.t - b.t > 0 then startBefore dr us (s + 1) d
    else if x.t - a.t < 20 ∧ b.t - a.t < 20 then .ok (s + 1, d)
    else startBefore dr us s (d + 1)
  termination_by (us.length - s) + (dr.length - d)

/-- usbl_offset.py L56-72: the search when they do not; `time_usbl[start_usbl + 1]` is read only if the first condition
of L64-67 holds. -/
def startAfter (dr us : List (TrackPt K)) (s d : Nat) : Res (Nat × Nat) :=
  if _hd : dr.length ≤ d then .error .indexError
  else if _h : us.length ≤ s then .error .indexError
  else do
    let x ← pyGet dr d
    let a ← pyGet us s
    if x.t - a.t < 0 then startAfter dr us s (d + 1)
    else if x.t - a.t < 20 then do
      let b ← pyGet us ((s : Int) + 1)
      if b.t - a.t < 20 then .ok (s + 1, d) else startAfter dr us (s + 1) d
    else startAfter dr us (s + 1) d
  termination_by (us.length - s) + (dr.length - d)

/-- usbl_offset.py L77-102: the dead reckoned positions at the times of the fixes; the loop is left when dead reckoning
ends before the fix. -/
def positionsAt (dr : List (TrackPt K)) (d : Nat) : List (TrackPt K) → List (K × K)
  | [] => []
  | u :: us =>
    if dr.length ≤ d + 1 then []
    else
      let r := seekNext (dr.map (·.t)) u.t d
      match dr[r]?, dr[r + 1]? with
      | some a, some b => (interpolate u.t a.t b.t a.n b.n, interpolate u.t a.t b.t a.e b.e) :: positionsAt dr r us
      | _, _ => []

/-- `sum(l) / len(l)` (usbl_offset.py L104-132). -/
def pyMean (l : List K) : Res K := if l = [] then .error .zeroDivision else .ok (l.sum / (l.length : K))

/-- usbl_offset.py L29-72: `start_usbl` and `start_dead_reckoning` (`time_usbl[0]` is read first). -/
def usblStart (dr us : List (TrackPt K)) : Res (Nat × Nat) :=
  match us.head?, dr.head? with
  | some u0, some d0 => if u0.t < d0.t then startBefore dr us 0 0 else startAfter dr us 0 0
  | _, _ => .error .indexError

/-- usbl_offset.py L20-134 `usbl_offset`. -/
def usblOffset (dr us : List (TrackPt K)) : Res (K × K) := do
  let p ← usblStart dr us
  let pos := positionsAt dr p.2 (us.drop p.1)
  let used := (us.drop p.1).take pos.length
  let n1 ← pyMean (used.map (·.n))
  let n2 ← pyMean (pos.map Prod.fst)
  let e1 ← pyMean (used.map (·.e))
  let e2 ← pyMean (pos.map Prod.snd)
  .ok (n1 - n2, e1 - e2)

/-- process.py L1108-1110, L1120-1122, L1143-1145: every position is shifted. -/
def shiftTrack (dr : List (TrackPt K)) (o : K × K) : List (TrackPt K) :=
  dr.map fun p => { p with n := p.n + o.1, e := p.e + o.2 }

/-- process.py L1096-1155, on one track: the shift if there are fixes, otherwise nothing. -/
def alignTrack (dr us : List (TrackPt K)) : Res (List (TrackPt K)) :=
  if us = [] then .ok dr
  else do
    let o ← usblOffset dr us
    .ok (shiftTrack dr o)

end

end Oplab
