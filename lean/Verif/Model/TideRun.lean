import Verif.Model.NavFile
import Verif.Model.Parse

/-!
Model of the tide correction as part of /repo/src/auv_nav/parse.py L686-762: on the records of the parsers, before
nav_standard.json is written.
-/

namespace Oplab

namespace Json
variable {K : Type}

/-- Python `d[k] = v` for a key that is there. (parse.py L735, L739) -/
def setKey (j : Json K) (k : String) (v : Json K) : Json K :=
  match j with
  | obj l => obj (l.map fun e => if e.1 == k then (e.1, v) else e)
  | _ => j

/-- Python `l[i] = v`. (parse.py L735, L739) -/
def setIdx (j : Json K) (i : Nat) (v : Json K) : Json K :=
  match j with
  | arr l => arr (l.set i v)
  | _ => j

/-- `json[d][i][k] = json[d][i][k] - h`; a value that is not a number raises `TypeError`. (parse.py L734-741) -/
def lower3 [Sub K] (j : Json K) (d : String) (i : Nat) (k : String) (h : K) : Res (Json K) := do
  let a ← j.key d
  let b ← a.idx i
  let c ← b.key k
  match c with
  | num x => .ok (j.setKey d (a.setIdx i (b.setKey k (num (x - h)))))
  | _ => .error .typeError

end Json

/-- parse.py L722-743: one result, `j` being the position in the tide record after the search; also whether a message about
missing tide data is due (before, after). -/
def tideRecord (tide : List (TSample ℚ)) (depth : Bool) (j : Nat) (t : ℚ) (r : Json ℚ) : Res (Json ℚ × Bool × Bool) :=
  if j = 0 then .ok (r, true, false)
  else
    match tide[j - 1]?, tide[j]? with
    | some a, some b =>
      if t ≤ b.t then do
        let h := interpolate t a.t b.t a.v b.v
        let r' ← if depth then r.lower3 "data" 0 "depth" h else r.lower3 "data_target" 4 "depth" h
        .ok (r', false, false)
      else .ok (r, false, true)
    | _, _ => .error .indexError

/-- parse.py L713-743: the loop over the results of a parser; `None` has no time stamp (`TypeError`). -/
def tideLoop (tide : List (TSample ℚ)) (depth : Bool) (j : Nat) : List NavRecord → Res (List NavRecord × Bool × Bool)
  | [] => .ok ([], false, false)
  | none :: _ => .error .typeError
  | some (s, r) :: rest => do
    let a ← r.at1 "epoch_timestamp"
    match a with
    | none => .error .typeError
    | some t =>
      let j' := tideSeek tide t tide.length j
      let (r', b, e) ← tideRecord tide depth j' t r
      let (rest', b', e') ← tideLoop tide depth j' rest
      .ok (some (s, r') :: rest', b || b', e || e')

/-- parse.py L699-762 for one parser: its results with the tide taken off; `tide` is `none` without a tide file.  The messages
name the first and the last time of the tide record (L745-759), which an empty one does not have. -/
def tideResults (tide : Option (List (TSample ℚ))) (results : List NavRecord) : Res (List NavRecord) :=
  match tide, results with
  | some td, some (_, r) :: _ => do
    let c ← r.key "category"
    let cat ← c.asStr
    if cat = "depth" ∨ cat = "usbl" then do
      let (out, before, after) ← tideLoop td (cat = "depth") 0 results
      if (before = true ∨ after = true) ∧ td = [] then .error .indexError else .ok out
    else .ok results
  | _, _ => .ok results

/-- parse.py L663-783: nav_standard.json of a dive with its tide record.  The correction of BioCam clocks (L695-698) is not in
here. -/
def parseTide (tide : Option (List (TSample ℚ))) (origin : Json ℚ) (results : List (List NavRecord)) : Res (List (Json ℚ)) := do
  let kept ← (keepResults results).mapM (tideResults tide)
  let l ← readEntries (some (originRecord origin) :: kept.flatten)
  let out ← interlace l
  .ok (out.map Prod.snd)

end Oplab
