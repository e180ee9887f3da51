import Verif.Model.Offset

/-! Outputs of `auv_nav process`: payload measurements, geographic positions, EKF poses
(/repo/src/auv_nav/process.py L505-545, L1098-1213, L1356-1403, L1569-1596, L1789-1825 and
/repo/src/auv_nav/localisation/ekf.py L1073-1121). -/

namespace Oplab

/-! ## Payloads -/

/-- Python `sub in s`, on lists of characters (process.py L532, L543, L1398, L1570-1587, L1790-1803). -/
def charsIn (sub s : List Char) : Bool := s.tails.any fun t => sub.isPrefixOf t

/-- Python `s.replace(sub, "")` for `sub = d :: ds` (process.py L1583, L1592). -/
def removeAll (d : Char) (ds : List Char) : List Char → List Char
  | [] => []
  | c :: cs => if (d :: ds).isPrefixOf (c :: cs) then removeAll d ds (cs.drop ds.length) else c :: removeAll d ds cs
  termination_by l => l.length
  decreasing_by
  · simp only [List.length_drop, List.length_cons]; omega
  · simp

/-- `"_pf" in key` -/
def hasPf (key : List Char) : Bool := charsIn ['_', 'p', 'f'] key

/-- `"_ekf" in key` -/
def hasEkf (key : List Char) : Bool := charsIn ['_', 'e', 'k', 'f'] key

/-- Assignment to a key of a dictionary that keeps insertion order (process.py L518, L533, L544). -/
def dictSet {α : Type} (d : List (List Char × α)) (k : List Char) (v : α) : List (List Char × α) :=
  if d.any (fun p => p.1 = k) then d.map fun p => if p.1 = k then (k, v) else p else d ++ [(k, v)]

/-- `{**a, **b}` (process.py L534, L545). -/
def dictMerge {α : Type} (a b : List (List Char × α)) : List (List Char × α) := b.foldl (fun d p => dictSet d p.1 p.2) a

/-- process.py L526-534 and L536-545: the entries are repeated under the name with the suffix. -/
def addCopies {α : Type} (suffix : List Char) (d : List (List Char × α)) : List (List Char × α) :=
  dictMerge d ((d.filter fun p => !hasPf p.1 && !hasEkf p.1).foldl (fun acc p => dictSet acc (p.1 ++ suffix) p.2) [])

/-- The navigation solutions. -/
inductive Estimate where
  | dr
  | pf
  | ekf
  deriving DecidableEq, Repr

/-- One written payload file: folder, file name, whose data, and the interpolations that were applied to it (solution,
payload whose position on the vehicle was used). -/
structure PayloadFile where
  folder : Estimate
  name : List Char
  data : List Char
  poses : List (Estimate × List Char)
  deriving DecidableEq

/-- process.py L508-545: `payload_dict`; the data of a payload are represented by its name. `names` are the payloads of
the vehicle. -/
def payloadDict (pf ekf : Bool) (names : List (List Char)) : List (List Char × List Char) :=
  let base := names.foldl (fun d n => dictSet d n n) []
  let d1 := if pf then addCopies "_pf".toList base else base
  if ekf then addCopies "_ekf".toList d1 else d1

/-- process.py L1569-1596 for one key; `pf`, `ekf`: the particle filter and EKF solutions have more than one entry. -/
def payloadPoses (pf ekf : Bool) (key : List Char) : List (Estimate × List Char) :=
  (if !hasPf key && !hasEkf key then [(.dr, key)] else []) ++
    (if pf && hasPf key then [(.pf, removeAll '_' ['p', 'f'] key)] else []) ++
    (if ekf && hasEkf key then [(.ekf, removeAll '_' ['e', 'k', 'f'] key)] else [])

/-- process.py L1569-1596: a position that is not known is a `KeyError`. -/
def payloadLookup (names : List (List Char)) (l : List (Estimate × List Char)) : Res Unit :=
  if l.all fun p => names.contains p.2 then .ok () else .error .keyError

/-- process.py L1789-1825 for one key. -/
def payloadFolder (key : List Char) : Estimate × List Char :=
  if hasPf key then (.pf, key) else if hasEkf key then (.ekf, key) else (.dr, key ++ "_dr".toList)

/-- process.py L508-545, L1569-1596, L1789-1825: the payload files of a run with all csv outputs on and more than one
record of each payload (`write_csv` writes nothing otherwise). `pfOn`, `ekfOn`: the filters are switched on in the
configuration. `pfRun`, `ekfRun`: their solutions have more than one entry; the particle filter does not run without
USBL fixes (L1159). -/
def payloadFiles (pfOn ekfOn pfRun ekfRun : Bool) (names : List (List Char)) : Res (List PayloadFile) := do
  let d := payloadDict pfOn ekfOn names
  let _ ← payloadLookup names (d.flatMap fun p => payloadPoses pfRun ekfRun p.1)
  .ok (d.map fun p => ⟨(payloadFolder p.1).1, (payloadFolder p.1).2, p.2, payloadPoses pfRun ekfRun p.1⟩)

/-! ## Geographic positions -/

section
variable {K : Type} [Field K] [LinearOrder K]

/-- Values a latitude or longitude attribute can have: `None`, a number, or a tuple. -/
inductive GeoVal (K : Type) where
  | unset
  | num (x : K)
  | pair (x y : K)

/-- A pose with its attributes `northings`, `eastings`, `latitude`, `longitude`. -/
structure GeoPose (K : Type) where
  n : K
  e : K
  lat : GeoVal K
  lon : GeoVal K

/-- process.py L1108-1131, L1143-1155: positions shifted, latitude and longitude set; `geo e n` is `metres_to_latlon` at the
origin of the mission. Nothing happens without fixes (L1099). -/
def alignGeo (geo : K → K → K × K) (fixes : Bool) (o : K × K) (l : List (GeoPose K)) : List (GeoPose K) :=
  if fixes then l.map fun p =>
    ⟨p.n + o.1, p.e + o.2, .num (geo (p.e + o.2) (p.n + o.1)).1, .num (geo (p.e + o.2) (p.n + o.1)).2⟩
  else l

/-- process.py L1189-1195, `pf_fusion_dvl_list`: the first line is an expression without effect, the tuple is assigned to
the longitude. -/
def pfGeoDvl (geo : K → K → K × K) (p : GeoPose K) : GeoPose K :=
  { p with lon := .pair (geo p.e p.n).1 (geo p.e p.n).2 }

/-- process.py L1196-1213, `pf_fusion_centre_list`; `off` is the rotated vector from the DVL to the origin. -/
def pfGeoCentre (geo : K → K → K × K) (off : K × K) (p : GeoPose K) : GeoPose K :=
  ⟨p.n + off.1, p.e + off.2, .num (geo (p.e + off.2) (p.n + off.1)).1, .num (geo (p.e + off.2) (p.n + off.1)).2⟩

/-- ekf.py L1085-1106: an EKF pose, shifted to the origin of the vehicle or not. -/
def ekfGeo (geo : K → K → K × K) (shift : Bool) (off : K × K) (p : GeoPose K) : GeoPose K :=
  let q := if shift then { p with n := p.n + off.1, e := p.e + off.2 } else p
  { q with lat := .num (geo q.e q.n).1, lon := .num (geo q.e q.n).2 }

/-! ## EKF poses -/

/-- ekf.py L1109-1120: the altitude of each EKF pose from the (time, altitude) pairs of dead reckoning; `i` is `dr_idx`. -/
def ekfAltLoop (dr : List (K × K)) (i : Nat) : List K → Res (List K)
  | [] => .ok []
  | q :: qs => do
    let i := seekIdx dr.length (fun m => (dr.map Prod.fst)[m]?.any (· < q)) dr.length i
    let a ← interpAt dr q ((i : Int) - 1) i
    let rest ← ekfAltLoop dr i qs
    .ok (a :: rest)

/-- ekf.py L1081, L1109-1120. -/
def ekfAltitudes (dr : List (K × K)) (qs : List K) : Res (List K) := ekfAltLoop dr 1 qs

/-- Insertion into a list in increasing order without repetitions. -/
def insertTime (x : K) : List K → List K
  | [] => [x]
  | y :: ys => if x < y then x :: y :: ys else if x = y then y :: ys else y :: insertTime x ys

/-- process.py L1384-1403: `sorted(set(...))` of the times of the cameras and of the payloads whose key contains
"_ekf". -/
def ekfTimestamps (cam1 cam2 cam3 : List K) (payloads : List (List Char × List K)) : List K :=
  (cam1 ++ cam2 ++ cam3 ++ (payloads.filter fun p => hasEkf p.1).flatMap Prod.snd).foldr insertTime []

end

/-- process.py L1356-1371: `camera3_ekf_list_cropped`, on the file names; `use` is `use_camera`. -/
def cropLoop (start stop : String) (use : Bool) : List String → List String
  | [] => []
  | f :: fs =>
    let use := use || f == start
    let rest := if f == stop then [] else cropLoop start stop use fs
    if use then f :: rest else rest

/-- process.py L1356-1371: an empty selection ends the program. -/
def cropCameras (start stop : String) (l : List String) : Res (List String) :=
  if cropLoop start stop false l = [] then .error .quit else .ok (cropLoop start stop false l)

end Oplab
