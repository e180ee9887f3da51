import Verif.Model.Time

/-!
Model of /repo/src/oplab/mission.py and vehicle.py on parsed YAML: the loaders, the writers and the file copy.
A YAML document is what `yaml.safe_load` returns; the YAML text itself (`safe_load`, `dump`) is not modelled.
Numbers are rationals (an `int`, a `float` and a `bool` with the same value compare equal in Python; booleans
are kept apart here because they are printed differently).
-/

namespace Oplab

/-- A YAML value. Mapping keys are texts. -/
inductive Y where
  | null
  | bool (b : Bool)
  | num (q : ℚ)
  | str (s : String)
  | list (l : List Y)
  | dict (d : List (String × Y))

/-- A YAML mapping. -/
abbrev Node := List (String × Y)

/-- `node[k]`: KeyError when absent. (used throughout /repo/src/oplab/mission.py L47-447 and vehicle.py L47-202) -/
def Node.req (n : Node) (k : String) : Res Y :=
  match n.lookup k with
  | some v => .ok v
  | none => .error .keyError

/-- `node.get(k, default)`, and the pattern `x = default; if k in node: x = node[k]`.
(mission.py L54-71, L157-161, L253-278) -/
def Node.getD (n : Node) (k : String) (default : Y) : Y := (n.lookup k).getD default

/-- A value used as a mapping; `e` is the exception Python raises for anything else. (mission.py L298-447) -/
def Y.asDict (e : Err) : Y → Res Node
  | .dict d => .ok d
  | _ => .error e

/-- A value iterated over as a list (simplification: iterating over the keys of a mapping, or the letters of a
text, is taken to fail at once with the TypeError that follows). (mission.py L186-193, L422-437) -/
def Y.asList : Y → Res (List Y)
  | .list l => .ok l
  | _ => .error .typeError

/-- A value added to a text: TypeError unless it is a text. (mission.py L124-126) -/
def Y.asText : Y → Res String
  | .str s => .ok s
  | _ => .error .typeError

/-- A value used in arithmetic with numbers. (mission.py L69-71) -/
def Y.asNum : Y → Res ℚ
  | .num q => .ok q
  | .bool b => .ok (if b then 1 else 0)
  | _ => .error .typeError

/-- The timezone entry as `TimeZoneEntry.load` sees it. (mission.py L47-67) -/
def Y.asTz : Y → TzValue
  | .str s => .str s
  | .num q => .num q
  | .bool b => .num (if b then 1 else 0)
  | _ => .other

/-- The two settings kept by `TimeZoneEntry` (mission.py L40-45); `timezone_s` and `offset_s` are computed from
them (L69-71). -/
structure TzEntry where
  timezone : ℚ
  timeoffset : ℚ

/-- mission.py L69-71. -/
def TzEntry.offset (t : TzEntry) : ℚ := t.timezone * 60 * 60 + t.timeoffset

/-- mission.py L47-71 `TimeZoneEntry.load`. -/
def tzLoad (toFloat : String → Option ℚ) (n : Node) : Res TzEntry := do
  let tz ← missionTimezone toFloat (n.getD "timezone" (.num 0)).asTz
  let off ← (n.getD "timeoffset" (.num 0)).asNum
  .ok ⟨tz, off⟩

/-- mission.py L73-75 `TimeZoneEntry.write`. -/
def tzWrite (t : TzEntry) : Node := [("timezone", .num t.timezone), ("timeoffset", .num t.timeoffset)]

/-- mission.py L77-83. -/
structure OriginEntry where
  latitude : Y
  longitude : Y
  crs : Y
  date : Y

/-- mission.py L88-93 `OriginEntry.load`. -/
def originLoad (n : Node) : Res OriginEntry := do
  let lat ← n.req "latitude"
  let lon ← n.req "longitude"
  let crs ← n.req "coordinate_reference_system"
  let date ← n.req "date"
  .ok ⟨lat, lon, crs, date⟩

/-- mission.py L95-99 `OriginEntry.write`. -/
def originWrite (o : OriginEntry) : Node :=
  [("latitude", o.latitude), ("longitude", o.longitude), ("coordinate_reference_system", o.crs),
    ("date", o.date)]

/-- mission.py L102-110; an absent `topic` attribute is `null`. `type` always stays `None` when loaded and is
left out. -/
structure CamEntry where
  name : Y
  recordsLaser : Y
  origin : Y
  path : Y
  topic : Y
  timeoffset : Y
  timeoffsetS : Y

/-- mission.py L103-110: `CameraEntry(None)`. -/
def camEmpty : CamEntry := ⟨.null, .bool false, .null, .null, .null, .null, .null⟩

/-- mission.py L124-126: the origin, if given, must be a text (it is added to one), and so must the name. -/
def camOrigin (n : Node) (name : Y) : Res Y :=
  match n.lookup "origin" with
  | none => .ok .null
  | some o => do
    let _ ← name.asText
    let _ ← o.asText
    .ok o

/-- mission.py L113-122: the warnings on deprecated entries, which add the name to a text. -/
def camDeprecated (n : Node) (name : Y) : Res Unit :=
  if (n.lookup "type").isSome ∨ (n.lookup "bit_depth").isSome then do
    let _ ← name.asText
    .ok ()
  else .ok ()

/-- mission.py L111-135: `CameraEntry(node)` for a mapping. -/
def camLoadDict (n : Node) : Res CamEntry := do
  let name ← n.req "name"
  camDeprecated n name
  let path ← n.req "path"
  let origin ← camOrigin n name
  .ok ⟨name, n.getD "records_laser" (.bool false), origin, path, n.getD "topic" .null,
    n.getD "timeoffset" (.num 0), n.getD "timeoffset_s" .null⟩

/-- mission.py L103-135 `CameraEntry(node)`. -/
def camLoad : Y → Res CamEntry
  | .null => .ok camEmpty
  | y => do
    let n ← y.asDict .typeError
    camLoadDict n

/-- mission.py L137-144 `CameraEntry.write`. -/
def camWrite (c : CamEntry) : Node :=
  [("name", c.name), ("origin", c.origin), ("type", .null), ("path", c.path),
    ("records_laser", c.recordsLaser), ("timeoffset", c.timeoffset)]

/-- mission.py L150-155. -/
structure PayloadEntry where
  tz : TzEntry
  path : Y
  format : Y
  columns : Y

/-- mission.py L157-161 `PayloadEntry.load`. -/
def payloadLoad (toFloat : String → Option ℚ) (n : Node) : Res PayloadEntry := do
  let tz ← tzLoad toFloat n
  let path ← n.req "path"
  let format ← n.req "format"
  .ok ⟨tz, path, format, n.getD "columns" .null⟩

/-- mission.py L163-168 `PayloadEntry.write`. -/
def payloadWrite (p : PayloadEntry) : Node :=
  tzWrite p.tz ++ [("path", p.path), ("format", p.format)] ++
    match p.columns with
    | .null => []
    | c => [("columns", c)]

/-- mission.py L171-177. `calibration` is never set and left out. -/
structure ImageEntry where
  tz : TzEntry
  format : Y
  cameras : List CamEntry

/-- mission.py L189: whether the first camera node has an origin (IndexError without cameras, TypeError for
an empty first node). -/
def firstHasOrigin : List Y → Res Bool
  | [] => .error .indexError
  | y :: _ => do
    let n ← y.asDict .typeError
    .ok (n.lookup "origin").isSome

/-- mission.py L186-193: the cameras of a mission file of version 1 or later. -/
def camerasNew (n : Node) : Res (List CamEntry) := do
  let nodes ← (← n.req "cameras").asList
  let cams ← nodes.mapM camLoad
  if ← firstHasOrigin nodes then .ok cams
  else .ok (cams.map fun c => { c with origin := c.name })

/-- mission.py L197-210: one of the three `seaxerocks_3` cameras. -/
def camSx3 (n : Node) (name key : String) : Res CamEntry := do
  let fp ← (← n.req "filepath").asText
  let c ← (← n.req key).asText
  .ok { camEmpty with name := .str name, origin := .str key, path := .str (fp ++ c), timeoffset := .num 0 }

/-- mission.py L211-219: one of the two `acfr_standard` cameras. -/
def camAcfr (n : Node) (key : String) : Res CamEntry := do
  let name ← n.req key
  let fp ← n.req "filepath"
  .ok { camEmpty with name := name, origin := .str key, path := fp, timeoffset := .num 0 }

/-- mission.py L194-219: the cameras of an older mission file; any other format leaves two empty entries. -/
def camerasOld (n : Node) (format : Y) : Res (List CamEntry) :=
  match format with
  | .str "seaxerocks_3" => do
    let a ← camSx3 n "fore" "camera1"
    let b ← camSx3 n "aft" "camera2"
    let c ← camSx3 n "laser" "camera3"
    .ok [a, b, c]
  | .str "acfr_standard" => do
    let a ← camAcfr n "camera1"
    let b ← camAcfr n "camera2"
    .ok [a, b]
  | _ => .ok [camEmpty, camEmpty]

/-- mission.py L182-219 `ImageEntry.load`. -/
def imageLoad (toFloat : String → Option ℚ) (n : Node) (version : Y) : Res ImageEntry := do
  let tz ← tzLoad toFloat n
  let format ← n.req "format"
  let v ← version.asNum
  let cams ← if v ≥ 1 then camerasNew n else camerasOld n format
  .ok ⟨tz, format, cams⟩

/-- mission.py L221-232 `ImageEntry.write` (`"calibration" in node` never holds of the fresh node). -/
def imageWrite (i : ImageEntry) : Node :=
  tzWrite i.tz ++ [("format", i.format), ("cameras", .list (i.cameras.map fun c => .dict (camWrite c)))]

/-- mission.py L235-248. `origin` is `none` when the attribute does not exist. -/
structure SensorEntry where
  tz : TzEntry
  format : Y
  filepath : Y
  filename : Y
  label : Y
  stdFactor : Y
  stdOffset : Y
  fieldId : Y
  depthFilter : Y
  northEastFilter : Y
  topic : Y
  origin : Option Y

/-- mission.py L253-278 `DefaultEntry.load`. -/
def sensorLoad (toFloat : String → Option ℚ) (n : Node) : Res SensorEntry := do
  let tz ← tzLoad toFloat n
  let format ← n.req "format"
  .ok { tz := tz, format := format
        filepath := n.getD "filepath" (.str "")
        filename := n.getD "filename" (.str "")
        label := n.getD "label" (n.getD "id" (.num 0))
        stdFactor := n.getD "std_factor" (.num 0)
        stdOffset := n.getD "std_offset" (.num 0)
        fieldId := n.getD "field_id" (.num 0)
        depthFilter := n.getD "apply_depth_filter" (.bool true)
        northEastFilter := n.getD "apply_north_east_filter" (.bool true)
        topic := n.getD "topic" .null
        origin := n.lookup "origin" }

/-- mission.py L280-292 `DefaultEntry.write`: into a fresh node, so the tests `"origin" in node` and
`"topic" in node` are both false. -/
def sensorWrite (s : SensorEntry) : Node :=
  tzWrite s.tz ++
    [("format", s.format), ("filepath", s.filepath), ("filename", s.filename), ("label", s.label),
      ("id", s.label), ("std_factor", s.stdFactor), ("std_offset", s.stdOffset)]

/-- mission.py L295-311; `none` for an entry that is `empty()`. -/
structure MissionData where
  version : Y
  origin : OriginEntry
  velocity : Option SensorEntry
  orientation : Option SensorEntry
  depth : Option SensorEntry
  altitude : Option SensorEntry
  usbl : Option SensorEntry
  tide : Option SensorEntry
  deadReckoning : Option SensorEntry
  image : Option ImageEntry
  payloads : List (String × PayloadEntry)

/-- mission.py L342-352 (and L353-396 for the other sensors): load the entry `key` if there is one; its origin
defaults to `frame` and must be a frame of vehicle.yaml. A text that is not ends the program; any other value
fails when it is added to the error message. -/
def framedLoad (toFloat : String → Option ℚ) (data vehicle : Node) (key frame : String) :
    Res (Option SensorEntry) :=
  match data.lookup key with
  | none => .ok none
  | some y => do
    let n ← y.asDict .attributeError
    let s ← sensorLoad toFloat n
    let o := s.origin.getD (.str frame)
    let t ← o.asText
    if (vehicle.lookup t).isSome then .ok (some { s with origin := some o }) else .error .quit

/-- mission.py L398-402: tide and dead reckoning have no frame. -/
def plainLoad (toFloat : String → Option ℚ) (data : Node) (key : String) : Res (Option SensorEntry) :=
  match data.lookup key with
  | none => .ok none
  | some y => do
    let n ← y.asDict .attributeError
    let s ← sensorLoad toFloat n
    .ok (some s)

/-- mission.py L406-419: every camera origin must be a frame of vehicle.yaml. -/
def camerasKnown (vehicle : Node) : List CamEntry → Res Unit
  | [] => .ok ()
  | c :: cs =>
    match c.origin with
    | .str o => if (vehicle.lookup o).isSome then camerasKnown vehicle cs else .error .quit
    | _ => .error .quit

/-- mission.py L404-419. -/
def imageEntryLoad (toFloat : String → Option ℚ) (data vehicle : Node) (version : Y) :
    Res (Option ImageEntry) :=
  match data.lookup "image" with
  | none => .ok none
  | some y => do
    let n ← y.asDict .attributeError
    let i ← imageLoad toFloat n version
    camerasKnown vehicle i.cameras
    .ok (some i)

/-- mission.py L422-437: each payload must be listed in the payloads of vehicle.yaml; one that is not fails
with an AttributeError while the message is built (`payload.origin` does not exist). -/
def payloadsLoadLoop (toFloat : String → Option ℚ) (vehicle : Node) :
    Node → Res (List (String × PayloadEntry))
  | [] => .ok []
  | (name, y) :: rest => do
    let n ← y.asDict .attributeError
    let p ← payloadLoad toFloat n
    let vp ← (← vehicle.req "payloads").asDict .typeError
    if (vp.lookup name).isSome then
      let ps ← payloadsLoadLoop toFloat vehicle rest
      .ok ((name, p) :: ps)
    else .error .attributeError

/-- mission.py L421-437. -/
def payloadsLoad (toFloat : String → Option ℚ) (data vehicle : Node) : Res (List (String × PayloadEntry)) :=
  match data.lookup "payloads" with
  | none => .ok []
  | some y => do
    let d ← y.asDict .typeError
    payloadsLoadLoop toFloat vehicle d

/-- mission.py L298-447 `Mission(filename)` once both files are read. -/
def missionLoad (toFloat : String → Option ℚ) (data vehicle : Node) : Res MissionData := do
  let version := data.getD "version" (.num 0)
  let on ← (← data.req "origin").asDict .typeError
  let origin ← originLoad on
  let velocity ← framedLoad toFloat data vehicle "velocity" "dvl"
  let orientation ← framedLoad toFloat data vehicle "orientation" "ins"
  let depth ← framedLoad toFloat data vehicle "depth" "depth"
  let altitude ← framedLoad toFloat data vehicle "altitude" "dvl"
  let usbl ← framedLoad toFloat data vehicle "usbl" "usbl"
  let tide ← plainLoad toFloat data "tide"
  let dr ← plainLoad toFloat data "dead_reckoning"
  let image ← imageEntryLoad toFloat data vehicle version
  let payloads ← payloadsLoad toFloat data vehicle
  .ok ⟨version, origin, velocity, orientation, depth, altitude, usbl, tide, dr, image, payloads⟩

/-- `mapping[key] = value`, and the effect on the loaded mapping of appending `key: value` to a YAML file (a
repeated key takes the later value). (mission.py L458-509) -/
def Node.setKey (n : Node) (k : String) (v : Y) : Node := n.filter (fun p => p.1 ≠ k) ++ [(k, v)]

/-- mission.py L458-465 and vehicle.py L213-222: writing a mission or vehicle that was loaded from a file copies
the file and appends a `metadata` entry. -/
def copyWithMetadata (data : Node) (metadata : Y) : Node := data.setKey "metadata" metadata

/-- mission.py L474-494: an entry written only when it is not empty. -/
def optWrite (key : String) : Option SensorEntry → Node
  | none => []
  | some s => [(key, .dict (sensorWrite s))]

/-- mission.py L495-497. -/
def optImageWrite : Option ImageEntry → Node
  | none => []
  | some i => [("image", .dict (imageWrite i))]

/-- mission.py L498-503: with two payloads or more the loop runs over the names and calls `.write` on a text
(AttributeError); with one, or none, nothing is written. -/
def payloadsWrite (ps : List (String × PayloadEntry)) : Res Node :=
  if ps.length > 1 then .error .attributeError else .ok []

/-- mission.py L466-509: writing a mission that was built in memory. -/
def missionWrite (m : MissionData) (metadata : Y) : Res Node := do
  let p ← payloadsWrite m.payloads
  .ok ([("version", .num 1), ("metadata", metadata), ("origin", .dict (originWrite m.origin))] ++
    optWrite "velocity" m.velocity ++ optWrite "orientation" m.orientation ++ optWrite "depth" m.depth ++
    optWrite "altitude" m.altitude ++ optWrite "usbl" m.usbl ++ optWrite "tide" m.tide ++
    optWrite "dead_reckoning" m.deadReckoning ++ optImageWrite m.image ++ p)

/-! ## vehicle.py -/

/-- vehicle.py L34-42. -/
structure SensorOffset where
  surge : Y
  sway : Y
  heave : Y
  roll : Y
  pitch : Y
  yaw : Y

/-- vehicle.py L35-41: a new offset. -/
def SensorOffset.zero : SensorOffset := ⟨.num 0, .num 0, .num 0, .num 0, .num 0, .num 0⟩

/-- vehicle.py L47-61 `SensorOffset.load` on an offset `s`, with the mission node (an empty or absent one is
`[]`). -/
def offsetLoad (s : SensorOffset) (n : Node) (mission : Node) : Res SensorOffset :=
  if (n.lookup "surge_m").isSome then do
    let a ← n.req "surge_m"
    let b ← n.req "sway_m"
    let c ← n.req "heave_m"
    let d ← n.req "roll_deg"
    let e ← n.req "pitch_deg"
    let f ← n.req "yaw_deg"
    .ok ⟨a, b, c, d, e, f⟩
  else if (n.lookup "x_offset").isSome then do
    let a ← n.req "x_offset"
    let b ← n.req "y_offset"
    let c ← n.req "z_offset"
    .ok { s with surge := a, sway := b, heave := c, yaw := mission.getD "headingoffset" s.yaw }
  else .ok s

/-- vehicle.py L63-69 `SensorOffset.write`. -/
def offsetWrite (s : SensorOffset) : Node :=
  [("surge_m", s.surge), ("sway_m", s.sway), ("heave_m", s.heave), ("roll_deg", s.roll),
    ("pitch_deg", s.pitch), ("yaw_deg", s.yaw)]

/-- vehicle.py L88-97; `none` for an offset that is `empty()`. -/
structure VehicleData where
  origin : Option SensorOffset
  ins : Option SensorOffset
  dvl : Option SensorOffset
  depth : Option SensorOffset
  usbl : Option SensorOffset
  camera1 : Option SensorOffset
  camera2 : Option SensorOffset
  camera3 : Option SensorOffset
  payloads : List (String × SensorOffset)

/-- vehicle.py L113-131: the offset under `key`, if there is one. `mission` is the node of mission.yaml handed
over (evaluated only when the key is present). -/
def frameLoad (data : Node) (key : String) (mission : Res Node) : Res (Option SensorOffset) :=
  match data.lookup key with
  | none => .ok none
  | some y => do
    let m ← mission
    let n ← y.asDict .typeError
    let s ← offsetLoad .zero n m
    .ok (some s)

/-- vehicle.py L113-127: the mission node of a sensor: only files whose `origin` has the old `x_offset` entry
look at mission.yaml. -/
def missionNodeFor (data missionData : Node) (key : String) : Res Node :=
  match data.lookup "origin" with
  | some (.dict o) =>
    if (o.lookup "x_offset").isSome then do
      let y ← missionData.req key
      match y with
      | .dict d => .ok d
      | .null => .ok []
      | _ => .error .typeError
    else .ok []
  | _ => .ok []

/-- vehicle.py L133-135: the frame of a camera: its origin, or its name when it has none. -/
def camFrame (c : CamEntry) : Y :=
  match c.origin with
  | .null => c.name
  | o => o

/-- vehicle.py L132-192: the offset of camera `i` of the mission: under its origin, or its name when it has
none; a missing frame ends the program. -/
def vehicleCamera (data : Node) (cams : List CamEntry) (i : Nat) : Res (Option SensorOffset) :=
  match cams[i]? with
  | none => .ok none
  | some c =>
    match camFrame c with
    | .str k =>
      match data.lookup k with
      | none => .error .quit
      | some y => do
        let n ← y.asDict .typeError
        let s ← offsetLoad .zero n []
        .ok (some s)
    | _ => .error .quit

/-- vehicle.py L199-202. -/
def vehiclePayloads : Node → Res (List (String × SensorOffset))
  | [] => .ok []
  | (name, y) :: rest => do
    let n ← y.asDict .typeError
    let s ← offsetLoad .zero n []
    let ps ← vehiclePayloads rest
    .ok ((name, s) :: ps)

/-- vehicle.py L198-202. -/
def vehiclePayloadsLoad (data : Node) : Res (List (String × SensorOffset)) :=
  match data.lookup "payloads" with
  | none => .ok []
  | some y => do
    let d ← y.asDict .typeError
    vehiclePayloads d

/-- vehicle.py L88-211 `Vehicle(filename)`: `data` is vehicle.yaml, `missionData` mission.yaml and `cams` the
cameras of the loaded mission. -/
def vehicleLoad (data missionData : Node) (cams : List CamEntry) : Res VehicleData := do
  let origin ← frameLoad data "origin" (.ok [])
  let ins ← frameLoad data "ins" (missionNodeFor data missionData "orientation")
  let dvl ← frameLoad data "dvl" (missionNodeFor data missionData "velocity")
  let depth ← frameLoad data "depth" (.ok [])
  let usbl ← frameLoad data "usbl" (.ok [])
  let c1 ← vehicleCamera data cams 0
  let c2 ← vehicleCamera data cams 1
  let c3 ← vehicleCamera data cams 2
  let payloads ← vehiclePayloadsLoad data
  .ok ⟨origin, ins, dvl, depth, usbl, c1, c2, c3, payloads⟩

end Oplab
