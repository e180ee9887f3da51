import Verif.Model.Config
import Verif.Model.Outputs
import Verif.Model.Time

/-! `auv_nav process` as a run: settings, the folder of the results, the files that are written and the points where it stops
(/repo/src/auv_nav/process.py, function `process`).  The numerical parts are modelled elsewhere; here they appear as numbers of entries. -/

namespace Oplab

/-- Beginning of file names of a solution (process.py L1744-2024). -/
def Estimate.tag : Estimate → List Char
  | .dr => ['a', 'u', 'v', '_', 'd', 'r', '_']
  | .pf => ['a', 'u', 'v', '_', 'p', 'f', '_']
  | .ekf => ['a', 'u', 'v', '_', 'e', 'k', 'f', '_']

/-- Parts of names (process.py L550, L1749-2022). -/
def centreName : List Char := ['c', 'e', 'n', 't', 'r', 'e']
@[inherit_doc centreName] def dvlName : List Char := ['d', 'v', 'l']
@[inherit_doc centreName] def sssName : List Char := ['c', 'e', 'n', 't', 'r', 'e', '_', 's', 's', 's']
@[inherit_doc centreName] def laserSuffix : List Char := ['_', 'l', 'a', 's', 'e', 'r']
@[inherit_doc centreName] def atDvlSuffix : List Char := ['_', 'l', 'a', 's', 'e', 'r', '_', 'a', 't', '_', 'd', 'v', 'l']
@[inherit_doc centreName] def renavPrefix : List Char := ['j', 's', 'o', 'n', '_', 'r', 'e', 'n', 'a', 'v', '_']

/-! ## Settings -/

/-- The value of `if v:`. (process.py L526, L536, L752, L1598, L1711, L2025) -/
def Y.truthy : Y → Bool
  | .null => false
  | .bool b => b
  | .num q => q ≠ 0
  | .str s => s ≠ ""
  | .list l => !l.isEmpty
  | .dict d => !d.isEmpty

/-- The value of `v is True`. (csv_tools.py L48, L259) -/
def Y.isTrue : Y → Bool
  | .bool b => b
  | _ => false

/-- `d[section][key]` (process.py L201-359): the section must be a mapping. -/
def sub (d : Node) (section' key : String) : Res Y := do
  let s ← d.req section'
  let n ← s.asDict .typeError
  n.req key

/-- The flags of the section `csv_output`. -/
structure CsvFlags where
  usbl : Y
  drCentre : Y
  drDvl : Y
  drCam1 : Y
  drCam2 : Y
  drCam3 : Y
  drPayload : Y
  pfCentre : Y
  pfDvl : Y
  pfCam1 : Y
  pfCam2 : Y
  pfCam3 : Y
  pfPayload : Y
  ekfCentre : Y
  ekfCam1 : Y
  ekfCam2 : Y
  ekfCam3 : Y
  ekfPayload : Y

/-- process.py L300-323. -/
def readCsvFlags (d : Node) : Res (Bool × CsvFlags) := do
  let act ← d.req "activate"
  let usbl ← d.req "usbl"
  let dr ← (← d.req "dead_reckoning").asDict .typeError
  let dr1 ← dr.req "auv_centre"
  let dr2 ← dr.req "auv_dvl"
  let dr3 ← dr.req "camera_1"
  let dr4 ← dr.req "camera_2"
  let dr5 ← dr.req "camera_3"
  let pf ← (← d.req "particle_filter").asDict .typeError
  let pf1 ← pf.req "auv_centre"
  let pf2 ← pf.req "auv_dvl"
  let pf3 ← pf.req "camera_1"
  let pf4 ← pf.req "camera_2"
  let pf5 ← pf.req "camera_3"
  let ekf ← (← d.req "ekf").asDict .typeError
  let ekf1 ← ekf.req "auv_centre"
  let ekf2 ← ekf.req "camera_1"
  let ekf3 ← ekf.req "camera_2"
  let ekf4 ← ekf.req "camera_3"
  .ok (act.truthy, ⟨usbl, dr1, dr2, dr3, dr4, dr5, dr.getD "payload" (.bool true), pf1, pf2, pf3, pf4, pf5,
    pf.getD "payload" (.bool true), ekf1, ekf2, ekf3, ekf4, ekf.getD "payload" (.bool true)⟩)

/-- `np.asarray(l).reshape((n, n))` (process.py L284-294). -/
def reshapeSquare {α : Type} (n : Nat) (l : List α) : Res (List (List α)) :=
  if l.length = n * n then .ok ((List.range n).map fun i => (l.drop (n * i)).take n) else .error .valueError

/-- `d[0:k, 0:k]` (process.py L285, L287). -/
def cropSquare {α : Type} (k : Nat) (m : List (List α)) : List (List α) := (m.take k).map fun r => r.take k

/-- process.py L277-299: process noise and initial covariance as 12 x 12 matrices; only the length of the first is looked at. -/
def ekfMatrices {α : Type} (noise initial : List α) : Res (List (List α) × List (List α)) :=
  if noise.length ≠ 144 then do
    let a ← reshapeSquare 15 noise
    let b ← reshapeSquare 15 initial
    .ok (cropSquare 12 a, cropSquare 12 b)
  else do
    let a ← reshapeSquare 12 noise
    let b ← reshapeSquare 12 initial
    .ok (a, b)

/-- process.py L220-264: one quantity of `sensors_std`, `old` being the key of earlier versions (L222-227; none for the orientation).
`std` is the section `std`; the result is the entry with a model. (Aliasing of the old and the new entry is not represented: nothing reads the old
one afterwards.) -/
def stdEntry (std : Option Node) (key : String) (old : Option String) : Res Node := do
  let found : Option Y ← match std, old with
    | none, _ => .ok none
    | some n, none => .ok (n.lookup key)
    | some n, some o =>
      match n.lookup key with
      | some v => .ok (some v)
      | none => (n.req o).map some
  match found with
  | none => .ok [("model", .str "sensor")]
  | some v => do
    let d ← v.asDict .typeError
    .ok (if (d.lookup "model").isSome then d else d ++ [("model", .str "sensor")])

/-- Local variables of `process` after the settings are read; `none` is a variable that was never assigned. -/
structure RunSettings (α : Type) where
  usblFilter : Option Bool
  pf : Bool
  pfInterval : Option Y
  ekf : Bool
  smoother : Bool
  threshold : Y
  matrices : Option (List (List α) × List (List α))
  csv : Bool
  csvFlags : Option CsvFlags
  spp : Bool
  sppFlags : Option (Y × Y × Y)
  plot : Option (Bool × Bool)

/-- process.py L200-204. -/
def readUsblFilter (d : Node) : Res (Option Bool) :=
  if (d.lookup "usbl_filter").isNone then .ok none else do
    let a ← sub d "usbl_filter" "activate"
    let _ ← sub d "usbl_filter" "max_auv_speed"
    let _ ← sub d "usbl_filter" "sigma_factor"
    .ok (some a.truthy)

/-- process.py L193, L205-219. -/
def readPf (d : Node) : Res (Bool × Option Y) :=
  if (d.lookup "particle_filter").isNone then .ok (false, none) else do
    let a ← sub d "particle_filter" "activate"
    let _ ← sub d "particle_filter" "dvl_noise_sigma_factor"
    let _ ← sub d "particle_filter" "imu_noise_sigma_factor"
    let _ ← sub d "particle_filter" "usbl_noise_sigma_factor"
    let _ ← sub d "particle_filter" "particles_number"
    let t ← sub d "particle_filter" "particles_plot_time_interval"
    .ok (a.truthy, some t)

/-- process.py L194-196, L265-299; `num` reads an entry as a number (`astype(float)`). -/
def readEkf {α : Type} (num : Y → Res α) (d : Node) : Res (Bool × Bool × Y × Option (List (List α) × List (List α))) :=
  if (d.lookup "ekf").isNone then .ok (false, true, .num 3, none) else do
    let n ← (← d.req "ekf").asDict .typeError
    let a ← n.req "activate"
    let noise ← (← n.req "process_noise_covariance").asList
    let initial ← (← n.req "initial_estimate_covariance").asList
    let noise ← noise.mapM num
    let initial ← initial.mapM num
    let m ← ekfMatrices noise initial
    .ok (a.truthy, (n.getD "activate_smoother" (.bool true)).truthy, n.getD "mahalanobis_distance_threshold" (.num 3), some m)

/-- process.py L300-331. -/
def readCsv (d : Node) : Res (Bool × Option CsvFlags) :=
  if (d.lookup "csv_output").isNone then .ok (false, none) else do
    let n ← (← d.req "csv_output").asDict .typeError
    let r ← readCsvFlags n
    .ok (r.1, some r.2)

/-- process.py L197, L333-354. -/
def readSpp (d : Node) (ekf : Bool) : Res (Bool × Option (Y × Y × Y)) :=
  if (d.lookup "spp_output").isNone then .ok (false, none) else do
    let a ← sub d "spp_output" "activate"
    let n ← (← sub d "spp_output" "ekf").asDict .typeError
    let c1 ← n.req "camera_1"
    let c2 ← n.req "camera_2"
    let c3 ← n.req "camera_3"
    .ok (a.truthy && ekf, some (c1, c2, c3))

/-- process.py L356-359. -/
def readPlot (d : Node) : Res (Option (Bool × Bool)) :=
  if (d.lookup "plot_output").isNone then .ok none else do
    let a ← sub d "plot_output" "activate"
    let h ← sub d "plot_output" "html_plot"
    .ok (some (a.truthy, h.truthy))

/-- process.py L192-359. -/
def readSettings {α : Type} (num : Y → Res α) (d : Node) : Res (RunSettings α) := do
  let u ← readUsblFilter d
  let p ← readPf d
  let e ← readEkf num d
  let c ← readCsv d
  let s ← readSpp d e.1
  let g ← readPlot d
  .ok ⟨u, p.1, p.2, e.1, e.2.1, e.2.2.1, e.2.2.2, c.1, c.2, s.1, s.2, g⟩

/-! ## Third camera, time window, folder of the results -/

/-- process.py L377-413: where the third camera is on the vehicle. `c1 c2 c3` are the positions of the cameras in vehicle.yaml, `lasers` the values
of `records_laser` of the cameras of the mission (`some true` is `True`). -/
def camera3Position {α : Type} (format : String) (c1 c2 c3 : α) (lasers : List (Option Bool)) : Res α :=
  if format = "biocam" then do
    let a ← pyGet lasers 0
    if a = some true then .ok c1 else do
      let b ← pyGet lasers 1
      if b = some true then .ok c2 else .error .quit
  else .ok c3

/-- process.py L424-433: first and last second; `times` are those of the entries of nav_standard.json (the first one is the origin). -/
def timeWindow (times : List ℚ) (start finish : List Char) : Res (ℚ × ℚ) := do
  let a ← if start = [] then pyGet times 1 else stringToEpoch start
  let b ← if finish = [] then pyGet times (-1) else stringToEpoch finish
  .ok (a, b)

/-- process.py L548-557: the name of the folder from the two dates (14 digits each). -/
def renavName (start finish : List Char) : List Char :=
  renavPrefix ++ slice start 0 8 ++ ['_'] ++ slice start 8 14 ++ ['_'] ++ slice finish 0 8 ++ ['_'] ++ slice finish 8 14

/-- process.py L558-580: whether the run goes on and writes into the folder. -/
def renavGuard (isDir force relative : Bool) : Res Unit :=
  if isDir = false then .ok ()
  else if !force && !relative then .error .quit
  else .ok ()

/-! ## Files -/

/-- A file asked for: folder, name, flag, number of entries. (process.py L1744-2024; `sss`: a sidescan file, L2001-2024) -/
structure FileReq where
  folder : Estimate
  name : List Char
  flag : Y
  count : Nat
  sss : Bool

/-- csv_tools.py L48, L237-243: whether the file is written. -/
def FileReq.written (r : FileReq) : Bool := if r.sss then r.flag.truthy && r.count > 0 else r.flag.isTrue && r.count > 1

/-- Numbers of entries of the lists when the files are written. Dead reckoning has one entry per synchronised measurement; the lists of a
camera have a length for each solution. -/
structure RunLists where
  dr : Nat
  pf : Nat
  ekf : Nat
  cam1 : Estimate → Nat
  cam2 : Estimate → Nat
  cam3 : Estimate → Nat
  atDvl : Nat
  payloads : List (List Char × Nat)

/-- process.py L1789-1825: the payload files; `key` as in `payloadDict`. -/
def payloadReqs (c : CsvFlags) (l : List (List Char × Nat)) : List FileReq :=
  l.map fun p =>
    match payloadFolder p.1 with
    | (.pf, n) => ⟨.pf, n, c.pfPayload, p.2, false⟩
    | (.ekf, n) => ⟨.ekf, n, c.ekfPayload, p.2, false⟩
    | (.dr, n) => ⟨.dr, n, c.drPayload, p.2, false⟩

/-- process.py L1827-1999: the files of one camera in the folders of the three solutions. -/
def cameraReqs (pf ekf : Bool) (name : List Char) (fdr fpf fekf : Y) (n : Estimate → Nat) : List FileReq :=
  [⟨.dr, Estimate.tag .dr ++ name, fdr, n .dr, false⟩] ++
    (if pf then [⟨.pf, Estimate.tag .pf ++ name, fpf, n .pf, false⟩] else []) ++
    (if ekf then [⟨.ekf, Estimate.tag .ekf ++ name, fekf, n .ekf, false⟩] else [])

/-- process.py L1827-1859: the first camera. -/
def cam1Reqs (pf ekf : Bool) (c : CsvFlags) (cams : List (List Char)) (n : Estimate → Nat) : Res (List FileReq) :=
  if n .dr > 0 then do
    let name ← pyGet cams 0
    .ok (cameraReqs pf ekf name c.drCam1 c.pfCam1 c.ekfCam1 n)
  else .ok []

/-- process.py L1860-1894: the second camera. -/
def cam2Reqs (pf ekf : Bool) (c : CsvFlags) (cams : List (List Char)) (n : Estimate → Nat) : Res (List FileReq) :=
  if n .dr > 1 then do
    let name ← pyGet cams 1
    .ok (cameraReqs pf ekf name c.drCam2 c.pfCam2 c.ekfCam2 n)
  else .ok []

/-- process.py L1895-1999: the third camera, also at the dvl. -/
def cam3Reqs (pf ekf : Bool) (c : CsvFlags) (cams : List (List Char)) (n : Estimate → Nat) (atDvl : Nat) : List FileReq :=
  if n .dr > 1 then
    match (if cams.length > 2 then cams[2]? else if cams.length = 2 then cams[1]? else none) with
    | some name => cameraReqs pf ekf (name ++ laserSuffix) c.drCam3 c.pfCam3 c.ekfCam3 n ++
        (if ekf then [⟨.ekf, Estimate.tag .ekf ++ name ++ atDvlSuffix, c.ekfCam3, atDvl, false⟩] else [])
    | none => []
  else []

/-- process.py L1744-1787: the vehicle itself. -/
def vehicleReqs (c : CsvFlags) (l : RunLists) : List FileReq :=
  [⟨.dr, Estimate.tag .dr ++ centreName, c.drCentre, l.dr, false⟩, ⟨.dr, Estimate.tag .dr ++ dvlName, c.drDvl, l.dr, false⟩,
    ⟨.pf, Estimate.tag .pf ++ centreName, c.pfCentre, l.pf, false⟩, ⟨.pf, Estimate.tag .pf ++ dvlName, c.pfDvl, l.pf, false⟩,
    ⟨.ekf, Estimate.tag .ekf ++ centreName, c.ekfCentre, l.ekf, false⟩]

/-- process.py L2001-2024: the sidescan files. -/
def sidescanReqs (pf ekf : Bool) (c : CsvFlags) (l : RunLists) : List FileReq :=
  [⟨.dr, Estimate.tag .dr ++ sssName, c.drCentre, l.dr, true⟩] ++
    (if pf then [⟨.pf, Estimate.tag .pf ++ sssName, c.pfCentre, l.pf, true⟩] else []) ++
    (if ekf then [⟨.ekf, Estimate.tag .ekf ++ sssName, c.ekfCentre, l.ekf, true⟩] else [])

/-- process.py L1744-2024: all files asked for, in order. -/
def csvRequests (pf ekf : Bool) (c : CsvFlags) (cams : List (List Char)) (l : RunLists) : Res (List FileReq) := do
  let a ← cam1Reqs pf ekf c cams l.cam1
  let b ← cam2Reqs pf ekf c cams l.cam2
  .ok (vehicleReqs c l ++ payloadReqs c l.payloads ++ a ++ b ++ cam3Reqs pf ekf c cams l.cam3 l.atDvl ++ sidescanReqs pf ekf c l)

/-- process.py L752: `if usbl_filter_activate`. -/
def usblStage {α : Type} (s : RunSettings α) : Res Bool :=
  match s.usblFilter with
  | none => .error .unboundLocal
  | some b => .ok b

/-- process.py L1598-1706: the interactive plots; the last one needs `particles_time_interval` and `usbl_list_no_dist_filter` (assigned only if
the filter ran). -/
def plotStage {α : Type} (s : RunSettings α) (filtered : Bool) : Res Unit :=
  match s.plot with
  | none => .error .unboundLocal
  | some (act, html) =>
    if act && html then
      if s.pfInterval.isNone || !filtered then .error .unboundLocal else .ok ()
    else .ok ()

/-- process.py L1711-2024: the csv files. (Threads started before an exception go on; the files asked for before a failing camera name are not
represented.) -/
def csvStage {α : Type} (s : RunSettings α) (cams : List (List Char)) (l : RunLists) : Res (List FileReq) :=
  if s.csv then
    match s.csvFlags with
    | none => .error .unboundLocal
    | some c => (csvRequests s.pf s.ekf c cams l).map fun r => r.filter FileReq.written
  else .ok []

/-- process.py L752, L1598-2024: the files written after the computation. -/
def outputStage {α : Type} (s : RunSettings α) (cams : List (List Char)) (l : RunLists) : Res (List FileReq) := do
  let f ← usblStage s
  let _ ← plotStage s f
  csvStage s cams l

/-! ## Relative uncertainties -/

/-- process.py L1445-1451: covariances (lists of rows flattened) of all states but the first are increased by that of the first, which is then set
to zero. -/
def relativeCovariances {K : Type} [Add K] [Zero K] : List (List K) → List (List K)
  | [] => []
  | c :: cs => c.map (fun _ => 0) :: cs.map fun d => List.zipWith (· + ·) d c

/-- process.py L1326-1380, L1436-1444 up to the results: `ekfOn` is the setting, `cams` the number of cameras of the mission, `found` the states
found in the earlier results, `cropped` the number of images chosen (`cropLoop`). The lists of images for the EKF are only filled if it is switched
on in the settings (L536). -/
def relativeStage (ekfOn ekfSection : Bool) (cams found cropped : Nat) : Res Unit :=
  if cams < 3 then .error .indexError
  else if found = 0 then .error .quit
  else if !ekfSection then .error .unboundLocal
  else if !ekfOn || cropped = 0 then .error .quit
  else if cropped ≠ found then .error .assertion
  else .ok ()

end Oplab
