import Verif.Model.CsvFiles

/-!
# CSV rows, loading poses, SLAM++ output

Models the rows of /repo/src/auv_nav/sensors.py, `load_states` and `spp_csv` of
/repo/src/auv_nav/tools/csv_tools.py, and the conversion to relative poses in
/repo/src/auv_nav/process.py.  The text of a number is left abstract: a field is its text.
-/

namespace Oplab

/-! ### Rows -/

/-- Text of a row: the fields separated by commas, then a newline. -/
def csvLine (fields : List Text) : Text := [','].intercalate fields ++ ['\n']

/-- Reading a line back (`pandas.read_csv` for fields without quotes): drop the newline, cut
at the commas. (/repo/src/auv_nav/tools/csv_tools.py L119-122) -/
def readLine (line : Text) : List Text := line.dropLast.splitOn ','

/-- `Camera`, sensors.py L1835-1847 and L1590-1631: the attributes that go to its file. -/
structure CamRec (V : Type) where
  filename : V
  northings : V
  eastings : V
  depth : V
  roll : V
  pitch : V
  yaw : V
  altitude : V
  epoch : V
  latitude : V
  longitude : V
  xVel : V
  yVel : V
  zVel : V
  northingsStd : V
  eastingsStd : V
  depthStd : V
  rollStd : V
  pitchStd : V
  yawStd : V
  xVelStd : V
  yVelStd : V
  zVelStd : V
  vrollStd : V
  vpitchStd : V
  vyawStd : V

/-- sensors.py L1935-1946 `Camera.get_csv_header`. -/
def camHeader : List String :=
  ["relative_path", "northing [m]", "easting [m]", "depth [m]", "roll [deg]", "pitch [deg]",
   "heading [deg]", "altitude [m]", "timestamp [s]", "latitude [deg]", "longitude [deg]",
   "x_velocity [m/s]", "y_velocity [m/s]", "z_velocity [m/s]", "vehicle_std_x [m]",
   "vehicle_std_y [m]", "vehicle_std_z [m]", "vehicle_std_roll [deg]", "vehicle_std_pitch [deg]",
   "vehicle_std_yaw [deg]", "vehicle_std_vx [m/s]", "vehicle_std_vy [m/s]", "vehicle_std_vz [m/s]",
   "vehicle_std_vroll [deg/s]", "vehicle_std_vpitch [deg/s]", "vehicle_std_vyaw [deg/s]"]

/-- sensors.py L1985-2040 `Camera.to_csv_row`: the fields in order. -/
def camRow {V : Type} (c : CamRec V) : List V :=
  [c.filename, c.northings, c.eastings, c.depth, c.roll, c.pitch, c.yaw, c.altitude, c.epoch,
   c.latitude, c.longitude, c.xVel, c.yVel, c.zVel, c.northingsStd, c.eastingsStd, c.depthStd,
   c.rollStd, c.pitchStd, c.yawStd, c.xVelStd, c.yVelStd, c.zVelStd, c.vrollStd, c.vpitchStd,
   c.vyawStd]

/-- Looking up a column of a row by its name. (sensors.py L1957-1983) -/
def column {V : Type} (row : List (String × V)) (name : String) : Res V :=
  match row.lookup name with
  | some v => .ok v
  | none => .error .keyError

/-- sensors.py L1957-1983 `Camera.from_df`. -/
def camFromDf {V : Type} (row : List (String × V)) : Res (CamRec V) := do
  pure {
    filename := ← column row "relative_path"
    northings := ← column row "northing [m]"
    eastings := ← column row "easting [m]"
    depth := ← column row "depth [m]"
    roll := ← column row "roll [deg]"
    pitch := ← column row "pitch [deg]"
    yaw := ← column row "heading [deg]"
    altitude := ← column row "altitude [m]"
    epoch := ← column row "timestamp [s]"
    latitude := ← column row "latitude [deg]"
    longitude := ← column row "longitude [deg]"
    xVel := ← column row "x_velocity [m/s]"
    yVel := ← column row "y_velocity [m/s]"
    zVel := ← column row "z_velocity [m/s]"
    northingsStd := ← column row "vehicle_std_x [m]"
    eastingsStd := ← column row "vehicle_std_y [m]"
    depthStd := ← column row "vehicle_std_z [m]"
    rollStd := ← column row "vehicle_std_roll [deg]"
    pitchStd := ← column row "vehicle_std_pitch [deg]"
    yawStd := ← column row "vehicle_std_yaw [deg]"
    xVelStd := ← column row "vehicle_std_vx [m/s]"
    yVelStd := ← column row "vehicle_std_vy [m/s]"
    zVelStd := ← column row "vehicle_std_vz [m/s]"
    vrollStd := ← column row "vehicle_std_vroll [deg/s]"
    vpitchStd := ← column row "vehicle_std_vpitch [deg/s]"
    vyawStd := ← column row "vehicle_std_vyaw [deg/s]" }

/-- `SyncedOrientationBodyVelocity`: the attributes that go to its file. -/
structure CentreRec (V : Type) where
  epoch : V
  northings : V
  eastings : V
  depth : V
  roll : V
  pitch : V
  yaw : V
  altitude : V
  latitude : V
  longitude : V
  northingsStd : V
  eastingsStd : V
  depthStd : V
  rollStd : V
  pitchStd : V
  yawStd : V
  xVelStd : V
  yVelStd : V
  zVelStd : V
  vrollStd : V
  vpitchStd : V
  vyawStd : V

/-- sensors.py L1737-1748 `get_csv_header`. -/
def centreHeader : List String :=
  ["timestamp", "northing [m]", "easting [m]", "depth [m]", "roll [deg]", "pitch [deg]",
   "heading [deg]", "altitude [m]", "latitude [deg]", "longitude [deg]", "vehicle_std_x [m]",
   "vehicle_std_y [m]", "vehicle_std_z [m]", "vehicle_std_roll [deg]", "vehicle_std_pitch [deg]",
   "vehicle_std_yaw [deg]", "vehicle_std_vx [m/s]", "vehicle_std_vy [m/s]", "vehicle_std_vz [m/s]",
   "vehicle_std_vroll [deg/s]", "vehicle_std_vpitch [deg/s]", "vehicle_std_vyaw [deg/s]"]

/-- sensors.py L1785-1832 `to_csv_row`: the fields in order. -/
def centreRow {V : Type} (c : CentreRec V) : List V :=
  [c.epoch, c.northings, c.eastings, c.depth, c.roll, c.pitch, c.yaw, c.altitude, c.latitude,
   c.longitude, c.northingsStd, c.eastingsStd, c.depthStd, c.rollStd, c.pitchStd, c.yawStd,
   c.xVelStd, c.yVelStd, c.zVelStd, c.vrollStd, c.vpitchStd, c.vyawStd]

/-- sensors.py L1713-1735 `from_df`. -/
def centreFromDf {V : Type} (row : List (String × V)) : Res (CentreRec V) := do
  pure {
    epoch := ← column row "timestamp"
    northings := ← column row "northing [m]"
    eastings := ← column row "easting [m]"
    depth := ← column row "depth [m]"
    roll := ← column row "roll [deg]"
    pitch := ← column row "pitch [deg]"
    yaw := ← column row "heading [deg]"
    altitude := ← column row "altitude [m]"
    latitude := ← column row "latitude [deg]"
    longitude := ← column row "longitude [deg]"
    northingsStd := ← column row "vehicle_std_x [m]"
    eastingsStd := ← column row "vehicle_std_y [m]"
    depthStd := ← column row "vehicle_std_z [m]"
    rollStd := ← column row "vehicle_std_roll [deg]"
    pitchStd := ← column row "vehicle_std_pitch [deg]"
    yawStd := ← column row "vehicle_std_yaw [deg]"
    xVelStd := ← column row "vehicle_std_vx [m/s]"
    yVelStd := ← column row "vehicle_std_vy [m/s]"
    zVelStd := ← column row "vehicle_std_vz [m/s]"
    vrollStd := ← column row "vehicle_std_vroll [deg/s]"
    vpitchStd := ← column row "vehicle_std_vpitch [deg/s]"
    vyawStd := ← column row "vehicle_std_vyaw [deg/s]" }

/-! ### load_states -/

/-- sensors.py L1949-1955: the variables of the covariance header. -/
def covVars : List String := ["x", "y", "z", "roll", "pitch", "yaw"]

/-- sensors.py L1948-1955 `Camera.get_csv_header_cov`, as columns after removal of blanks
(csv_tools.py L124-128). -/
def covHeader : List String :=
  "relative_path" :: covVars.flatMap (fun a => covVars.map (fun b => "cov_" ++ a ++ "_" ++ b))

/-- csv_tools.py L129-167 `expected_headers`. -/
def expectedCovHeader : List String :=
  ["relative_path", "cov_x_x", "cov_x_y", "cov_x_z", "cov_x_roll", "cov_x_pitch", "cov_x_yaw",
   "cov_y_x", "cov_y_y", "cov_y_z", "cov_y_roll", "cov_y_pitch", "cov_y_yaw", "cov_z_x",
   "cov_z_y", "cov_z_z", "cov_z_roll", "cov_z_pitch", "cov_z_yaw", "cov_roll_x", "cov_roll_y",
   "cov_roll_z", "cov_roll_roll", "cov_roll_pitch", "cov_roll_yaw", "cov_pitch_x",
   "cov_pitch_y", "cov_pitch_z", "cov_pitch_roll", "cov_pitch_pitch", "cov_pitch_yaw",
   "cov_yaw_x", "cov_yaw_y", "cov_yaw_z", "cov_yaw_roll", "cov_yaw_pitch", "cov_yaw_yaw"]

/-- csv_tools.py L168: `len(headers) < 37 or headers[0:37] != expected_headers` quits. -/
def checkCovHeader (headers : List String) : Res Unit :=
  if headers.length < 37 ∨ headers.take 37 ≠ expectedCovHeader then .error .quit else .ok ()

/-- sensors.py L2042-2050: the entries of a covariance row. -/
def covEntries {V : Type} (cov : Nat → Nat → V) : List V :=
  (List.range 6).flatMap (fun a => (List.range 6).map (fun b => cov a b))

/-- csv_tools.py L202: `reshape((6, 6))` of the 36 columns. -/
def covReshape {V : Type} (entries : List V) (a b : Nat) : Option V := entries[6 * a + b]?

/-- A line of the concatenated table, csv_tools.py L173: `none` where one of the files is
shorter (NaN). -/
structure StateLine (P C : Type) where
  pose : Option (String × P)
  cov : Option (String × C)

/-- csv_tools.py L173 `pd.concat([poses, covariances], axis=1)`. -/
def concatTables {P C : Type} : List (String × P) → List (String × C) → List (StateLine P C)
  | [], cs => cs.map (fun c => ⟨none, some c⟩)
  | p :: ps, cs => ⟨some p, cs.head?⟩ :: concatTables ps cs.tail

/-- csv_tools.py L174-206: the loop over the lines.  Different file names on a line are only
reported, but the message cannot be built if one of them is missing (`TypeError`). -/
def loadLoop {P C : Type} (first last : String) :
    Bool → List (StateLine P C) → Res (List (String × P × C))
  | _, [] => .ok []
  | use, l :: ls =>
    let path := l.pose.map (·.1)
    let use := use || decide (path = some first)
    let stop := decide (path = some last)
    if use then
      match l.pose, l.cov with
      | some p, some c => do
        let rest ← if stop then pure [] else loadLoop first last use ls
        pure ((p.1, p.2, c.2) :: rest)
      | _, _ => .error .typeError
    else if stop then .ok []
    else loadLoop first last use ls

/-- csv_tools.py L106-233 `load_states`, after the headers have been accepted. -/
def loadStates {P C : Type} (first last : String) (poses : List (String × P))
    (covs : List (String × C)) : Res (List (String × P × C)) :=
  loadLoop first last false (concatTables poses covs)

/-! ### SLAM++ output -/

/-- csv_tools.py L326-331: exchange the columns of roll and yaw in the first six rows
(`j = inf[12*i+3]; inf[12*i+3] = inf[12*i+5]; inf[12*i+5] = j`).  Nothing happens to a list
that is too short (the code raises `IndexError`); the list has 72 entries here. -/
def swapCols {V : Type} (inf : List V) (i : Nat) : List V :=
  match inf[12 * i + 3]?, inf[12 * i + 5]? with
  | some a, some b => (inf.set (12 * i + 3) b).set (12 * i + 5) a
  | _, _ => inf

/-- csv_tools.py L332-334: exchange the rows of roll and yaw. -/
def swapRows {V : Type} (inf : List V) : List V :=
  inf.take 36 ++ (inf.drop 60).take 12 ++ (inf.drop 48).take 12 ++ (inf.drop 36).take 12 ++ inf.drop 72

/-- csv_tools.py L336-343: `inf += inf[i:6]; inf = inf[12:]`. -/
def keepUpper {V : Type} (inf : List V) (i : Nat) : List V :=
  (inf ++ (inf.take 6).drop i).drop 12

/-- csv_tools.py L318-343: entries of the information matrix as written, from its rows in
order. -/
def sppInfo {V : Type} (inf : List V) : List V :=
  let inf := inf.take (inf.length - 72)
  let inf := (List.range 6).foldl swapCols inf
  let inf := swapRows inf
  (List.range 6).foldl keepUpper inf

/-- Rows of a 12 by 12 matrix, csv_tools.py L318-319. -/
def flatten12 {V : Type} (m : Nat → Nat → V) : List V :=
  (List.range 144).map (fun k => m (k / 12) (k % 12))

/-- Python `s[-11:-4]`. (csv_tools.py L282) -/
def imageDigits (s : Text) : Text := (s.take (s.length - 4)).drop (s.length - 11)

/-- Python `s.isdigit()` (ASCII). (csv_tools.py L283) -/
def isDigits (s : Text) : Bool := !s.isEmpty && s.all Char.isDigit

/-- `int(s)` of digits. (csv_tools.py L284-302) -/
def digitsVal (s : Text) : Int :=
  s.foldl (fun n c => 10 * n + ((c.toNat - '0'.toNat : Nat) : Int)) 0

/-- csv_tools.py L282-302: node number of an image; `int` of a file name that is
not a number raises. -/
def nodeNumber (offset : Int) (filename : Text) : Res Int :=
  if isDigits (imageDigits filename) then .ok (digitsVal (imageDigits filename) - offset)
  else if isDigits filename then .ok (digitsVal filename)
  else .error .valueError

/-- csv_tools.py L279-286: the offset is taken from the first image if it has a number. -/
def nodeOffset : List Text → Int
  | [] => 0
  | f :: _ => if isDigits (imageDigits f) then digitsVal (imageDigits f) else 0

/-- csv_tools.py L280-302: the two node numbers of every line. -/
def sppNodes (files : List Text) : Res (List (Int × Int)) :=
  files.mapM (fun f => do
    let n ← nodeNumber (nodeOffset files) f
    pure (n, n + 1))

/-- process.py L2041-2048: `list[i] -= list[i + 1]`. -/
def relStep {K : Type} [Sub K] (l : List K) (i : Nat) : List K :=
  match l[i]?, l[i + 1]? with
  | some a, some b => l.set i (a - b)
  | _, _ => l

/-- process.py L2041-2049: relative poses of the first camera (one coordinate). -/
def sppRelative {K : Type} [Sub K] (l : List K) : List K :=
  ((List.range (l.length - 1)).foldl relStep l).dropLast

/-- process.py L2033-2069: the poses handed to `spp_csv` for the first and the second
camera. -/
def sppPoses {K : Type} [Sub K] (cam1 cam2 : List K) : List K × List K :=
  (sppRelative cam1, cam2)

end Oplab
