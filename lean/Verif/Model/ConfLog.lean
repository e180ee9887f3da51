import Verif.Model.Basic

/-! # The configuration files of a dive and their copies in the log folder

Models the parts of /repo/src/auv_nav/parse.py, /repo/src/auv_nav/auv_nav.py, /repo/src/auv_nav/process.py and
/repo/src/correct_images/correct_images.py that load the configuration and copy it to the log folder of the dive. `C` is the content of a file. -/

namespace Oplab

/-- The configuration files of a dive: mission.yaml, vehicle.yaml and camera.yaml in the raw folder (parse.py L203-208), camera.yaml, auv_nav.yaml
and correct_images.yaml or correct_images_SUFFIX.yaml in the config folder (process.py L162-163, correct_images.py L479-509). -/
inductive ConfFile
  | mission
  | vehicle
  | cameraRaw
  | cameraConfig
  | auvNav
  | correct (suffix : String)
deriving DecidableEq

/-- The names of copies in the log folder after the time: "_mission.yaml", "_vehicle.yaml", "_camera.yaml", "_auv_nav.yaml",
"_correct_images.yaml". (parse.py L216-218, auv_nav.py L318-320, correct_images.py L558-560) -/
inductive ConfCopy
  | mission
  | vehicle
  | camera
  | auvNav
  | correct
deriving DecidableEq

/-- Configuration files by name and the copies in the log folder by time and name (parse.py L215-221). -/
structure DiveConf (C : Type) where
  conf : ConfFile → Option C
  log : String × ConfCopy → Option C

variable {C : Type}

/-- `copy` into the log folder (/repo/src/oplab/folder_structure.py L138-144): a copy with the same name is replaced. -/
def DiveConf.logged (s : DiveConf C) (t : String) (k : ConfCopy) (c : C) : DiveConf C :=
  { s with log := fun x => if x = (t, k) then some c else s.log x }

/-- Writing a configuration file (folder_structure.py L138-144). -/
def DiveConf.written (s : DiveConf C) (f : ConfFile) (c : Option C) : DiveConf C :=
  { s with conf := fun x => if x = f then c else s.conf x }

/-- A run of one of the commands, or an edit by the user, which includes removing a file. Times are the texts of `time.strftime`; `dflt` is
the file that comes with the program; `valid` says that the dive was parsed, `skip` that it is skipped. (parse.py L183-221, auv_nav.py L308-330,
process.py L159-375, correct_images.py L354-563) -/
inductive ConfOp (C : Type)
  | edit (f : ConfFile) (c : Option C)
  | parse (t : String) (skip : Bool)
  | process (t1 t2 : String) (valid : Bool) (dflt : C)
  | correct (t : String) (suffix : String) (dflt dfltCamera : C)

/-- parse.py L183-221: mission and vehicle are loaded, then copied with camera.yaml, which is not loaded here. Second: the files the run works
with; third: the error, if any. `loads` says that the content of a file can be loaded. -/
def runParse (loads : ConfFile → C → Bool) (s : DiveConf C) (t : String) (skip : Bool) : DiveConf C × List (ConfFile × C) × Option Err :=
  if skip then (s, [], none)
  else
    match s.conf .mission, s.conf .vehicle with
    | some m, some v =>
      if loads .mission m && loads .vehicle v then
        let s := (s.logged t .mission m).logged t .vehicle v
        match s.conf .cameraRaw with
        | some c => (s.logged t .camera c, [(.mission, m), (.vehicle, v)], none)
        | none => (s, [], some .keyError)
      else (s, [], some .quit)
    | _, _ => (s, [], some .quit)

/-- process.py L174-190: a missing auv_nav.yaml is written with the default. -/
def withAuvNav (s : DiveConf C) (dflt : C) : DiveConf C × C :=
  match s.conf .auvNav with
  | some c => (s, c)
  | none => (s.written .auvNav (some dflt), dflt)

/-- auv_nav.py L316-321: auv_nav.yaml is copied before `process` is called, if it exists. -/
def logAuvNav (s : DiveConf C) (t : String) : DiveConf C :=
  match s.conf .auvNav with
  | some c => s.logged t .auvNav c
  | none => s

/-- auv_nav.py L308-330 with process.py L159-375. -/
def runProcess (loads : ConfFile → C → Bool) (s : DiveConf C) (t1 t2 : String) (valid : Bool) (dflt : C) :
    DiveConf C × List (ConfFile × C) × Option Err :=
  let s := logAuvNav s t1
  if valid then
    let (s, a) := withAuvNav s dflt
    match s.conf .mission, s.conf .vehicle with
    | some m, some v =>
      if loads .auvNav a && loads .mission m && loads .vehicle v then
        ((s.logged t2 .mission m).logged t2 .vehicle v, [(.auvNav, a), (.mission, m), (.vehicle, v)], none)
      else (s, [], some .quit)
    | _, _ => (s, [], some .quit)
  else (s, [], some .quit)

/-- correct_images.py L433-493: the camera.yaml that is used: from the config folder, else from the raw folder, else the default. Simplified: the
default is not copied to the config folder, which only the format "rosbag" does. -/
def usedCamera (s : DiveConf C) (dflt : C) : ConfFile × C :=
  match s.conf .cameraConfig, s.conf .cameraRaw with
  | some c, _ => (.cameraConfig, c)
  | none, some c => (.cameraRaw, c)
  | none, none => (.cameraRaw, dflt)

/-- correct_images.py L354-563 `load_configuration_and_camera_system`. -/
def runCorrect (loads : ConfFile → C → Bool) (s : DiveConf C) (t suffix : String) (dflt dfltCamera : C) :
    DiveConf C × List (ConfFile × C) × Option Err :=
  let cam := usedCamera s dfltCamera
  if loads cam.1 cam.2 then
    let (s, c) := match s.conf (.correct suffix) with
      | some c => (s, c)
      | none => (s.written (.correct suffix) (some dflt), dflt)
    if loads (.correct suffix) c then (s.logged t .correct c, [cam, (.correct suffix, c)], none) else (s, [], some .quit)
  else (s, [], some .quit)

/-- One step of the history of a dive (parse.py L183-221, auv_nav.py L308-330, correct_images.py L354-563). -/
def runConf (loads : ConfFile → C → Bool) (s : DiveConf C) : ConfOp C → DiveConf C × List (ConfFile × C) × Option Err
  | .edit f c => (s.written f c, [], none)
  | .parse t skip => runParse loads s t skip
  | .process t1 t2 valid dflt => runProcess loads s t1 t2 valid dflt
  | .correct t suffix dflt dfltCamera => runCorrect loads s t suffix dflt dfltCamera

/-- A history of runs and edits (parse.py L183-221, auv_nav.py L308-330, correct_images.py L354-563). -/
def confHistory (loads : ConfFile → C → Bool) (s : DiveConf C) (ops : List (ConfOp C)) : DiveConf C :=
  ops.foldl (fun s o => (runConf loads s o).1) s

end Oplab
