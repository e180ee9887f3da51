import Verif.Model.ParseTasks

/-! # Specification for C221 -/

namespace Oplab.Spec
open Oplab

/-- The kind of measurements a part of mission.yaml asks for. -/
def kind : Sec → String
  | .image => "images"
  | .usbl => "usbl"
  | .velocity => "velocity"
  | .orientation => "orientation"
  | .depth => "depth"
  | .altitude => "altitude"
  | .tide => "tide"

/-- The category of its records. -/
def recordKind : Sec → String
  | .image => "image"
  | s => kind s

/-- The formats that are supported for each part of mission.yaml. -/
def supported : Sec → List String
  | .image => ["acfr_standard", "unagi", "seaxerocks_3", "biocam", "biocam4000_15c", "ntnu_stereo", "rosbag_extracted_images", "rosbag", "stereo_gopro", "voyis"]
  | .usbl => ["gaps", "usbl_dump", "NOC_nmea", "eiva_navipac", "rosbag", "koyo21rov", "alr", "alr2", "sonardyne_mrt", "sonardyne_gga", "sonardyne_gga2",
      "sonardyne_gga3", "sonardyne_gga4"]
  | .velocity => ["phins", "ae2000", "alr", "autosub", "rdi", "ntnu_dvl", "rosbag", "koyo21rov"]
  | .orientation => ["phins", "ae2000", "alr", "koyo21rov", "autosub", "rdi", "eiva_navipac", "rosbag"]
  | .depth => ["phins", "ae2000", "alr", "koyo21rov", "autosub", "gaps", "eiva_navipac", "rosbag"]
  | .altitude => ["phins", "ae2000", "alr", "koyo21rov", "autosub", "rdi", "ntnu_dvl", "rosbag"]
  | .tide => ["NOC_polpred", "NOC_CTI"]

/-- Every part that is there has a supported format. -/
def AllSupported (m : Sec → SecCfg) : Prop := ∀ s, (m s).present = true → (m s).format ∈ supported s

/-- The measurements of the part `s` are read from the files named there, and recorded as what they are. -/
structure Own (m : Sec → SecCfg) (s : Sec) (src : Source) : Prop where
  folder : src.folder = (m s).folder
  file : ∀ f, src.file = some f → f = (m s).file
  records : src.records = recordKind s

/-- The part `s` names the same files as the part `other`. -/
def SameFiles (m : Sec → SecCfg) (s other : Sec) : Prop := (m s).folder = (m other).folder ∧ (m s).file = (m other).file

/-- The full claim: whatever is configured in a supported format is read from its own files. -/
def AllOwn : Prop := ∀ (m : Sec → SecCfg) (ts : List ParseTask), parseTasks m = .ok ts →
  ∀ t ∈ ts, ∀ s, t.category = kind s → ∃ src, runTask m t = .ok src ∧ Own m s src

/-- Logs that hold the measurements of several sensors are named alike wherever they are used: those of the vehicles in the part of the velocity, those of the ROV of 2021
in the part of the orientation, those of the acoustic positioning in the part of the positions. -/
structure SharedLogs (m : Sec → SecCfg) : Prop where
  vehicle : ∀ s, (m s).format ∈ ["phins", "alr", "autosub"] → SameFiles m s .velocity
  ae2000 : ∀ s, (m s).format = "ae2000" → (m s).folder = (m .velocity).folder
  dvl : (m .altitude).format = "ntnu_dvl" → (m .altitude).folder = (m .velocity).folder
  gaps : (m .depth).format = "gaps" → (m .depth).folder = (m .usbl).folder
  koyoDepth : (m .depth).format = "koyo21rov" → SameFiles m .depth .orientation
  koyoAltitude : (m .altitude).format = "koyo21rov" → SameFiles m .altitude .orientation

end Oplab.Spec
