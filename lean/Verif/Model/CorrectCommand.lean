import Verif.Model.Basic
import Mathlib.Algebra.Order.Floor.Defs
import Mathlib.Algebra.Order.Floor.Ring
import Mathlib.Data.Rat.Floor
import Mathlib.Data.Nat.Notation

/-! # The commands of correct_images

`/repo/src/correct_images/parser.py`, `correct_images.py` and the parts of `corrector.py` that choose files. -/

namespace Oplab

/-! ## Settings -/

/-- The section `colour_correction` of correct_images.yaml as far as parser.py L39-97 looks at it: limits are (minimum,
maximum). An entry `parse` or `process` is assumed to have both of its limits. -/
structure ColourNode (K : Type) where
  metric : String
  parse : Option (K × K)
  process : Option (K × K)
  minM : Option K
  maxM : Option K
  smoothing : String
  window : ℕ

/-- parser.py L15-37 `ColourCorrection`. -/
structure ColourSettings (K : Type) where
  metric : String
  parse : K × K
  process : K × K
  smoothing : String
  window : ℕ

/-- parser.py L50-55: the deprecated `none` means `uniform`. -/
def metricOf (m : String) : String := if m = "none" then "uniform" else m

/-- parser.py L39-97. -/
def readColour {K : Type} (n : ColourNode K) : Res (ColourSettings K) :=
  if metricOf n.metric ∈ ["uniform", "altitude", "depth_map"] then
    match n.parse, n.process, n.minM, n.maxM with
    | some a, some b, _, _ => .ok ⟨metricOf n.metric, a, b, n.smoothing, n.window⟩
    | _, _, some lo, some hi => .ok ⟨metricOf n.metric, (lo, hi), (lo, hi), n.smoothing, n.window⟩
    | _, _, _, _ => .error .quit
  else .error .quit

/-- parser.py L260-324 `CorrectConfig`, as far as the commands use it. -/
structure CorrConfig (K : Type) where
  method : String
  colour : Option (ColourSettings K)
  cameras : List String

/-- parser.py L390-404: the loop over the names, for lists of the same length. -/
def sameNames : List String → List String → Bool
  | a :: as, b :: bs => if a = b then sameNames as bs else false
  | _, _ => true

/-- parser.py L326-406 `is_equivalent`. -/
def isEquivalent {K : Type} (c d : CorrConfig K) : Res Bool :=
  if c.method ≠ d.method then .ok false
  else match c.colour, d.colour with
    | some a, some b =>
      if a.metric ≠ b.metric then .ok false
      else if a.smoothing ≠ b.smoothing then .ok false
      else if a.window ≠ b.window then .ok false
      else if c.cameras.length ≠ d.cameras.length then .ok false
      else .ok (sameNames c.cameras d.cameras)
    | _, _ => .error .attributeError

/-- correct_images.py L212-229: the loop over the camera systems of the dives. -/
def sameSystems (first : String) : List String → Res Unit
  | [] => .ok ()
  | s :: l => if first = s then sameSystems first l else .error .quit

/-- correct_images.py L233-238: the loop over the configurations of the dives. -/
def sameConfigs {K : Type} (first : CorrConfig K) : List (CorrConfig K) → Res Unit
  | [] => .ok ()
  | c :: l => do
    let e ← isEquivalent first c
    if e then sameConfigs first l else .error .quit

/-- correct_images.py L195-241: whether the dives, given as (camera system, configuration), are parsed together. -/
def acceptDives {K : Type} (dives : List (String × CorrConfig K)) : Res Unit :=
  match dives with
  | [] => .error .quit
  | [_] => .ok ()
  | d :: l => do
    sameSystems d.1 ((d :: l).map fun x => x.1)
    sameConfigs d.2 ((d :: l).map fun x => x.2)

/-- corrector.py L285-300 with L197-215: every dive sets the attributes again, so that the bins (L776-781) have the limits of the
last dive. -/
def limitsUsed {K : Type} (dives : List (CorrConfig K)) : Option (K × K) :=
  dives.getLast?.bind fun c => c.colour.map fun s => s.parse

/-! ## Parameter files -/

/-- The files in the folder of the parameters (corrector.py L249-258). -/
inductive ParamFile
  | imagesMap | distancesMap | attenuation | gains | correctedMean | correctedStd | rawMean | rawStd
  deriving DecidableEq

/-- A folder of parameters: which run of `parse` wrote each file. -/
abbrev ParamDir := ParamFile → Option ℕ

/-- All files. -/
def paramFiles : List ParamFile :=
  [.imagesMap, .distancesMap, .attenuation, .gains, .correctedMean, .correctedStd, .rawMean, .rawStd]

/-- corrector.py L730-1073 `generate_attenuation_correction_parameters`: the files saved, in this order. -/
def paramWrites (uniform : Bool) : List ParamFile :=
  if uniform then [.rawMean, .rawStd]
  else [.imagesMap, .distancesMap, .attenuation, .gains, .correctedMean, .correctedStd]

/-- Saving files one after the other. (`np.save`, corrector.py L866-1041) -/
def saveAll (run : ℕ) : List ParamFile → ParamDir → ParamDir
  | [], d => d
  | f :: l, d => saveAll run l (fun g => if g = f then some run else d g)

/-- corrector.py L456-472: whether parse may write to the folder. -/
def parseAllowed (force : Bool) (d : ParamDir) : Bool := force || paramFiles.all fun f => (d f).isNone

/-- One run of parse in a folder that ends (for any reason) after `n` files have been saved. -/
def paramRun (uniform force : Bool) (run n : ℕ) (d : ParamDir) : ParamDir :=
  if parseAllowed force d then saveAll run ((paramWrites uniform).take n) d else d

/-- corrector.py L349-405: the files that process needs. Those loaded besides them for the metric uniform are not used
(L1323-1363). -/
def processNeeds (uniform : Bool) : List ParamFile :=
  if uniform then [.rawMean, .rawStd] else [.attenuation, .gains, .correctedMean, .correctedStd]

/-- The runs that wrote the files that process uses; it ends if one is missing. (corrector.py L349-405) -/
def processLoads (d : ParamDir) : List ParamFile → Res (List ℕ)
  | [] => .ok []
  | f :: l =>
    match d f with
    | none => .error .quit
    | some r => (processLoads d l).map fun rs => r :: rs

/-- corrector.py L326-337: the files copied to the folders of the other dives. -/
def copied : List ParamFile := [.attenuation, .gains, .correctedMean, .correctedStd, .rawMean, .rawStd]

/-- corrector.py L64-79 `copy_file_if_exists`, for the files in turn. -/
def copyAll (src : ParamDir) : List ParamFile → ParamDir → ParamDir
  | [], d => d
  | f :: l, d => copyAll src l (fun g => if g = f then (match src f with | some r => some r | none => d g) else d g)

/-- Setting the folder of a dive. -/
def setDir (s : String → ParamDir) (k : String) (d : ParamDir) : String → ParamDir := fun x => if x = k then d else s x

/-- corrector.py L320-337: copying from the folder of the dive `last`. -/
def copyToDives (last : String) : List String → (String → ParamDir) → (String → ParamDir)
  | [], s => s
  | k :: l, s => copyToDives last l (if k = last then s else setDir s k (copyAll (s last) copied (s k)))

/-- corrector.py L279-339 `parse` for colour correction: the guards of all dives, the parameters in the folder of the last, the
copies. The computation is assumed to succeed. -/
def paramDives (uniform force : Bool) (run : ℕ) (dives : List String) (s : String → ParamDir) : Res (String → ParamDir) :=
  match dives.getLast? with
  | none => .error .quit
  | some last =>
    if dives.all fun k => parseAllowed force (s k) then
      .ok (copyToDives last dives (setDir s last (saveAll run (paramWrites uniform) (s last))))
    else .error .quit

/-! ## The command correct -/

/-- correct_images.py L171: `[Path(path).resolve() for path in args.path]`. The command `parse` has a list of paths; the command
`correct` a single string, whose elements are its characters. -/
def parsePaths (args : List String ⊕ String) : List String :=
  match args with
  | .inl l => l
  | .inr s => s.toList.map fun c => String.singleton c

/-- correct_images.py L172-186: with several paths all of them have to exist. -/
def checkPaths (exist : String → Bool) (paths : List String) : Res Unit :=
  match paths with
  | [_] => .ok ()
  | l => if l.all exist then .ok () else .error .quit

/-- correct_images.py L161-273 `call_parse` up to the first camera: the arguments of memmap exist only for the command `parse`
(L87-101, L262-266). `loadOk` says whether the configurations can be loaded. -/
def callCorrectParse (exist : String → Bool) (loadOk : List String → Res Unit) (args : List String ⊕ String) : Res (List String) := do
  checkPaths exist (parsePaths args)
  loadOk (parsePaths args)
  match args with
  | .inl l => .ok l
  | .inr _ => .error .attributeError

/-- correct_images.py L318-327 `call_correct`: what is parsed, and what is processed afterwards. -/
def callCorrect (exist : String → Bool) (loadOk : List String → Res Unit) (path : String) : Res (List String × String) := do
  let p ← callCorrectParse exist loadOk (.inr path)
  .ok (p, path)

/-! ## camera.yaml and correct_images.yaml -/

/-- The image systems with default files, and the system that the default camera.yaml names. (correct_images.py L422-442 and
L451-486, and the files in /repo/src/auv_nav/default_yaml) -/
def defaultSystems : List (String × String) :=
  [("acfr_standard", "acfr_standard"), ("seaxerocks_3", "seaxerocks_3"), ("biocam", "biocam"), ("biocam4000_15c", "biocam4000_15c"),
   ("hybis", "hybis"), ("ntnu_stereo", "ntnu_stereo"), ("stereo_gopro", "stereo_gopro"), ("voyis", "voyis"), ("rosbag", "rosbag")]

/-- A camera.yaml: its system, and the names and types of its cameras. -/
structure CameraYaml where
  system : String
  cameras : List (String × String)

/-- correct_images.py L444-507: the camera.yaml that is used, for the files in the config and raw folders. `default` gives the
default files. -/
def chooseCameraYaml (config raw : Option CameraYaml) (default : String → CameraYaml) (format : String) : Res CameraYaml :=
  match config, raw with
  | some c, _ => .ok c
  | none, some r => .ok r
  | none, none => if format ∈ defaultSystems.map (fun p => p.1) then .ok (default format) else .error .quit

/-- correct_images.py L540-555: the inner loop, for one camera of the mission. -/
def typesAgree (name : String) (type : Option String) : List (String × String) → Bool
  | [] => true
  | c :: l =>
    if name = c.1 then
      match type with
      | none => typesAgree name type l
      | some t => if t ≠ c.2 then false else typesAgree name type l
    else typesAgree name type l

/-- correct_images.py L444-565: the camera system, for the cameras of the mission as (name, type). `haveConfig` says whether
correct_images.yaml exists; otherwise the default one is copied, which fails for systems without default (L529). -/
def loadSystem (config raw : Option CameraYaml) (default : String → CameraYaml) (format : String) (haveConfig : Bool)
    (mission : List (String × Option String)) : Res CameraYaml := do
  let y ← chooseCameraYaml config raw default format
  if y.system ≠ format then .error .quit
  else if haveConfig = false ∧ format ∉ defaultSystems.map (fun p => p.1) then .error .attributeError
  else if mission.all fun c => typesAgree c.1 c.2 y.cameras then .ok y
  else .error .quit

/-! ## Names of the output folders -/

/-- `str` of a natural number. -/
def natText (n : ℕ) : List Char := Nat.toDigits 10 n

/-- corrector.py L446-449: the suffix, if there is one. -/
def suffixText (suffix : List Char) : List Char := if suffix = [] then [] else '_' :: suffix

/-- corrector.py L420-428, L446-449: the folder of the parameters for colour correction. -/
def paramsFolder (metric suffix : List Char) : List Char := "params_".toList ++ metric ++ suffixText suffix

/-- corrector.py L420-428, L446-449: the folder of the corrected images for colour correction; brightness and contrast are not
negative. -/
def correctedFolder (metric : List Char) (brightness contrast : ℚ) (suffix : List Char) : List Char :=
  "corrected_".toList ++ metric ++ "_mean_".toList ++ natText ⌊brightness⌋₊ ++ "_std_".toList ++ natText ⌊contrast⌋₊ ++ suffixText suffix

/-! ## Cameras in turn -/

/-- correct_images.py L297-316 `call_process` with corrector.py L474-488: for every camera, given as (name, number of images), that
is configured and has images, the images are written to the folder of its name unless there are some and -F is not given. The
folders hold how many images were written by which camera (its place in camera.yaml). -/
def processCameras (force : Bool) (configured : List String) : ℕ → List (String × ℕ) → (String → Option ℕ) → (String → Option ℕ) × Option Err
  | _, [], s => (s, none)
  | i, c :: l, s =>
    if c.2 = 0 ∨ c.1 ∉ configured then processCameras force configured (i + 1) l s
    else if (s c.1).isSome ∧ force = false then (s, some .quit)
    else processCameras force configured (i + 1) l (fun n => if n = c.1 then some i else s n)

end Oplab
