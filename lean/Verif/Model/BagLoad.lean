import Verif.Model.Basic
import Mathlib.Algebra.Order.Field.Basic
import Mathlib.Algebra.Order.Group.Unbundled.Abs

/-!
Model of /repo/src/correct_images/loaders/rosbag.py and loader.py, and of the choice of a loader in
/repo/src/correct_images/corrector.py.  Times are numbers of an ordered field, the pixels of an image are listed.  Reading
of bags and the decoding of their images (`rosbag`, `cv2`, `cv_bridge`) are not modelled: a message has the pixels that the
decoder gives.
-/

namespace Oplab

/-- An image message of a bag: its topic, the time at which it was recorded, its own stamp and its pixels.
(loaders/rosbag.py L33-51) -/
structure BagImage (K : Type) where
  topic : String
  received : K
  secs : ℕ
  nsecs : ℕ
  pixels : List ℕ

section
variable {K : Type} [Field K] [LinearOrder K]

/-- sensors.py L24-39 `ros_stamp_to_epoch`. -/
def stampEpoch (m : BagImage K) : K := (m.secs : K) + (m.nsecs : K) * (1 / 1000000000)

/-- loaders/rosbag.py L33-37: what `read_messages` gives for a topic and two times. -/
def readMessages (topic : String) (start stop : K) (bag : List (BagImage K)) : List (BagImage K) :=
  bag.filter fun m => m.topic = topic ∧ start ≤ m.received ∧ m.received ≤ stop

/-- loaders/rosbag.py L33-53: the messages of one bag. -/
def bagSearch (t offset : K) : List (BagImage K) → Option (BagImage K)
  | [] => none
  | m :: ms => if |stampEpoch m - offset - t| < 5 / 1000 then some m else bagSearch t offset ms

/-- loaders/rosbag.py L31-55: the bags. -/
def bagsSearch (topic : String) (t offset : K) : List (List (BagImage K)) → Option (BagImage K)
  | [] => none
  | b :: bs =>
    match bagSearch t offset (readMessages topic (t - 1 / 2 + offset) (t + 1 / 2 + offset) b) with
    | some m => some m
    | none => bagsSearch topic t offset bs

/-- loaders/rosbag.py L22-55 `loader`. -/
def bagLoad (t : K) (topic : String) (bags : List (List (BagImage K))) (offset : K) (srcBit : ℕ) : Option (List K) :=
  (bagsSearch topic t offset bags).map fun m => m.pixels.map fun p : ℕ => (p : K) * (1 / 2 ^ srcBit)

/-- The loaders of loaders/loader.py L23-34. -/
inductive LoaderKind where
  | xviii | default | rosbag
deriving DecidableEq

/-- loaders/loader.py L6-20: the state of a `Loader`. -/
structure LoaderState (K : Type) where
  bitDepth : Option ℕ := none
  kind : Option LoaderKind := none
  topic : Option String := none
  offset : K
  bags : List (List (BagImage K)) := []

/-- loaders/loader.py L23-35 `set_loader`. -/
def LoaderState.setLoader (s : LoaderState K) (name : String) : Res (LoaderState K) :=
  if name = "xviii" then .ok { s with kind := some .xviii }
  else if name = "default" then .ok { s with kind := some .default }
  else if name = "rosbag" then .ok { s with kind := some .rosbag }
  else .error .quit

/-- corrector.py L262-277: the loader for images with an ending.  The offset is computed only for bags; it may fail
(`correctOffset`). -/
def chooseLoader (bitDepth : Option ℕ) (extension : String) (offset : Res K) : Res (LoaderState K) := do
  let s : LoaderState K := { bitDepth := bitDepth, offset := 0 }
  if extension = "raw" then s.setLoader "xviii"
  else if extension = "bag" then do
    let s ← s.setLoader "rosbag"
    let o ← offset
    .ok { s with offset := o }
  else s.setLoader "default"

/-- loaders/loader.py L41-54 `__call__`.  The other loaders are parameters; a loader that was not set is `None`, and cannot
be called. -/
def LoaderState.call (xviii default : String → ℕ → Option (List K)) (number : String → Res K) (s : LoaderState K)
    (image : String) : Res (Option (List K)) :=
  match s.bitDepth with
  | none => .error .quit
  | some bits =>
    match s.kind with
    | some .rosbag => do
      let t ← number image
      .ok (bagLoad t (s.topic.getD "None") s.bags s.offset bits)
    | some .xviii => .ok (xviii image bits)
    | some .default => .ok (default image bits)
    | none => .error .typeError

end
end Oplab
