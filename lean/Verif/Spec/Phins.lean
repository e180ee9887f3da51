import Verif.Model.Phins

namespace Oplab.Spec

/-! # What the records of a PHINS log should hold, by the lines read before -/

variable {α : Type}

/-- The text of a time of day, as PHINS writes it: hours, minutes, seconds, point, milliseconds. -/
def clockText (hour mins secs msec : Nat) : List Char := padDigits 2 hour ++ (padDigits 2 mins ++ (padDigits 2 secs ++ ('.' :: padDigits 3 msec)))

/-- The time that was read, if any. -/
def readTime (x : Res (Option ℚ)) : Option ℚ :=
  match x with
  | .ok t => t
  | .error _ => none

/-- The time of a record (`epoch_timestamp`), for the records that have one. -/
def recordTime : PhinsRecord α → Option ℚ
  | .body t _ _ => some t
  | .inertial t _ _ => some t
  | .orient t _ _ => some t
  | .depth t _ _ => some t
  | .altitude t _ _ _ _ => some t
  | .rdi _ _ _ _ _ => none

/-- The time on the last time line, if there is one and it can be read. -/
def lastTime (rd : List Char → Option ℚ) (hist : List (PhinsLine α)) : Option ℚ :=
  hist.foldl (fun t l => match l with | .time s => rd s | _ => t) none

/-- Velocity and text of the time on the last DVL line. -/
def lastDvl (hist : List (PhinsLine α)) : Option (V3 α × List Char) :=
  hist.foldl (fun t l => match l with | .dvl v s => some (v, s) | _ => t) none

/-- The last altitude line. -/
def lastAltitude (hist : List (PhinsLine α)) : Option (α × α × α) :=
  hist.foldl (fun t l => match l with | .altitude s k a => some (s, k, a) | _ => t) none

/-- The standard deviation read since the last line of the velocity. -/
def stdSinceVel (hist : List (PhinsLine α)) : Option (V3 α) :=
  hist.foldl (fun t l => match l with | .velStd v => some v | .vel _ => none | _ => t) none

/-- What `f` says for every line, given the lines before it. -/
def perLine (f : List (PhinsLine α) → PhinsLine α → List (PhinsRecord α)) : List (PhinsLine α) → List (PhinsLine α) → List (PhinsRecord α)
  | _, [] => []
  | hist, l :: ls => f hist l ++ perLine f (hist ++ [l]) ls

/-- A DVL line gives a record with its own velocity and time and with the time of the last time line, if both can be read. -/
def dvlRecord (rd rdDvl : List Char → Option ℚ) (body : V3 α → V3 α) (hist : List (PhinsLine α)) : PhinsLine α → List (PhinsRecord α)
  | .dvl v s => match lastTime rd hist, rdDvl s with
    | some t, some td => [.body t td (body v)]
    | _, _ => []
  | _ => []

/-- A velocity line gives a record with its own velocity and the standard deviation read since the one before. -/
def velRecord (rd : List Char → Option ℚ) (f : V3 α → V3 α) (hist : List (PhinsLine α)) : PhinsLine α → List (PhinsRecord α)
  | .vel v => match lastTime rd hist with
    | some t => [.inertial t (f v) ((stdSinceVel hist).map f)]
    | none => []
  | _ => []

/-- A depth line gives a record with its own depth and time. -/
def depthRecord (rd rdDepth : List Char → Option ℚ) (hist : List (PhinsLine α)) : PhinsLine α → List (PhinsRecord α)
  | .depth d s => match lastTime rd hist, rdDepth s with
    | some t, some td => [.depth t td d]
    | _, _ => []
  | _ => []

/-- An altitude line gives a record with its own altitude and the time of the last DVL line. -/
def altitudeRecord (rd rdDvl : List Char → Option ℚ) (hist : List (PhinsLine α)) : PhinsLine α → List (PhinsRecord α)
  | .altitude s k a => match lastTime rd hist, (lastDvl hist).bind fun x => rdDvl x.2 with
    | some t, some td => [.altitude t td s k a]
    | _, _ => []
  | _ => []

/-- `l` has the property `P` whenever it follows `hist` in the log. -/
def EveryLine (P : List (PhinsLine α) → PhinsLine α → Prop) (lines : List (PhinsLine α)) : Prop :=
  ∀ hist l rest, lines = hist ++ l :: rest → P hist l

def isBody : PhinsRecord α → Bool | .body _ _ _ => true | _ => false
def isInertial : PhinsRecord α → Bool | .inertial _ _ _ => true | _ => false
def isAttitude : PhinsLine α → Bool | .attitude _ _ => true | _ => false
def isHeading : PhinsLine α → Bool | .heading _ => true | _ => false

/-- What the INS sends in one cycle: attitude, its standard deviation and the time. -/
structure InsCycle (α : Type) where
  heading : α
  roll : α
  pitch : α
  sHeading : α
  sRoll : α
  sPitch : α
  time : List Char
  t : ℚ

/-- The record of the attitude of `k`, with time and standard deviation of `s`. Signs of roll and pitch are changed and the heading offset is
applied. -/
def cycleRecord (neg : α → α) (orient std : V3 α → V3 α) (s k : InsCycle α) : PhinsRecord α :=
  .orient s.t (orient ⟨neg k.roll, neg k.pitch, k.heading⟩) (std ⟨s.sRoll, s.sPitch, s.sHeading⟩)

/-- The lines of a cycle in the order of the manual: heading, attitude, standard deviations, time. -/
def manualOrder (k : InsCycle α) : List (PhinsLine α) :=
  [.heading k.heading, .attitude k.roll k.pitch, .attitudeStd k.sHeading k.sRoll k.sPitch, .time k.time]

/-- Time and standard deviations before the attitude. -/
def timeFirst (k : InsCycle α) : List (PhinsLine α) :=
  [.time k.time, .attitudeStd k.sHeading k.sRoll k.sPitch, .heading k.heading, .attitude k.roll k.pitch]

end Oplab.Spec
