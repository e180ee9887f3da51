import Verif.Model.AlrTime
import Verif.Model.Time
import Mathlib.Order.Basic

/-! # Specification for C197 -/

namespace Oplab.Spec
open Oplab
variable {K : Type} [Field K] [LinearOrder K]

/-- The vehicle time of a poll in seconds. -/
def vehicleTime (p : ClockPoll) : K := (p.alr : K) / 1000

/-- The BioCam time of a poll in seconds: the middle of its two readings. -/
def biocamMid (p : ClockPoll) : K := ((p.bc0 : K) + (p.bc1 : K)) / 2 / 1000

/-- `y` is the BioCam time at the vehicle time `t`: on the straight line through two consecutive polls, those around `t`; before the second and
after the last but one the line is extended. -/
def OnClockLine (polls : List ClockPoll) (t y : K) : Prop :=
  ∃ (i : ℕ) (p q : ClockPoll), polls[i]? = some p ∧ polls[i + 1]? = some q ∧
    (i = 0 ∨ vehicleTime p ≤ t) ∧ (i + 2 = polls.length ∨ t < vehicleTime q) ∧
    (y - biocamMid p) * (vehicleTime q - vehicleTime p) = (t - vehicleTime p) * (biocamMid q - biocamMid p)

/-- All logs that are in order of time give a correction for every time. -/
def AllPollsUsable (K : Type) [Field K] [LinearOrder K] : Prop :=
  ∀ polls : List ClockPoll, polls ≠ [] → (polls.map ClockPoll.bc0).Pairwise (· ≤ ·) → (polls.map ClockPoll.alr).Pairwise (· ≤ ·) →
    ∃ f : ClockFit K, fitClocks polls = .ok f ∧ ∀ stamp, ∃ y, correctStamp f 1 stamp = .ok y

/-- Later stays later. -/
def CorrectionKeepsOrder (K : Type) [Field K] [LinearOrder K] : Prop :=
  ∀ (polls : List ClockPoll) (f : ClockFit K), fitClocks polls = .ok f → ∀ s s' y y', s < s' →
    correctStamp f 1 s = .ok y → correctStamp f 1 s' = .ok y' → y < y'

/-- A line of a serial log that records a poll: its times are the fields 1, 5 and 7, here with `w` digits. -/
structure PollText where
  head : List Char
  f2 : List Char
  f3 : List Char
  f4 : List Char
  f6 : List Char
  w : ℕ
  poll : ClockPoll

/-- The text of the line. -/
def PollText.text (l : PollText) : List Char :=
  l.head ++ ',' :: (padDigits l.w l.poll.bc0 ++ ',' :: (l.f2 ++ ',' :: (l.f3 ++ ',' :: (l.f4 ++ ',' :: (padDigits l.w l.poll.alr ++ ',' :: (l.f6 ++ ',' ::
    (padDigits l.w l.poll.bc1 ++ ['\n'])))))))

/-- The numbers fit, and only the fields are separated by commas. -/
def PollText.Good (l : PollText) : Prop :=
  0 < l.w ∧ l.poll.bc0 < 10 ^ l.w ∧ l.poll.alr < 10 ^ l.w ∧ l.poll.bc1 < 10 ^ l.w ∧ ∀ f ∈ [l.head, l.f2, l.f3, l.f4, l.f6], ',' ∉ f

/-- All files that are given are corrected, each into a new file whose name is that of the input with "_corrected" before the extension. -/
def AllFilesCorrected : Prop :=
  ∀ (groups : List (List (List Char))) l, outputFiles (fun _ => false) false groups = .ok l →
    l = groups.flatten.map fun f => (f, f.take (f.length - 4) ++ "_corrected.csv".toList)

/-! ## Specification for C243 -/

/-- A table that can be corrected: it has rows, the column of times, and not yet the column of corrected times. -/
def Correctable (col : List Char) (t : AlrTable K) : Prop :=
  t.rows ≠ [] ∧ col ∈ t.names ∧ "corrected_timestamp".toList ∉ t.names

/-- A row with its corrected time in front: on the line through the polls around the time in column `k`, or empty where there is no time. -/
def CorrectedRow (polls : List ClockPoll) (divisions : K) (k : ℕ) (row row' : List (Option K)) : Prop :=
  ∃ c, row' = c :: row ∧
    match row[k]? with
    | some (some stamp) => ∃ y, c = some y ∧ OnClockLine polls (stamp / divisions) y
    | _ => c = none

/-- The table with the corrected times in a new first column, and all else as it was. -/
def CorrectedTable (polls : List ClockPoll) (divisions : K) (col : List Char) (t t' : AlrTable K) : Prop :=
  t'.names = "corrected_timestamp".toList :: t.names ∧
    ∃ k, t.names[k]? = some col ∧ List.Forall₂ (CorrectedRow polls divisions k) t.rows t'.rows

/-- Either all files are corrected or none. -/
def AllFilesOrNone (K : Type) [Field K] [LinearOrder K] : Prop :=
  ∀ marked logs groups force (divisions : K) col (s : AlrDisk K) e, (alrMain marked logs groups force divisions col s).2 = some e →
    (alrMain marked logs groups force divisions col s).1 = s

/-- A file that is given as an input is never changed. -/
def InputsKept (K : Type) [Field K] [LinearOrder K] : Prop :=
  ∀ marked logs (groups : List (List (List Char))) force (divisions : K) col (s : AlrDisk K), ∀ i ∈ groups.flatten,
    (alrMain marked logs (some groups) force divisions col s).1 i = s i

end Oplab.Spec
