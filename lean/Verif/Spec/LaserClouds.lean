import Verif.Model.LaserClouds
import Mathlib.Data.List.SplitOn

/-! How a cloud of points is read, and what pictures of detections should show. -/

namespace Oplab.Spec

/-- The words of a line. -/
def plyWords (l : Text) : List Text := (l.splitOn ' ').filter (· ≠ [])

/-- Three numbers. -/
def plyVertex {K : Type} (parse : Text → Option K) (l : Text) : Option (V3 K) :=
  match plyWords l with
  | [x, y, z] => do
    let a ← parse x
    let b ← parse y
    let c ← parse z
    some ⟨a, b, c⟩
  | _ => none

/-- A reader of clouds of points in text (PLY): the words of the header, the number of points, then one point per line and
nothing more. -/
def readPly {K : Type} (parse : Text → Option K) (t : Text) : Option (List (V3 K)) :=
  match t.splitOn '\n' with
  | a :: b :: c :: d :: e :: f :: g :: rest =>
    if plyWords a = ["ply".toList] ∧ plyWords b = ["format".toList, "ascii".toList, "1.0".toList] ∧
        plyWords d = ["property".toList, "float".toList, "x".toList] ∧
        plyWords e = ["property".toList, "float".toList, "y".toList] ∧
        plyWords f = ["property".toList, "float".toList, "z".toList] ∧ plyWords g = ["end_header".toList] then
      match plyWords c with
      | [x, y, n] =>
        if x = "element".toList ∧ y = "vertex".toList ∧ rest.drop (Nat.ofDigitChars 10 n 0) = [[]] then
          (rest.take (Nat.ofDigitChars 10 n 0)).mapM (plyVertex parse)
        else none
      | _ => none
    else none
  | _ => none

/-- A writer of numbers whose texts are single words and are read back as the number rounded. -/
structure Formats {K : Type} (fmt : K → Text) (parse : Text → Option K) (round : K → K) : Prop where
  word : ∀ x, fmt x ≠ [] ∧ ' ' ∉ fmt x ∧ '\n' ∉ fmt x
  reads : ∀ x, parse (fmt x) = some (round x)

/-- `random.sample`: `n` members at different positions, in any order. -/
def DrawsFrom {V : Type} (sample : ℕ → List V → List V) : Prop :=
  ∀ n l, n ≤ l.length → ∃ s, List.Sublist s l ∧ s.length = n ∧ (sample n l).Perm s

/-- No plane is fitted to more points than the largest size of a cloud that is set. -/
def FitLimited : Prop :=
  ∀ (V : Type) (two : Bool) (maxCloud : ℕ) (strat : List V → Res (List V)) (sample : ℕ → List V → List V)
    (top bottom : List V) (r : CloudRun V), DrawsFrom sample → cloudRun two maxCloud strat sample top bottom = .ok r →
    r.fitted.length ≤ maxCloud

/-- One run of the calibration with its settings and what the detector finds. -/
structure DetRun (P : Type) where
  overwrite : Bool
  two : Bool
  left : List P × List P
  right : List P × List P

/-- A history of runs on one pair of images, beginning without files. -/
inductive PairHistory {P : Type} : List (DetRun P) → PairFilesSt P → Prop
  | nil : PairHistory [] ⟨none, none, none, none⟩
  | cons (rs : List (DetRun P)) (s s' : PairFilesSt P) (r : DetRun P) (d : (List P × List P) × (List P × List P)) :
      PairHistory rs s → pairRun r.overwrite r.two r.left r.right s = .ok (d, s') → PairHistory (r :: rs) s'

/-- After every run the pictures show the detections that the run works with. -/
def PicturesCurrent : Prop :=
  ∀ (P : Type) (rs : List (DetRun P)) (s s' : PairFilesSt P) (r : DetRun P) (d : (List P × List P) × (List P × List P)),
    PairHistory rs s → pairRun r.overwrite r.two r.left r.right s = .ok (d, s') →
    s'.leftPic = some d.1 ∧ s'.rightPic = some d.2

end Oplab.Spec
