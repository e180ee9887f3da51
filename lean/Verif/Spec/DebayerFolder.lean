import Verif.Model.DebayerFolder

/-! # Specification for C255 -/

namespace Oplab.Spec
open Oplab

/-- The steps are those of workers for the images `stems`: each is read once and then written once, in any order among them. -/
def DebayerSchedule (stems : List (List Char)) (steps : List DebayerStep) : Prop :=
  ∀ t, steps.filter (fun e => e.stem = t) = if t ∈ stems then [.read t, .write t] else []

/-- The result of a run: the image of every stem is converted, and all other files are as before. -/
def Debayered {P : Type} (conv : P → Option P) (a : DebayerArgs) (stems : List (List Char)) (before after : PicFile → Option P) : Prop :=
  (∀ t ∈ stems, ∃ p q, before (a.src, picName t a.ext) = some p ∧ conv p = some q ∧ after (a.out, picName t ['p', 'n', 'g']) = some q) ∧
  ∀ f, (∀ t ∈ stems, f ≠ (a.out, picName t ['p', 'n', 'g'])) → after f = before f

/-- The four patterns by their names, small or capital letters. -/
def patternCode : List (String × BayerCode) :=
  [("rggb", .bg), ("RGGB", .bg), ("grbg", .gb), ("GRBG", .gb), ("bggr", .rg), ("BGGR", .rg), ("gbrg", .gr), ("GBRG", .gr)]

/-- Full property: a run writes an image for every image it was given, for each of the patterns of the help text (L79). -/
def AllDebayered : Prop :=
  ∀ (conv : BayerCode → ℕ → Option ℕ) (a : DebayerArgs) (files : PicFile → Option ℕ) (t : List Char) (p : ℕ),
    a.pattern ∈ ["RGGB", "GRBG", "BGGR", "GBRG", "MONO"] → files (a.src, picName t a.ext) = some p → (∀ c, (conv c p).isSome = true) →
    ∃ after, debayerRun conv a files [.read t, .write t] = .ok after ∧ (after (a.out, picName t ['p', 'n', 'g'])).isSome = true

/-- Full property: a run does not change the images it reads. -/
def BayerSourcesKept : Prop :=
  ∀ (conv : BayerCode → ℕ → Option ℕ) (a : DebayerArgs) (files after : PicFile → Option ℕ) (t : List Char),
    debayerRun conv a files [.read t, .write t] = .ok after → after (a.src, picName t a.ext) = files (a.src, picName t a.ext)

end Oplab.Spec
