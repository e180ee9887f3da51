import Verif.Model.BrightImages

/-! # Specification for C250 -/

namespace Oplab.Spec
open Oplab

/-- `m` is the brightness of the brightest pixel, where the brightness of a pixel is the mean of its channels. -/
def Brightest {K : Type} [Field K] [LinearOrder K] (rows : List (List (List K))) (m : K) : Prop :=
  (∃ row ∈ rows, ∃ px ∈ row, px.sum / px.length = m) ∧ ∀ row ∈ rows, ∀ px ∈ row, px.sum / px.length ≤ m

/-- The image has a pixel brighter than the threshold. -/
def HasBright {K : Type} [Field K] [LinearOrder K] (load : String → Res (BrightImg K)) (threshold : K) (p : String) : Prop :=
  ∃ rows, load p = .ok (.colour rows) ∧ ∃ row ∈ rows, ∃ px ∈ row, threshold < px.sum / px.length

/-- A path that `to_csv` writes as it is. -/
def PlainPath (p : String) : Prop := ∀ c ∈ p.toList, c ≠ ',' ∧ c ≠ '"' ∧ c ≠ '\n' ∧ c ≠ '\r'

/-- Full property: a folder of images that can be read is processed. -/
def AllProcessed : Prop :=
  ∀ (load : String → Res (BrightImg ℚ)) (jpgs pngs : List String), (∀ p ∈ jpgs ++ pngs, ∃ i, load p = .ok i) →
    ∃ t, brightTable load jpgs pngs = .ok t

/-- Full property: an image with a value above the threshold is listed. -/
def SpotsListed : Prop :=
  ∀ (load : String → Res (BrightImg ℚ)) (jpgs pngs : List String) (t : List (String × ℚ)) (threshold : ℚ), brightTable load jpgs pngs = .ok t →
    ∀ p ∈ jpgs ++ pngs, ∀ rows, load p = .ok (.colour rows) → (∃ row ∈ rows, ∃ px ∈ row, ∃ v ∈ px, threshold < v) →
      p ∈ brightList threshold t

/-- Full property: the printed command keeps exactly the images that are not bright. -/
def KeepsOthers : Prop :=
  ∀ (table : List (String × ℚ)) (threshold : ℚ), (table.map Prod.fst).Nodup →
    ∀ p, p ∈ grepWithout (brightList threshold table) (table.map Prod.fst) ↔ ∃ m, (p, m) ∈ table ∧ ¬ threshold < m

/-- Full property: the attenuation parameters are computed without the bright images. -/
def BrightUnused : Prop :=
  ∀ (stem : String → String) (table : List (String × ℚ)) (threshold : ℚ) (rows : List (NavRow ℚ)), (table.map Prod.fst).Nodup →
    (∀ r ∈ table, PlainPath r.1) → ∀ r ∈ trimRows stem (grepWithout (brightList threshold table) (table.map Prod.fst)) rows,
      ∀ m, (r.path, m) ∈ table → ¬ threshold < m

/-- What a reader of csv files takes from the rest of a text in quotes: two quotes are one, one quote ends the text. -/
def inQuotes : List Char → Option (List Char)
  | [] => none
  | ['"'] => some []
  | '"' :: '"' :: cs => (inQuotes cs).map ('"' :: ·)
  | '"' :: _ => none
  | c :: cs => (inQuotes cs).map (c :: ·)

/-- How a reader of csv files takes a line with one text: without quotes it ends at a comma or the end of the line. -/
def csvReads : List Char → Option (List Char)
  | '"' :: cs => inQuotes cs
  | cs => if ',' ∈ cs ∨ '\n' ∈ cs ∨ '\r' ∈ cs then none else some cs

end Oplab.Spec
