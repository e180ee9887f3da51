import Verif.Model.Merge
import Verif.Spec.Calendar

/-! # Specification for C199 -/

namespace Oplab.Spec
open Oplab

/-- The name of the folder of a dive that started at `c`: the date, a separator, the time and a description. -/
def diveName (c : DateTime) (sep : Char) (rest : List Char) : List Char :=
  padDigits 4 c.year ++ (padDigits 2 c.month ++ (padDigits 2 c.day ++ (sep :: (padDigits 2 c.hour ++ (padDigits 2 c.minute ++ (padDigits 2 c.second ++ rest))))))

/-- The file with the navigation of a folder. -/
def navFile (dir : Path') : Path' := dir ++ ["nav", "nav_standard.json"]

/-- Dives that can be merged: at least two, dated, with all settings in their raw folders. -/
structure Mergeable (merge : List String → Res String) (fs : FileStore) (dives : List (MergeDive × String)) : Prop where
  two : 2 ≤ dives.length
  dated : ∀ d ∈ dives, ∃ c, diveDate d.1.name = .ok c
  settings : ∀ d ∈ dives, ∀ f ∈ ["mission.yaml", "vehicle.yaml", "camera.yaml"], ∃ s, fs (d.1.raw ++ [f]) = some s
  origins : ∃ m, merge (dives.map Prod.snd) = .ok m
  apart : (dives.map fun d => d.1.processed).Nodup
  inputs : ∀ d ∈ dives, ∀ e ∈ dives, ∀ p f, d.1.raw ++ [f] ≠ e.1.processed ++ p

/-- Parsing dives that can be merged completes. -/
def MergeCompletes : Prop :=
  ∀ time merge interlace fs dives, Mergeable merge fs dives → (parseMerge time merge interlace fs dives).2 = .done

/-- Different sets of dives are merged into different folders. -/
def MergedApart : Prop :=
  ∀ a b : List DateTime, 2 ≤ a.length → 2 ≤ b.length → (∀ c ∈ a ++ b, ValidDate c ∧ c.us = 0) → mergedName a = mergedName b → ∀ c, c ∈ a ↔ c ∈ b

end Oplab.Spec
