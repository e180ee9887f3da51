import Verif.Spec.Gopro

/-!
C209: pairs of GoPro images.
-/

namespace Oplab.Props
open Oplab Oplab.Spec

private theorem loop_eq {K : Type} (isFile : PathParts → Bool) (cwd : PathParts) (cam1 cam2 : WrittenPath) (rows : List (GoproRow K)) :
    goproLoop isFile cwd cam1 cam2 rows =
      (rows.filter fun r => isFile (inDive cwd cam1 r.left) && isFile (inDive cwd cam2 r.right)).map
        fun r => ⟨r.epoch, cam1.child r.left, cam2.child r.right⟩ := by
  have e : ∀ (c : WrittenPath) (n : String), (c.child n).at cwd = inDive cwd c n := by
    intro c n
    unfold WrittenPath.at WrittenPath.child inDive
    cases c.absolute <;> simp
  induction rows with
  | nil => rfl
  | cons r rest ih =>
    unfold goproLoop
    rw [e, e, ih, List.filter_cons]
    cases isFile (inDive cwd cam1 r.left) <;> cases isFile (inDive cwd cam2 r.right) <;> simp

/-- C209: started in the raw folder of the dive, or with paths from the root in a raw folder, the parser gives a pair for each
row whose images exist, in order, with its time and its images. -/
theorem C209_pairs_partial {K : Type} (isFile : PathParts → Bool) (tables : PathParts → Option (List (GoproRow K))) (raw : PathParts)
    (cam1 cam2 : WrittenPath) (rows : List (GoproRow K)) (hraw : "raw" ∈ (cam1.sibling "filelist.csv").at raw)
    (ht : tables (inDive raw ⟨cam1.absolute, cam1.parts.dropLast⟩ "filelist.csv") = some rows) :
    parseGopro isFile tables raw cam1 cam2 =
      .ok ((rows.filter fun r => isFile (inDive raw cam1 r.left) && isFile (inDive raw cam2 r.right)).map
        fun r => ⟨r.epoch, cam1.child r.left, cam2.child r.right⟩) := by
  have e : (cam1.sibling "filelist.csv").at raw = inDive raw ⟨cam1.absolute, cam1.parts.dropLast⟩ "filelist.csv" := by
    unfold WrittenPath.at WrittenPath.sibling inDive
    cases cam1.absolute <;> simp
  unfold parseGopro getRawFolder getFolder
  rw [if_pos hraw]
  simp only [bind, Except.bind]
  rw [e, ht]
  simp only
  rw [loop_eq]

/-- C209: with paths from the root it does not matter where the command is started. -/
theorem C209_absolute {K : Type} (isFile : PathParts → Bool) (tables : PathParts → Option (List (GoproRow K))) (cwd cwd' : PathParts)
    (cam1 cam2 : WrittenPath) (h1 : cam1.absolute = true) (h2 : cam2.absolute = true) :
    parseGopro isFile tables cwd cam1 cam2 = parseGopro isFile tables cwd' cam1 cam2 := by
  have e : ∀ rows : List (GoproRow K), goproLoop isFile cwd cam1 cam2 rows = goproLoop isFile cwd' cam1 cam2 rows := by
    intro rows
    rw [loop_eq, loop_eq]
    simp [inDive, h1, h2]
  unfold parseGopro
  simp only [WrittenPath.at, WrittenPath.sibling, h1, if_true, e]

/-- C209: not in general: the usual relative paths are looked up below the folder in which the command was started. -/
theorem C209_pairs_false : ¬ GoproPairs := by
  intro h
  obtain ⟨out, h1, _⟩ := h (fun _ => true) (fun p => if p = ["data", "raw", "dive", "image", "filelist.csv"] then some [] else none)
    ["home"] ["data", "raw", "dive"] ⟨false, ["image", "left"]⟩ ⟨false, ["image", "right"]⟩ [] (by decide) (by decide) (by rfl)
  have e : (parseGopro (K := ℚ) (fun _ => true) (fun p => if p = ["data", "raw", "dive", "image", "filelist.csv"] then some [] else none)
    ["home"] ⟨false, ["image", "left"]⟩ ⟨false, ["image", "right"]⟩) = .error .quit := by rfl
  rw [e] at h1
  cases h1

/-- C209: the check of folders is passed exactly if all of them exist. -/
theorem C209_dirs (isDir : PathParts → Bool) (dirs : List PathParts) : checkDirsExist isDir dirs = true ↔ ∀ d ∈ dirs, isDir d = true := by
  induction dirs with
  | nil => simp [checkDirsExist]
  | cons d rest ih =>
    unfold checkDirsExist
    cases hd : isDir d <;> simp [hd, ih]

/-- A pair with both images and one without the right one. -/
example : (parseGopro (K := ℚ) (fun p => p ≠ ["raw", "d", "r", "2.jpg"])
    (fun p => if p = ["raw", "d", "filelist.csv"] then some [⟨1, "1.jpg", "1.jpg"⟩, ⟨2, "2.jpg", "2.jpg"⟩] else none) ["raw"]
    ⟨false, ["d", "l"]⟩ ⟨false, ["d", "r"]⟩).map (fun l => l.map fun p => p.epoch) = .ok [1] := by
  rw [C209_pairs_partial _ _ ["raw"] _ _ [⟨1, "1.jpg", "1.jpg"⟩, ⟨2, "2.jpg", "2.jpg"⟩] (by decide) (by rfl)]
  rfl

end Oplab.Props
