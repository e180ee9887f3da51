import Verif.Spec.RescaleYaml
import Verif.Props.RescaleCommand
import Verif.Props.Attenuation
import Mathlib.Tactic.Common
import Mathlib.Tactic.NormNum
import Mathlib.Tactic.Linarith

/-! # C271: rescaling as the settings say -/

namespace Oplab.Props
open Oplab Oplab.Spec

/-- What is read of a section. -/
private def readSection (s : RescaleSection) : RescaleYaml := ⟨.str s.camera, .str s.path, .str s.distance, .str s.method, s.centimetres / 100, s.keep, .str s.output⟩

private theorem read_yaml (s : RescaleSection) : readRescale s.yaml = .ok (readSection s) := rfl

private theorem read_sections : ∀ l : List RescaleSection, readAll readRescale (l.map RescaleSection.yaml) = .ok (l.map readSection)
  | [] => rfl
  | s :: l => by
    rw [List.map_cons, readAll, read_yaml, read_sections l]
    rfl

private theorem camera_written (d : RescaleDisk ℚ) (c : RescaleCam ℚ) (e : String × List Char × List ImgOp) (h : e ∈ (rescaleCamera d c).1) :
    RescaledImage d c e ∧ ImageEnding e.2.1 := by
  obtain ⟨c', hc', hr⟩ := C215_written d [c] e (by
    rw [rescaleCommand, rescaleCameras]
    dsimp only
    split
    · exact h
    · exact List.mem_append_left _ h)
  rw [List.mem_singleton] at hc'
  subst hc'
  exact hr

private theorem section_written (d : RescaleDisk ℚ) (s : RescaleSection) (e : String × List Char × List ImgOp)
    (h : e ∈ (rescaleYamlCamera d (readSection s)).1) :
    RescaledImage d ⟨s.camera, s.path, s.distance, s.method, s.centimetres / 100, s.keep.truthy, s.output⟩ e ∧ ImageEnding e.2.1 := by
  unfold rescaleYamlCamera readSection at h
  dsimp only at h
  split at h
  · split at h
    · cases h
    · exact camera_written d _ e h
  · cases h

private theorem sections_written (d : RescaleDisk ℚ) : ∀ (l : List RescaleSection) (e : String × List Char × List ImgOp),
    e ∈ (rescaleYamlCameras d (l.map readSection)).1 →
      ∃ s ∈ l, RescaledImage d ⟨s.camera, s.path, s.distance, s.method, s.centimetres / 100, s.keep.truthy, s.output⟩ e ∧ ImageEnding e.2.1
  | [], e, h => by cases h
  | s :: l, e, h => by
    rw [List.map_cons, rescaleYamlCameras] at h
    dsimp only at h
    split at h
    · exact ⟨s, List.mem_cons_self, section_written d s e h⟩
    · rcases List.mem_append.mp h with h | h
      · exact ⟨s, List.mem_cons_self, section_written d s e h⟩
      · obtain ⟨s', hs', hr⟩ := sections_written d l e h
        exact ⟨s', List.mem_cons_of_mem _ hs', hr⟩

/-- C271 (partial): whatever the sections, an image that is written belongs to one of them; if that does not keep the size, the image has pixels of
the size in the settings, in centimetres. Missing: the flag `'N'` of the documentation, see `C271_flag_false`. -/
theorem C271_size_partial (d : RescaleDisk ℚ) (sections : List RescaleSection) (hd : GoodDisk d) (hs : ∀ s ∈ sections, 0 < s.centimetres)
    (e : String × List Char × List ImgOp) (he : e ∈ (rescaleSections d (sections.map RescaleSection.yaml)).1) :
    ∃ s ∈ sections, ∃ w h width height, ImageOfSection d s e w h width height ∧
      (s.keep = .bool false → FitsPixels e.2.2 w h width height (s.centimetres / 100)) := by
  unfold rescaleSections at he
  rw [read_sections] at he
  obtain ⟨s, hmem, hr, -⟩ := sections_written d sections e he
  obtain ⟨h1, -, fx, fy, rows, files, w, h, image, altitude, h2, h3, h4, h5, h6, h7, h8⟩ := hr
  refine ⟨s, hmem, w, h, altitude / fx, altitude / fy, ⟨h1, fx, fy, rows, files, image, altitude, h2, h3, h4, h5, h6, h7, rfl, rfl⟩, fun hk => ?_⟩
  have hf := hd.1 _ _ _ h2
  dsimp only at h8
  rw [hk] at h8
  obtain ⟨w', h', a1, -, -, a4, a5, a6, a7⟩ := C100_pixel_size s.method (s.centimetres / 100) altitude fx fy w h (by have := hs s hmem; positivity)
    (hd.2 _ _ _ h3 _ h6) hf.1 hf.2 e.2.2 h8
  exact ⟨w', h', a1, a4, a5, a6, a7⟩

/-- C271: if the flag keeps the size, whatever text it is, the last step brings the image to its old size. -/
theorem C271_kept (d : RescaleDisk ℚ) (sections : List RescaleSection) (hs : ∀ s ∈ sections, s.keep.truthy = true)
    (e : String × List Char × List ImgOp) (he : e ∈ (rescaleSections d (sections.map RescaleSection.yaml)).1) :
    ∃ s ∈ sections, ∃ w h width height, ImageOfSection d s e w h width height ∧ ∃ first, e.2.2 = [first, .resize w h] := by
  unfold rescaleSections at he
  rw [read_sections] at he
  obtain ⟨s, hmem, hr, -⟩ := sections_written d sections e he
  obtain ⟨h1, -, fx, fy, rows, files, w, h, image, altitude, h2, h3, h4, h5, h6, h7, h8⟩ := hr
  refine ⟨s, hmem, w, h, altitude / fx, altitude / fy, ⟨h1, fx, fy, rows, files, image, altitude, h2, h3, h4, h5, h6, h7, rfl, rfl⟩, ?_⟩
  dsimp only at h8
  rw [hs s hmem] at h8
  unfold rescaleOps at h8
  dsimp only at h8
  split at h8
  · cases h8
  · rw [if_pos rfl] at h8
    split at h8
    · simp only [bind, Except.bind] at h8
      split at h8
      · cases h8
      · rename_i a _
        unfold resizeTo at h8
        split at h8
        · cases h8
        · rename_i hb
          split at hb
          · cases hb
          · cases hb; injection h8 with h8; exact ⟨a, h8.symm⟩
    · injection h8 with h8
      exact ⟨_, h8.symm⟩

/-- C271: a section that lacks a folder ends the command before an image of it is written, and no section after it is looked at. -/
theorem C271_folder (d : RescaleDisk ℚ) (y : RescaleYaml) (rest : List RescaleYaml) (camera : String) (hn : y.name = .str camera)
    (hc : camera ∈ d.cameras) (hcal : (d.calibration camera).isSome = true) (hf : y.path = .null ∨ y.distancePath = .null ∨ y.output = .null) :
    rescaleYamlCameras d (y :: rest) = ([], .error .typeError) := by
  have e : rescaleYamlCamera d y = ([], .error .typeError) := by
    obtain ⟨x, hx⟩ := Option.isSome_iff_exists.mp hcal
    unfold rescaleYamlCamera
    rw [hn]
    simp only [hc, if_true, hx]
    rcases hf with hf | hf | hf
    · rw [hf]
    · rw [hf]; split <;> simp_all
    · rw [hf]; split <;> rfl
  rw [rescaleYamlCameras, e]

private def disk : RescaleDisk ℚ :=
  { cameras := ["LC"], calibration := fun _ => some (1000, 1000), table := fun _ _ => some [("1".toList, 10)]
    listing := fun _ => some [("1.png".toList, 4, 4)], stem := id }

private theorem disk_good : GoodDisk disk := by
  constructor
  · intro c fx fy h
    cases h
    norm_num
  · intro f c rows h r hr
    cases h
    rw [List.mem_singleton] at hr
    subst hr
    norm_num

private theorem disk_run (s : RescaleSection) (hc : s.camera = "LC") (ops : List ImgOp)
    (ho : rescaleOps s.method (s.centimetres / 100) 10 1000 1000 s.keep.truthy 4 4 = .ok ops) :
    rescaleSections disk [s.yaml] = ([(s.output, "1.png".toList, ops)], .ok ()) := by
  have ha : rescaleAltitudes disk.stem [("1".toList, (10 : ℚ))] "1.png".toList = [10] := by decide +kernel
  have hi : rescaleImage disk.stem [("1".toList, (10 : ℚ))] "1.png".toList s.method (s.centimetres / 100) 1000 1000 s.keep.truthy 4 4 = .ok (some ops) := by
    unfold rescaleImage
    rw [ha]
    dsimp only
    rw [ho]
    rfl
  have f : ([("1.png".toList, 4, 4)] : List (List Char × ℕ × ℕ)).filter (fun f => isRescaled f.1) = [("1.png".toList, 4, 4)] := by decide +kernel
  have e := read_sections [s]
  rw [List.map_cons, List.map_nil] at e
  unfold rescaleSections
  rw [e]
  have hm : "LC" ∈ disk.cameras := by simp [disk]
  have hy : rescaleYamlCamera disk (readSection s) = ([(s.output, "1.png".toList, ops)], .ok true) := by
    unfold rescaleYamlCamera readSection
    dsimp only
    rw [hc, if_pos hm]
    unfold rescaleCamera
    dsimp only
    rw [if_pos hm]
    simp only [show disk.calibration "LC" = some (1000, 1000) from rfl, show ∀ a b, disk.table a b = some [("1".toList, 10)] from fun _ _ => rfl,
      show ∀ a, disk.listing a = some [("1.png".toList, 4, 4)] from fun _ => rfl, f, rescaleLoop, methodText, hi, Except.map]
  simp only [List.map_cons, List.map_nil, rescaleYamlCameras, hy, List.append_nil]

private theorem ops_eq (a b c : ℚ) (k : Bool) (ops : List ImgOp) (h : (rescaleOps "bicubic" a b c c k 4 4).toOption = some ops) :
    rescaleOps "bicubic" a b c c k 4 4 = .ok ops := by
  cases hx : rescaleOps "bicubic" a b c c k 4 4 with
  | error e => rw [hx] at h; cases h
  | ok x => rw [hx] at h; cases h; rfl

/-- Non-vacuity: pixels of 1 cm at 10 m altitude; the image keeps its 4 by 4 pixels of 1 cm. -/
example : rescaleSections disk [(⟨"LC", "p", "q", "bicubic", 1, .bool false, "o"⟩ : RescaleSection).yaml] =
    ([("o", "1.png".toList, [.resize 4 4])], .ok ()) :=
  disk_run _ rfl _ (ops_eq _ _ _ _ _ (by decide +kernel))

/-- Non-vacuity of the other theorems. -/
example : rescaleSections disk [(⟨"LC", "p", "q", "bicubic", 2, .bool true, "o"⟩ : RescaleSection).yaml] =
    ([("o", "1.png".toList, [.resize 2 2, .resize 4 4])], .ok ()) :=
  disk_run _ rfl _ (ops_eq _ _ _ _ _ (by decide +kernel))
example : rescaleYamlCameras disk [⟨.str "LC", .null, .null, .str "bicubic", 1, .bool true, .null⟩] = ([], .error .typeError) :=
  C271_folder disk _ [] "LC" rfl (by simp [disk]) rfl (Or.inl rfl)

/-- C271 is false: with the flag `'N'` the image keeps its size, for any text is true to `bool`. -/
theorem C271_flag_false : ¬ SizeAsSet := by
  intro h
  have e := disk_run ⟨"LC", "p", "q", "bicubic", 2, .str "N", "o"⟩ rfl [.resize 2 2, .resize 4 4] (ops_eq _ _ _ _ _ (by decide +kernel))
  obtain ⟨s, -, w, hh, width, height, -, w', h', h1, -⟩ := h disk [⟨"LC", "p", "q", "bicubic", 2, .str "N", "o"⟩] disk_good
    (by intro s hs; rw [List.mem_singleton] at hs; subst hs; exact ⟨by norm_num, rfl⟩) ("o", "1.png".toList, [.resize 2 2, .resize 4 4])
    (by rw [List.map_cons, List.map_nil, e]; exact List.mem_singleton_self _)
  cases h1

/-- C271 is false of the settings that are shipped: their pixels become a hundred times smaller than their comment says. -/
theorem C271_shipped_false : ¬ ShippedSize := by
  intro h
  have e := disk_run (shippedSection "LC" "p" "q" "o") rfl [.resize 400 400] (ops_eq _ _ _ _ _ (by decide +kernel))
  obtain ⟨w, hh, width, height, hi, w', h', h1, h2, -⟩ := h disk "LC" "p" "q" "o" disk_good ("o", "1.png".toList, [.resize 400 400])
    (by rw [e]; exact List.mem_singleton_self _)
  obtain ⟨-, fx, fy, rows, files, image, altitude, i1, i2, i3, i4, i5, -, i7, -⟩ := hi
  cases i1
  cases i2
  cases i3
  cases h1
  rw [List.mem_singleton] at i4 i5
  cases i4
  cases i5
  rw [i7] at h2
  norm_num at h2

end Oplab.Props
