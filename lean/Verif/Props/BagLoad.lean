import Verif.Spec.BagLoad
import Mathlib.Algebra.Order.Ring.Rat
import Mathlib.Data.Rat.Cast.Order
import Mathlib.Tactic.Linarith
import Mathlib.Tactic.NormNum
import Mathlib.Tactic.Ring
import Mathlib.Tactic.FieldSimp

/-!
C205: images from bags.
-/

namespace Oplab.Props
open Oplab Oplab.Spec

section
variable {K : Type} [Field K] [LinearOrder K]

private theorem search_iff (t offset : K) (l : List (BagImage K)) (m : BagImage K) : bagSearch t offset l = some m ↔
    ∃ pre post, l = pre ++ m :: post ∧ |stampEpoch m - offset - t| < 5 / 1000 ∧
      ∀ x ∈ pre, ¬ |stampEpoch x - offset - t| < 5 / 1000 := by
  induction l with
  | nil => simp [bagSearch]
  | cons a l ih =>
    simp only [bagSearch]
    by_cases h : |stampEpoch a - offset - t| < 5 / 1000
    · rw [if_pos h]
      constructor
      · rintro ⟨⟩
        exact ⟨[], l, rfl, h, by simp⟩
      · rintro ⟨pre, post, h1, h2, h3⟩
        cases pre with
        | nil => simp only [List.nil_append, List.cons.injEq] at h1; rw [h1.1]
        | cons b pre =>
          simp only [List.cons_append, List.cons.injEq] at h1
          exact absurd (h1.1 ▸ h) (h3 b List.mem_cons_self)
    · rw [if_neg h, ih]
      constructor
      · rintro ⟨pre, post, rfl, h2, h3⟩
        refine ⟨a :: pre, post, rfl, h2, ?_⟩
        intro x hx
        rcases List.mem_cons.mp hx with rfl | hx
        · exact h
        · exact h3 x hx
      · rintro ⟨pre, post, h1, h2, h3⟩
        cases pre with
        | nil =>
          simp only [List.nil_append, List.cons.injEq] at h1
          exact absurd (h1.1 ▸ h2) h
        | cons b pre =>
          simp only [List.cons_append, List.cons.injEq] at h1
          exact ⟨pre, post, h1.2, h2, fun x hx => h3 x (List.mem_cons_of_mem _ hx)⟩

private theorem search_none (t offset : K) (l : List (BagImage K)) : bagSearch t offset l = none ↔
    ∀ x ∈ l, ¬ |stampEpoch x - offset - t| < 5 / 1000 := by
  induction l with
  | nil => simp [bagSearch]
  | cons a l ih =>
    simp only [bagSearch]
    by_cases h : |stampEpoch a - offset - t| < 5 / 1000
    · rw [if_pos h]
      simp [h]
    · rw [if_neg h, ih, List.forall_mem_cons]
      exact ⟨fun hl => ⟨h, hl⟩, fun hl => hl.2⟩

/-- The message is one that the search considers. -/
private def Cand (topic : String) (t offset : K) (m : BagImage K) : Prop :=
  m.topic = topic ∧ t - 1 / 2 + offset ≤ m.received ∧ m.received ≤ t + 1 / 2 + offset ∧ |stampEpoch m - offset - t| < 5 / 1000

private theorem search_cand (topic : String) (t offset : K) (b : List (BagImage K)) (m : BagImage K)
    (h : bagSearch t offset (readMessages topic (t - 1 / 2 + offset) (t + 1 / 2 + offset) b) = some m) : m ∈ b ∧ Cand topic t offset m := by
  obtain ⟨pre, post, h1, h2, -⟩ := (search_iff _ _ _ _).mp h
  have hm : m ∈ readMessages topic (t - 1 / 2 + offset) (t + 1 / 2 + offset) b := by rw [h1]; simp
  obtain ⟨h3, h4⟩ := List.mem_filter.mp hm
  simp only [decide_eq_true_eq] at h4
  exact ⟨h3, h4.1, h4.2.1, h4.2.2, h2⟩

private theorem search_none_cand (topic : String) (t offset : K) (b : List (BagImage K))
    (h : bagSearch t offset (readMessages topic (t - 1 / 2 + offset) (t + 1 / 2 + offset) b) = none) :
    ∀ m ∈ b, ¬ Cand topic t offset m := by
  intro m hm hc
  exact (search_none _ _ _).mp h m (List.mem_filter.mpr ⟨hm, decide_eq_true ⟨hc.1, hc.2.1, hc.2.2.1⟩⟩) hc.2.2.2

private theorem bags_none (topic : String) (t offset : K) (bags : List (List (BagImage K))) :
    bagsSearch topic t offset bags = none ↔ ∀ m, InBags m bags → ¬ Cand topic t offset m := by
  induction bags with
  | nil => simp [bagsSearch, InBags]
  | cons b bs ih =>
    simp only [bagsSearch]
    cases h : bagSearch t offset (readMessages topic (t - 1 / 2 + offset) (t + 1 / 2 + offset) b) with
    | some m =>
      obtain ⟨h1, h2⟩ := search_cand topic t offset b m h
      simp only [reduceCtorEq, false_iff, not_forall]
      exact ⟨m, ⟨b, List.mem_cons_self, h1⟩, fun hn => hn h2⟩
    | none =>
      simp only
      rw [ih]
      constructor
      · rintro h1 m ⟨b', hb', hm⟩
        rcases List.mem_cons.mp hb' with rfl | hb'
        · exact search_none_cand topic t offset _ h m hm
        · exact h1 m ⟨b', hb', hm⟩
      · rintro h1 m ⟨b', hb', hm⟩
        exact h1 m ⟨b', List.mem_cons_of_mem _ hb', hm⟩

private theorem bags_some (topic : String) (t offset : K) (bags : List (List (BagImage K))) (m : BagImage K)
    (h : bagsSearch topic t offset bags = some m) : InBags m bags ∧ Cand topic t offset m := by
  induction bags with
  | nil => simp [bagsSearch] at h
  | cons b bs ih =>
    simp only [bagsSearch] at h
    cases hb : bagSearch t offset (readMessages topic (t - 1 / 2 + offset) (t + 1 / 2 + offset) b) with
    | some m' =>
      rw [hb] at h
      simp only [Option.some.injEq] at h
      obtain ⟨h1, h2⟩ := search_cand topic t offset b m' hb
      exact ⟨⟨b, List.mem_cons_self, h ▸ h1⟩, h ▸ h2⟩
    | none =>
      rw [hb] at h
      obtain ⟨⟨b', hb', hm⟩, h2⟩ := ih h
      exact ⟨⟨b', List.mem_cons_of_mem _ hb', hm⟩, h2⟩

private theorem scale_eq [IsStrictOrderedRing K] (bits : ℕ) (m : BagImage K) :
    (m.pixels.map fun p : ℕ => (p : K) * (1 / 2 ^ bits)) = greyValues bits m := by
  unfold greyValues
  apply List.map_congr_left
  intro p _
  ring

private theorem stamp_eq [IsStrictOrderedRing K] (m : BagImage K) : stampEpoch m = (m.secs : K) + m.nsecs / 10 ^ 9 := by
  unfold stampEpoch
  norm_num
  ring

/-- C205: what is loaded for a time is an image of the asked topic whose stamp, less the offset, is less than 5 ms away from
the time; no image is loaded exactly if there is none that was also recorded within half a second. -/
theorem C205_loaded [IsStrictOrderedRing K] (t : K) (topic : String) (bags : List (List (BagImage K))) (offset : K) (bits : ℕ) :
    (∀ img, bagLoad t topic bags offset bits = some img → ∃ m, InBags m bags ∧ m.topic = topic ∧
      |(m.secs : K) + m.nsecs / 10 ^ 9 - offset - t| < 5 / 1000 ∧ img = greyValues bits m) ∧
    (bagLoad t topic bags offset bits = none ↔ ∀ m, InBags m bags → m.topic = topic →
      |(m.secs : K) + m.nsecs / 10 ^ 9 - offset - t| < 5 / 1000 → 1 / 2 < |m.received - offset - t|) := by
  constructor
  · intro img h
    unfold bagLoad at h
    obtain ⟨m, hm, rfl⟩ := Option.map_eq_some_iff.mp h
    obtain ⟨h1, h2⟩ := bags_some topic t offset bags m hm
    exact ⟨m, h1, h2.1, by rw [← stamp_eq]; exact h2.2.2.2, scale_eq bits m⟩
  · unfold bagLoad
    rw [Option.map_eq_none_iff, bags_none]
    constructor
    · intro h m hm ht hs
      by_contra hr
      rw [not_lt, abs_le] at hr
      exact h m hm ⟨ht, by linarith [hr.1], by linarith [hr.2], by rw [stamp_eq]; exact hs⟩
    · rintro h m hm ⟨h1, h2, h3, h4⟩
      rw [stamp_eq] at h4
      have := h m hm h1 h4
      rw [lt_abs] at this
      rcases this with this | this <;> linarith

/-- C205: an image recorded within half a second of its stamp, at least 5 ms from all others of its topic, is found by the
time that navigation gives to it. -/
theorem C205_own_partial [IsStrictOrderedRing K] (bags : List (List (BagImage K))) (m : BagImage K) (offset : K) (bits : ℕ)
    (hm : InBags m bags) (hr : |m.received - ((m.secs : K) + m.nsecs / 10 ^ 9)| ≤ 1 / 2)
    (hother : ∀ m', InBags m' bags → m'.topic = m.topic → m' = m ∨
      5 / 1000 ≤ |((m'.secs : K) + m'.nsecs / 10 ^ 9) - ((m.secs : K) + m.nsecs / 10 ^ 9)|) :
    bagLoad ((m.secs : K) + m.nsecs / 10 ^ 9 - offset) m.topic bags offset bits = some (greyValues bits m) := by
  obtain ⟨h1, h2⟩ := C205_loaded ((m.secs : K) + m.nsecs / 10 ^ 9 - offset) m.topic bags offset bits
  cases h : bagLoad ((m.secs : K) + m.nsecs / 10 ^ 9 - offset) m.topic bags offset bits with
  | none =>
    have := h2.mp h m hm rfl (by rw [sub_self, abs_zero]; norm_num)
    have e : m.received - offset - ((m.secs : K) + m.nsecs / 10 ^ 9 - offset) = m.received - ((m.secs : K) + m.nsecs / 10 ^ 9) := by ring
    rw [e] at this
    exact absurd hr (not_le.mpr this)
  | some img =>
    obtain ⟨m', h3, h4, h5, h6⟩ := h1 img h
    rcases hother m' h3 h4 with rfl | ho
    · rw [h6]
    · have e : (m'.secs : K) + m'.nsecs / 10 ^ 9 - offset - ((m.secs : K) + m.nsecs / 10 ^ 9 - offset) =
          ((m'.secs : K) + m'.nsecs / 10 ^ 9) - ((m.secs : K) + m.nsecs / 10 ^ 9) := by ring
      rw [e] at h5
      exact absurd ho (not_le.mpr h5)

/-- C205: grey values are at least 0 and below 1 if the pixels have the given number of bits. -/
theorem C205_range [IsStrictOrderedRing K] (t : K) (topic : String) (bags : List (List (BagImage K))) (offset : K) (bits : ℕ)
    (hb : ∀ m, InBags m bags → ∀ p ∈ m.pixels, p < 2 ^ bits) (img : List K) (h : bagLoad t topic bags offset bits = some img) :
    ∀ x ∈ img, 0 ≤ x ∧ x < 1 := by
  obtain ⟨m, hm, -, -, rfl⟩ := (C205_loaded t topic bags offset bits).1 img h
  intro x hx
  obtain ⟨p, hp, rfl⟩ := List.mem_map.mp hx
  have hp' : (p : K) < 2 ^ bits := by exact_mod_cast hb m hm p hp
  exact ⟨by positivity, by rw [div_lt_one (by positivity)]; exact hp'⟩

/-- C205: images are read by the loader for their ending, with the bits of the camera; without a number of bits nothing is
loaded. -/
theorem C205_loader (xviii default : String → ℕ → Option (List K)) (number : String → Res K) (bitDepth : Option ℕ)
    (extension : String) (o : K) (topic : String) (bags : List (List (BagImage K))) (image : String) :
    ∃ s, chooseLoader bitDepth extension (.ok o) = .ok s ∧ s.kind = some (loaderOf extension) ∧
      ({ s with topic := some topic, bags := bags }).call xviii default number image =
        match bitDepth with
        | none => .error .quit
        | some bits =>
          match loaderOf extension with
          | .xviii => .ok (xviii image bits)
          | .default => .ok (default image bits)
          | .rosbag => (number image).map fun t => bagLoad t topic bags o bits := by
  unfold chooseLoader loaderOf
  by_cases h1 : extension = "raw"
  · subst h1
    refine ⟨_, rfl, rfl, ?_⟩
    cases bitDepth <;> rfl
  · by_cases h2 : extension = "bag"
    · subst h2
      refine ⟨_, rfl, rfl, ?_⟩
      cases bitDepth with
      | none => rfl
      | some bits => simp only [LoaderState.call]; cases number image <;> rfl
    · refine ⟨{ bitDepth := bitDepth, offset := 0, kind := some .default }, ?_, ?_, ?_⟩
      · rw [if_neg h1, if_neg h2]; rfl
      · split <;> first | rfl | contradiction
      · simp only [LoaderState.call]
        cases bitDepth with
        | none => rfl
        | some bits => split <;> first | rfl | contradiction | (split <;> first | rfl | contradiction | simp_all)
end

/-- Two frames 4 ms apart; the third was recorded a second late. -/
private def frames : List (BagImage ℚ) :=
  [⟨"cam", 10, 10, 0, [0, 128, 255]⟩, ⟨"cam", 1001 / 100, 10, 4000000, [1, 2, 3]⟩, ⟨"cam", 12, 11, 0, [7]⟩]

/-- C205: not in general: of frames less than 5 ms apart the first one is loaded for both. -/
theorem C205_own_false : ¬ OwnImage ℚ := by
  intro h
  have := h [frames] ⟨"cam", 1001 / 100, 10, 4000000, [1, 2, 3]⟩ 0 8 ⟨frames, by simp, by simp [frames]⟩
  have h2 : bagLoad ((10 : ℚ) + 4000000 / 10 ^ 9 - 0) "cam" [frames] 0 8 = some [0, 128 / 256, 255 / 256] := by decide +kernel
  have h3 : greyValues 8 (⟨"cam", 1001 / 100, 10, 4000000, [1, 2, 3]⟩ : BagImage ℚ) = [1 / 256, 2 / 256, 3 / 256] := by decide +kernel
  rw [h3] at this
  have h4 := h2.symm.trans this
  revert h4
  decide +kernel

/-- C205: nor is an image found that was recorded more than half a second after its stamp. -/
theorem C205_late : bagLoad (11 : ℚ) "cam" [frames] 0 8 = none := by decide +kernel

/-- The first frame alone is found, with an offset of an hour. -/
example : bagLoad (10 - 3600 : ℚ) "cam" [[], frames.take 1] 3600 8 = some [0, 128 / 256, 255 / 256] := by decide +kernel

end Oplab.Props
