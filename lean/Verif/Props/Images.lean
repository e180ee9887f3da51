import Verif.Spec.Images
import Mathlib.Tactic.Linarith
import Mathlib.Tactic.FieldSimp
import Mathlib.Tactic.Ring
import Mathlib.Tactic.NormNum
import Mathlib.Tactic.Positivity

/-! # C48, C49: image loaders; C50: attenuation; C51: output images; C76: manual balance -/

namespace Oplab.Props
open Oplab Oplab.Spec

/-! ## C48 -/

private theorem pixel24_eq (a b c : ℕ) (ha : a < 256) (hb : b < 256) (hc : c < 256) :
    pixel24 a b c = a * 65536 + b * 256 + c := by
  have m : ∀ x, x < 256 → x &&& 0xFF = x := fun x hx => by
    have := Nat.and_two_pow_sub_one_eq_mod x 8
    norm_num at this
    rw [this, Nat.mod_eq_of_lt hx]
  unfold pixel24
  rw [m a ha, m b hb, m c hc, Nat.or_assoc, ← Nat.shiftLeft_add_eq_or_of_lt (b := c) (i := 8) (by omega) b,
    ← Nat.shiftLeft_add_eq_or_of_lt (b := b <<< 8 + c) (i := 16) ?_ a]
  · simp only [Nat.shiftLeft_eq]; omega
  · simp only [Nat.shiftLeft_eq]; omega

private theorem take12 (data : List ℕ) (n : ℕ) (h : data.length = 12 * (n + 1)) :
    ∃ c0 c1 c2 c3 c4 c5 c6 c7 c8 c9 c10 c11 rest,
      data = c0 :: c1 :: c2 :: c3 :: c4 :: c5 :: c6 :: c7 :: c8 :: c9 :: c10 :: c11 :: rest ∧
      rest.length = 12 * n := by
  match data, h with
  | c0 :: c1 :: c2 :: c3 :: c4 :: c5 :: c6 :: c7 :: c8 :: c9 :: c10 :: c11 :: rest, h =>
    exact ⟨c0, c1, c2, c3, c4, c5, c6, c7, c8, c9, c10, c11, rest, rfl, by simp only [List.length_cons] at h; omega⟩
  | [], h => simp at h
  | [_], h => simp at h; omega
  | [_, _], h => simp at h; omega
  | [_, _, _], h => simp at h; omega
  | [_, _, _, _], h => simp at h; omega
  | [_, _, _, _, _], h => simp at h; omega
  | [_, _, _, _, _, _], h => simp at h; omega
  | [_, _, _, _, _, _, _], h => simp at h; omega
  | [_, _, _, _, _, _, _, _], h => simp at h; omega
  | [_, _, _, _, _, _, _, _, _], h => simp at h; omega
  | [_, _, _, _, _, _, _, _, _, _], h => simp at h; omega
  | [_, _, _, _, _, _, _, _, _, _, _], h => simp at h; omega

private theorem loop_fields (n : ℕ) (data : List ℕ) (hb : Bytes data) (hl : data.length = 12 * n) :
    decodeLoop n data = .ok (bigEndian24 (swapWords data)) ∧
      (bigEndian24 (swapWords data)).length = 4 * n ∧ ∀ p ∈ bigEndian24 (swapWords data), p < 2 ^ 24 := by
  induction n generalizing data with
  | zero =>
    have : data = [] := List.length_eq_zero_iff.1 (by simpa using hl)
    subst this
    simp [decodeLoop, swapWords, bigEndian24]
  | succ n ih =>
    obtain ⟨c0, c1, c2, c3, c4, c5, c6, c7, c8, c9, c10, c11, rest, rfl, hr⟩ := take12 data n hl
    have hrest : Bytes rest := fun b hx => hb b (by simp [hx])
    obtain ⟨i1, i2, i3⟩ := ih rest hrest hr
    have e0 : c0 < 256 := hb _ (by simp)
    have e1 : c1 < 256 := hb _ (by simp)
    have e2 : c2 < 256 := hb _ (by simp)
    have e3 : c3 < 256 := hb _ (by simp)
    have e4 : c4 < 256 := hb _ (by simp)
    have e5 : c5 < 256 := hb _ (by simp)
    have e6 : c6 < 256 := hb _ (by simp)
    have e7 : c7 < 256 := hb _ (by simp)
    have e8 : c8 < 256 := hb _ (by simp)
    have e9 : c9 < 256 := hb _ (by simp)
    have e10 : c10 < 256 := hb _ (by simp)
    have e11 : c11 < 256 := hb _ (by simp)
    simp only [swapWords, bigEndian24]
    refine ⟨?_, ?_, ?_⟩
    · have hd : decodeLoop (n + 1) (c0 :: c1 :: c2 :: c3 :: c4 :: c5 :: c6 :: c7 :: c8 :: c9 :: c10 :: c11 :: rest)
          = (do
            let px ← Except.ok [pixel24 c3 c2 c1, pixel24 c0 c7 c6, pixel24 c5 c4 c11, pixel24 c10 c9 c8]
            let r ← decodeLoop n rest
            Except.ok (px ++ r)) := rfl
      rw [hd, i1]
      simp only [bind, Except.bind, pixel24_eq _ _ _ e3 e2 e1, pixel24_eq _ _ _ e0 e7 e6,
        pixel24_eq _ _ _ e5 e4 e11, pixel24_eq _ _ _ e10 e9 e8]
      rfl
    · simp only [List.length_cons, i2]; omega
    · intro p hp
      simp only [List.mem_cons] at hp
      rcases hp with rfl | rfl | rfl | rfl | hp
      · omega
      · omega
      · omega
      · omega
      · exact i3 p hp

private theorem shape (h w : ℕ) (hw : 4 ∣ w) : 12 * (h * (w / 4)) = h * w * 3 ∧ 4 * (h * (w / 4)) = h * w := by
  obtain ⟨k, rfl⟩ := hw
  rw [Nat.mul_div_cancel_left k (by norm_num)]
  constructor <;> ring

/-- C48: for a width that is a multiple of four and a file of the expected size, the image has one pixel per
place, each pixel is the 24-bit big-endian field of the byte-swapped stream, and is below 2^24. -/
theorem C48_fields (data : List ℕ) (height width : ℕ) (hw : 4 ∣ width) (hb : Bytes data)
    (hl : data.length = height * width * 3) :
    ∃ img, decodeXviii data height width = .ok img ∧ img = bigEndian24 (swapWords data) ∧
      img.length = height * width ∧ ∀ p ∈ img, p < 2 ^ 24 := by
  obtain ⟨s1, s2⟩ := shape height width hw
  obtain ⟨h1, h2, h3⟩ := loop_fields (height * (width / 4)) data hb (by omega)
  exact ⟨_, h1, rfl, by omega, h3⟩

private theorem loop_injective (n : ℕ) (x y : List ℕ) (hx : Bytes x) (hy : Bytes y) (lx : x.length = 12 * n)
    (ly : y.length = 12 * n) (h : bigEndian24 (swapWords x) = bigEndian24 (swapWords y)) : x = y := by
  induction n generalizing x y with
  | zero =>
    have e1 : x = [] := List.length_eq_zero_iff.1 (by simpa using lx)
    have e2 : y = [] := List.length_eq_zero_iff.1 (by simpa using ly)
    rw [e1, e2]
  | succ n ih =>
    obtain ⟨c0, c1, c2, c3, c4, c5, c6, c7, c8, c9, c10, c11, r, rfl, hr⟩ := take12 x n lx
    obtain ⟨d0, d1, d2, d3, d4, d5, d6, d7, d8, d9, d10, d11, t, rfl, ht⟩ := take12 y n ly
    simp only [swapWords, bigEndian24, List.cons.injEq] at h
    obtain ⟨h1, h2, h3, h4, h5⟩ := h
    have key := ih r t (fun b hx' => hx b (by simp [hx'])) (fun b hx' => hy b (by simp [hx'])) hr ht h5
    have B : ∀ (l : List ℕ), Bytes l → ∀ b ∈ l, b < 256 := fun l hl => hl
    have e0 := hx c0 (by simp); have e1 := hx c1 (by simp); have e2 := hx c2 (by simp)
    have e3 := hx c3 (by simp); have e4 := hx c4 (by simp); have e5 := hx c5 (by simp)
    have e6 := hx c6 (by simp); have e7 := hx c7 (by simp); have e8 := hx c8 (by simp)
    have e9 := hx c9 (by simp); have e10 := hx c10 (by simp); have e11 := hx c11 (by simp)
    have f0 := hy d0 (by simp); have f1 := hy d1 (by simp); have f2 := hy d2 (by simp)
    have f3 := hy d3 (by simp); have f4 := hy d4 (by simp); have f5 := hy d5 (by simp)
    have f6 := hy d6 (by simp); have f7 := hy d7 (by simp); have f8 := hy d8 (by simp)
    have f9 := hy d9 (by simp); have f10 := hy d10 (by simp); have f11 := hy d11 (by simp)
    subst key
    have : c0 = d0 ∧ c1 = d1 ∧ c2 = d2 ∧ c3 = d3 := by omega
    have : c4 = d4 ∧ c5 = d5 ∧ c6 = d6 ∧ c7 = d7 := by omega
    have : c8 = d8 ∧ c9 = d9 ∧ c10 = d10 ∧ c11 = d11 := by omega
    simp_all

/-- C48: two different raw files of the expected size give different images, also after scaling. -/
theorem C48_lossless (x y : List ℕ) (height width srcBit : ℕ) (hw : 4 ∣ width) (hx : Bytes x) (hy : Bytes y)
    (lx : x.length = height * width * 3) (ly : y.length = height * width * 3)
    (h : loadXviii x height width srcBit = loadXviii y height width srcBit) : x = y := by
  obtain ⟨s1, -⟩ := shape height width hw
  obtain ⟨ix, hix, ex, -, -⟩ := C48_fields x height width hw hx lx
  obtain ⟨iy, hiy, ey, -, -⟩ := C48_fields y height width hw hy ly
  unfold loadXviii at h
  rw [hix, hiy] at h
  simp only [bind, Except.bind, Except.ok.injEq] at h
  have hinj : Function.Injective (fun v : ℕ => (v : ℚ) / 2 ^ srcBit) := by
    intro a b hab
    have hp : (2 : ℚ) ^ srcBit ≠ 0 := by positivity
    simp only [div_left_inj' hp] at hab
    exact_mod_cast hab
  have := (List.map_injective_iff.2 hinj) h
  rw [ex, ey] at this
  exact loop_injective (height * (width / 4)) x y hx hy (by omega) (by omega) this

example : decodeXviii [1, 2, 3, 4, 5, 6, 7, 8, 9, 10, 11, 12] 1 4 =
    .ok [4 * 65536 + 3 * 256 + 2, 1 * 65536 + 8 * 256 + 7, 6 * 65536 + 5 * 256 + 12, 11 * 65536 + 10 * 256 + 9] :=
  rfl

/-! ## C49 -/

private theorem shift_lt (readBits srcBit v : ℕ) (hv : v < 2 ^ readBits) :
    defaultShift readBits srcBit v < 2 ^ srcBit := by
  unfold defaultShift
  split_ifs with h
  · rw [Nat.shiftRight_eq_div_pow, Nat.div_lt_iff_lt_mul (by positivity), ← pow_add]
    rwa [Nat.add_sub_cancel' h.le]
  · exact hv.trans_le (Nat.pow_le_pow_right (by norm_num) (by omega))

private theorem shift_mono (readBits srcBit v w : ℕ) (h : v ≤ w) :
    defaultShift readBits srcBit v ≤ defaultShift readBits srcBit w := by
  unfold defaultShift
  split_ifs
  · rw [Nat.shiftRight_eq_div_pow, Nat.shiftRight_eq_div_pow]; exact Nat.div_le_div_right h
  · exact h

/-- C49, for source depths up to 24 bits: every stored pixel value is loaded as an intensity in [0, 1), and a
larger stored value never as a smaller intensity. -/
theorem C49_unitary_partial (readBits srcBit v w : ℕ)
    (hr : readBits = 8 ∨ readBits = 16 ∨ readBits = 32 ∨ readBits = 64) (hs : srcBit ≤ 24)
    (hv : v < 2 ^ readBits) (hw : w < 2 ^ readBits) (hvw : v ≤ w) :
    ∃ a b, loadDefault readBits srcBit v = .ok a ∧ loadDefault readBits srcBit w = .ok b ∧
      0 ≤ a ∧ a < 1 ∧ a ≤ b := by
  have hp : (0 : ℚ) < 2 ^ srcBit := by positivity
  have h1 := shift_lt readBits srcBit v hv
  have h2 := shift_lt readBits srcBit w hw
  have h24 : 2 ^ srcBit ≤ 2 ^ 24 := Nat.pow_le_pow_right (by norm_num) hs
  have r1 : roundF32 (defaultShift readBits srcBit v) = defaultShift readBits srcBit v := by
    unfold roundF32; rw [if_pos (by omega)]
  have r2 : roundF32 (defaultShift readBits srcBit w) = defaultShift readBits srcBit w := by
    unfold roundF32; rw [if_pos (by omega)]
  refine ⟨_, _, by unfold loadDefault; rw [if_pos hr], by unfold loadDefault; rw [if_pos hr], ?_, ?_, ?_⟩
  · positivity
  · rw [r1, div_lt_one hp]; exact_mod_cast h1
  · rw [r1, r2, div_le_div_iff_of_pos_right hp]
    exact_mod_cast shift_mono readBits srcBit v w hvw

example : loadDefault 16 12 0xFFF0 = .ok (4095 / 4096) := by
  have : roundF32 (defaultShift 16 12 0xFFF0) = 4095 := by decide +kernel
  unfold loadDefault
  rw [if_pos (by simp), this]
  norm_num

private theorem round_le (n k : ℕ) (h : n < 2 ^ k) : roundF32 n ≤ 2 ^ k := by
  unfold roundF32
  split_ifs with h24
  · exact h.le
  · simp only []
    have hn : n ≠ 0 := by rintro rfl; simp at h24
    have hlk : Nat.log2 n < k := (Nat.log2_lt hn).2 h
    set s := Nat.log2 n - 23 with hs
    have hsk : s ≤ k := by omega
    have hq : n / 2 ^ s < 2 ^ (k - s) := by
      rw [Nat.div_lt_iff_lt_mul (by positivity), ← pow_add, Nat.sub_add_cancel hsk]; exact h
    have : ∀ q', q' ≤ n / 2 ^ s + 1 → q' * 2 ^ s ≤ 2 ^ k := by
      intro q' hq'
      calc q' * 2 ^ s ≤ 2 ^ (k - s) * 2 ^ s := Nat.mul_le_mul_right _ (by omega)
        _ = 2 ^ k := by rw [← pow_add, Nat.sub_add_cancel hsk]
    split_ifs
    · exact this _ le_rfl
    · exact this _ (by omega)

/-- C49, for all source depths: the intensity is in the closed interval [0, 1]. -/
theorem C49_closed_partial (readBits srcBit v : ℕ)
    (hr : readBits = 8 ∨ readBits = 16 ∨ readBits = 32 ∨ readBits = 64) (hv : v < 2 ^ readBits) :
    ∃ a, loadDefault readBits srcBit v = .ok a ∧ 0 ≤ a ∧ a ≤ 1 := by
  refine ⟨_, by unfold loadDefault; rw [if_pos hr], by positivity, ?_⟩
  rw [div_le_one (by positivity)]
  exact_mod_cast round_le _ _ (shift_lt readBits srcBit v hv)

/-- The pieces of a conversion to float32 of a number of 25 or more binary digits. -/
private theorem round_parts (n : ℕ) (h : ¬ n < 2 ^ 24) : ∃ s q r : ℕ, n = q * 2 ^ s + r ∧ r < 2 ^ s ∧ 2 ^ 23 ≤ q ∧ q < 2 ^ 24 ∧ 1 ≤ s ∧
    roundF32 n = (if 2 * r > 2 ^ s ∨ (2 * r = 2 ^ s ∧ q % 2 = 1) then q + 1 else q) * 2 ^ s := by
  have hn : n ≠ 0 := by rintro rfl; simp at h
  have hl1 := Nat.log2_self_le hn
  have hl2 := Nat.lt_log2_self (n := n)
  have hlog : 24 ≤ Nat.log2 n := (Nat.le_log2 hn).2 (by omega)
  refine ⟨Nat.log2 n - 23, n / 2 ^ (Nat.log2 n - 23), n % 2 ^ (Nat.log2 n - 23), ?_, Nat.mod_lt _ (by positivity), ?_, ?_, by omega, ?_⟩
  · rw [mul_comm]; exact (Nat.div_add_mod _ _).symm
  · rw [Nat.le_div_iff_mul_le (by positivity), ← pow_add, show 23 + (Nat.log2 n - 23) = Nat.log2 n by omega]; exact hl1
  · rw [Nat.div_lt_iff_lt_mul (by positivity), ← pow_add, show 24 + (Nat.log2 n - 23) = Nat.log2 n + 1 by omega]; exact hl2
  · rw [roundF32, if_neg h]
    simp only [Bool.or_eq_true, Bool.and_eq_true, decide_eq_true_eq]

/-- A number of the form `m * 2 ^ e` with `m ≤ 2 ^ 24` is a multiple of `2 ^ s` or below `2 ^ 23 * 2 ^ s`. -/
private theorem representable_cases (m e s : ℕ) (hm : m ≤ 2 ^ 24) : (∃ k, m * 2 ^ e = k * 2 ^ s) ∨ m * 2 ^ e ≤ 2 ^ 23 * 2 ^ s := by
  rcases Nat.lt_or_ge e s with h | h
  · right
    calc m * 2 ^ e ≤ 2 ^ 24 * 2 ^ e := Nat.mul_le_mul_right _ hm
      _ = 2 ^ 23 * 2 ^ (e + 1) := by rw [pow_succ]; ring
      _ ≤ 2 ^ 23 * 2 ^ s := Nat.mul_le_mul_left _ (Nat.pow_le_pow_right (by norm_num) h)
  · left
    refine ⟨m * 2 ^ (e - s), ?_⟩
    rw [mul_assoc, ← pow_add, Nat.sub_add_cancel h]

/-- C49 (conversion): the conversion to float32 gives a number with at most 24 significant binary digits, and no such
number is nearer. -/
theorem C49_nearest (n : ℕ) : (∃ m e, m ≤ 2 ^ 24 ∧ roundF32 n = m * 2 ^ e) ∧
    ∀ m e, m ≤ 2 ^ 24 → |(roundF32 n : ℤ) - n| ≤ |((m * 2 ^ e : ℕ) : ℤ) - n| := by
  by_cases h : n < 2 ^ 24
  · have hr : roundF32 n = n := by rw [roundF32, if_pos h]
    rw [hr]
    exact ⟨⟨n, 0, h.le, by simp⟩, fun _ _ _ => by simp⟩
  · obtain ⟨s, q, r, hn, hr, hq1, hq2, hs, hround⟩ := round_parts n h
    refine ⟨⟨_, s, ?_, hround⟩, ?_⟩
    · split_ifs <;> omega
    · intro m e hm
      have hd : |(roundF32 n : ℤ) - n| ≤ min (r : ℤ) (2 ^ s - r) := by
        rw [hround]
        have h2 : ((2 ^ s : ℕ) : ℤ) = 2 ^ s := by push_cast; rfl
        have hr' : (r : ℤ) < 2 ^ s := by rw [← h2]; exact_mod_cast hr
        have hn' : (n : ℤ) = q * 2 ^ s + r := by rw [hn]; push_cast; rfl
        split_ifs with hu
        · have hu' : (2 * r : ℤ) ≥ 2 ^ s := by
            rw [← h2]
            have : 2 * r ≥ 2 ^ s := by omega
            exact_mod_cast this
          push_cast
          rw [hn', show ((q : ℤ) + 1) * 2 ^ s - (q * 2 ^ s + r) = 2 ^ s - r by ring, abs_of_nonneg (by omega)]
          exact le_min (by omega) le_rfl
        · have hu' : (2 * r : ℤ) ≤ 2 ^ s := by
            rw [← h2]
            have : 2 * r ≤ 2 ^ s := by omega
            exact_mod_cast this
          push_cast
          rw [hn', show (q : ℤ) * 2 ^ s - (q * 2 ^ s + r) = -r by ring, abs_neg, abs_of_nonneg (by omega)]
          exact le_min le_rfl (by omega)
      refine le_trans hd ?_
      have hn' : (n : ℤ) = q * 2 ^ s + r := by rw [hn]; push_cast; rfl
      rcases representable_cases m e s hm with ⟨k, hk⟩ | hle
      · rw [hk, hn']
        push_cast
        rcases Nat.lt_or_ge q k with hqk | hqk
        · have : ((q : ℤ) + 1) * 2 ^ s ≤ k * 2 ^ s := by
            have : ((q : ℤ) + 1) ≤ k := by exact_mod_cast hqk
            exact mul_le_mul_of_nonneg_right this (by positivity)
          exact le_trans (min_le_right _ _) (le_trans (by linarith) (le_abs_self _))
        · have : (k : ℤ) * 2 ^ s ≤ q * 2 ^ s := by
            have : (k : ℤ) ≤ q := by exact_mod_cast hqk
            exact mul_le_mul_of_nonneg_right this (by positivity)
          exact le_trans (min_le_left _ _) (le_trans (by linarith) (neg_le_abs _))
      · have h1 : m * 2 ^ e ≤ q * 2 ^ s := le_trans hle (Nat.mul_le_mul_right _ hq1)
        have h2 : ((m * 2 ^ e : ℕ) : ℤ) ≤ q * 2 ^ s := by exact_mod_cast h1
        rw [hn']
        exact le_trans (min_le_left _ _) (le_trans (by linarith) (neg_le_abs _))

/-- C49 (conversion): of two nearest numbers it gives the one with an even last digit. -/
theorem C49_ties_even (n m e : ℕ) (hm : m ≤ 2 ^ 24) (hne : m * 2 ^ e ≠ roundF32 n)
    (htie : |(roundF32 n : ℤ) - n| = |((m * 2 ^ e : ℕ) : ℤ) - n|) :
    ∃ q s, roundF32 n = q * 2 ^ s ∧ 2 ^ 23 ≤ q ∧ q ≤ 2 ^ 24 ∧ q % 2 = 0 := by
  by_cases h : n < 2 ^ 24
  · have hr : roundF32 n = n := by rw [roundF32, if_pos h]
    rw [hr] at htie hne
    simp at htie
    have h0 := abs_eq_zero.1 htie.symm
    have h1 : (((m * 2 ^ e : ℕ)) : ℤ) = n := by push_cast; linarith
    exact absurd (by exact_mod_cast h1) hne
  · obtain ⟨s, q, r, hn, hr, hq1, hq2, hs, hround⟩ := round_parts n h
    have hn' : (n : ℤ) = q * 2 ^ s + r := by rw [hn]; push_cast; rfl
    have h2 : ((2 ^ s : ℕ) : ℤ) = 2 ^ s := by push_cast; rfl
    have hr' : (r : ℤ) < 2 ^ s := by rw [← h2]; exact_mod_cast hr
    by_cases ht : 2 * r = 2 ^ s
    · rw [if_congr (show (2 * r > 2 ^ s ∨ (2 * r = 2 ^ s ∧ q % 2 = 1)) ↔ q % 2 = 1 by omega) rfl rfl] at hround
      split_ifs at hround with hodd
      · exact ⟨q + 1, s, hround, by omega, by omega, by omega⟩
      · exact ⟨q, s, hround, hq1, by omega, by omega⟩
    · exfalso
      have hmul : (m * 2 ^ e : ℕ) = q * 2 ^ s ∨ (m * 2 ^ e : ℕ) = (q + 1) * 2 ^ s ∨ (r < |((m * 2 ^ e : ℕ) : ℤ) - n| ∧ (2 ^ s - r : ℤ) < |((m * 2 ^ e : ℕ) : ℤ) - n|)
          ∨ ((m * 2 ^ e : ℕ) : ℤ) < q * 2 ^ s := by
        rcases representable_cases m e s hm with ⟨k, hk⟩ | hle
        · rcases Nat.lt_trichotomy k q with hkq | hkq | hkq
          · right; right; right
            rw [hk]
            push_cast
            exact mul_lt_mul_of_pos_right (by exact_mod_cast hkq) (by positivity)
          · left; rw [hk, hkq]
          · rcases Nat.lt_or_ge (q + 1) k with hk2 | hk2
            · right; right; left
              have h3 : ((q : ℤ) + 2) * 2 ^ s ≤ k * 2 ^ s := by
                have : ((q : ℤ) + 2) ≤ k := by exact_mod_cast hk2
                exact mul_le_mul_of_nonneg_right this (by positivity)
              have h4 : (k * 2 ^ s - n : ℤ) ≤ |((m * 2 ^ e : ℕ) : ℤ) - n| := by
                rw [hk]; push_cast; exact le_abs_self _
              constructor <;> refine lt_of_lt_of_le ?_ h4 <;> rw [hn'] <;> nlinarith
            · right; left
              rw [hk, show k = q + 1 by omega]
        · have h1 : m * 2 ^ e ≤ q * 2 ^ s := le_trans hle (Nat.mul_le_mul_right _ hq1)
          rcases Nat.lt_or_ge (m * 2 ^ e) (q * 2 ^ s) with h3 | h3
          · right; right; right; exact_mod_cast h3
          · left; omega
      have dq : |((q * 2 ^ s : ℕ) : ℤ) - n| = r := by
        push_cast
        rw [hn', show (q : ℤ) * 2 ^ s - (q * 2 ^ s + r) = -r by ring, abs_neg, abs_of_nonneg (by omega)]
      have dq1 : |(((q + 1) * 2 ^ s : ℕ) : ℤ) - n| = 2 ^ s - r := by
        push_cast
        rw [hn', show ((q : ℤ) + 1) * 2 ^ s - (q * 2 ^ s + r) = 2 ^ s - r by ring, abs_of_nonneg (by omega)]
      have hrd : (roundF32 n = (q + 1) * 2 ^ s ∧ 2 * r > 2 ^ s) ∨ (roundF32 n = q * 2 ^ s ∧ 2 * r < 2 ^ s) := by
        rw [hround]
        split_ifs with hu
        · left; exact ⟨rfl, by omega⟩
        · right; exact ⟨rfl, by omega⟩
      have hlow : ((m * 2 ^ e : ℕ) : ℤ) < q * 2 ^ s → (r : ℤ) < |((m * 2 ^ e : ℕ) : ℤ) - n| := by
        intro h3
        refine lt_of_lt_of_le ?_ (neg_le_abs _)
        rw [hn']; linarith
      rcases hrd with ⟨hR, hgt⟩ | ⟨hR, hlt⟩
      · have hgt' : (2 * r : ℤ) > 2 ^ s := by rw [← h2]; exact_mod_cast hgt
        rw [hR, dq1] at htie
        rcases hmul with h3 | h3 | h3 | h3
        · rw [h3, dq] at htie; omega
        · exact hne (by rw [h3, hR])
        · have := h3.2; omega
        · have := hlow h3; omega
      · have hlt' : (2 * r : ℤ) < 2 ^ s := by rw [← h2]; exact_mod_cast hlt
        rw [hR, dq] at htie
        rcases hmul with h3 | h3 | h3 | h3
        · exact hne (by rw [h3, hR])
        · rw [h3, dq1] at htie; omega
        · have := h3.1; omega
        · have := hlow h3; omega

example : roundF32 (2 ^ 24 + 1) = 2 ^ 24 ∧ roundF32 (2 ^ 24 + 3) = 2 ^ 24 + 4 := by decide +kernel

/-- C49 (order), for all source depths: a larger stored value is never loaded as a smaller intensity. -/
theorem C49_monotone (readBits srcBit v w : ℕ) (hr : readBits = 8 ∨ readBits = 16 ∨ readBits = 32 ∨ readBits = 64) (hvw : v ≤ w) :
    ∃ a b, loadDefault readBits srcBit v = .ok a ∧ loadDefault readBits srcBit w = .ok b ∧ a ≤ b := by
  have mono : ∀ a b : ℕ, a ≤ b → roundF32 a ≤ roundF32 b := by
    intro a b hab
    by_contra hc
    obtain ⟨⟨m1, e1, hm1, r1⟩, n1⟩ := C49_nearest a
    obtain ⟨⟨m2, e2, hm2, r2⟩, n2⟩ := C49_nearest b
    have h1 := n1 m2 e2 hm2
    have h2 := n2 m1 e1 hm1
    rw [← r2] at h1
    rw [← r1] at h2
    rcases Nat.eq_or_lt_of_le hab with rfl | hlt
    · exact hc le_rfl
    · have hc' : (roundF32 b : ℤ) < roundF32 a := by exact_mod_cast not_le.1 hc
      have hl : (a : ℤ) < b := by exact_mod_cast hlt
      rcases abs_cases ((roundF32 a : ℤ) - a) with h3 | h3 <;> rcases abs_cases ((roundF32 b : ℤ) - a) with h4 | h4 <;>
        rcases abs_cases ((roundF32 b : ℤ) - b) with h5 | h5 <;> rcases abs_cases ((roundF32 a : ℤ) - b) with h6 | h6 <;> omega
  refine ⟨_, _, by unfold loadDefault; rw [if_pos hr], by unfold loadDefault; rw [if_pos hr], ?_⟩
  rw [div_le_div_iff_of_pos_right (by positivity)]
  exact_mod_cast mono _ _ (shift_mono readBits srcBit v w hvw)

/-- C49 fails for 32-bit sources: the largest value is rounded to 2^32 by the conversion to float32 and loaded as
exactly 1. -/
theorem C49_wide_false : loadDefault 32 32 (2 ^ 32 - 1) = .ok 1 := by
  have : roundF32 (2 ^ 32 - 1) = 2 ^ 32 := by decide +kernel
  unfold loadDefault defaultShift
  rw [if_pos (by simp), if_neg (by simp), this]
  norm_num

/-! ## C50 -/

private theorem curve_pos {a b c : ℝ} (h : InBounds a b c) (x : ℝ) : 0 < a * Real.exp (b * x) + c := by
  obtain ⟨ha, -, hc⟩ := h
  have : 0 < a := lt_of_lt_of_le (by norm_num) ha
  have := Real.exp_pos (b * x)
  positivity

/-- C50: a pixel whose intensity is a reflectance times the fitted curve at its altitude is corrected to that
reflectance times the gain, whatever the altitude. -/
theorem C50_altitude_free (a b c gain rho : ℝ) (h : InBounds a b c) (altitude : ℝ) :
    attenuationCorrect (rho * expCurve altitude a b c) altitude a b c gain = rho * gain := by
  have := (curve_pos h altitude).ne'
  unfold attenuationCorrect expCurve
  field_simp

/-- C50: two sightings of the same surface from any two altitudes come out the same. -/
theorem C50_same_surface (a b c gain rho : ℝ) (h : InBounds a b c) (x y : ℝ) :
    attenuationCorrect (rho * expCurve x a b c) x a b c gain =
      attenuationCorrect (rho * expCurve y a b c) y a b c gain := by
  rw [C50_altitude_free _ _ _ _ _ h, C50_altitude_free _ _ _ _ _ h]

/-- C50: with the gain computed for a target altitude, an image taken at that altitude is not changed. -/
theorem C50_identity (a b c img target : ℝ) (h : InBounds a b c) :
    attenuationCorrect img target a b c (correctionGain target a b c) = img := by
  have := (curve_pos h target).ne'
  unfold attenuationCorrect correctionGain
  field_simp

/-- C50: within the bounds of the fit nothing is divided by zero, gains are positive, and the correction keeps
the order of intensities. -/
theorem C50_no_division_by_zero (a b c target : ℝ) (h : InBounds a b c) :
    (∀ x, a * Real.exp (b * x) + c ≠ 0) ∧ 0 < correctionGain target a b c ∧
    ∀ altitude v w, v < w → attenuationCorrect v altitude a b c (correctionGain target a b c) <
      attenuationCorrect w altitude a b c (correctionGain target a b c) := by
  refine ⟨fun x => (curve_pos h x).ne', curve_pos h target, fun altitude v w hvw => ?_⟩
  unfold attenuationCorrect
  exact mul_lt_mul_of_pos_left hvw (div_pos (curve_pos h target) (curve_pos h altitude))

/-- C50: the correction brightens images taken from above the target altitude and darkens those from below. -/
theorem C50_direction (a b c target altitude img : ℝ) (h : InBounds a b c) (hi : 0 ≤ img) (hx : target ≤ altitude) :
    img ≤ attenuationCorrect img altitude a b c (correctionGain target a b c) := by
  have hp := curve_pos h altitude
  have ha : 0 ≤ a := le_trans (by norm_num) h.1
  have he : Real.exp (b * altitude) ≤ Real.exp (b * target) := Real.exp_le_exp.2 (by nlinarith [h.2.1])
  unfold attenuationCorrect
  have hr : 1 ≤ correctionGain target a b c / (a * Real.exp (b * altitude) + c) := by
    rw [le_div_iff₀ hp]
    unfold correctionGain
    nlinarith
  nlinarith

/-- C50: the default parameters 1, 0, 0 of pixels without valid data leave the image unchanged. -/
theorem C50_default (img altitude target : ℝ) :
    attenuationCorrect img altitude 1 0 0 (correctionGain target 1 0 0) = img := by
  unfold attenuationCorrect correctionGain
  simp

example : InBounds 0.5 (-0.3) 0.02 := by unfold InBounds; norm_num

/-! ## C51 -/

private theorem clip_bounds (x lo hi : ℝ) (h : lo ≤ hi) : lo ≤ clip x lo hi ∧ clip x lo hi ≤ hi :=
  ⟨le_min (le_max_right _ _) h, min_le_right _ _⟩

private theorem clip_mono (x y lo hi : ℝ) (h : x ≤ y) : clip x lo hi ≤ clip y lo hi :=
  min_le_min_right _ (max_le_max_right _ h)

private theorem uint8_mono (x y : ℝ) (h : x ≤ y) : toUint8 x ≤ toUint8 y :=
  Nat.floor_le_floor (clip_mono _ _ _ _ (by linarith))

private theorem gamma_mono (dark : Prop) (x y : ℝ) (hx : 0 ≤ x) (h : x ≤ y) :
    gammaPixel dark x ≤ gammaPixel dark y := by
  unfold gammaPixel
  split_ifs
  · linarith
  · have := Real.rpow_le_rpow hx h (by norm_num : (0 : ℝ) ≤ 1 / 1.5)
    linarith

/-- C51: whatever the image, the parameters and the settings, the output has as many pixels as the input and
each is an integer from 0 to 255. -/
theorem C51_eight_bit (brightness contrast altitude : ℝ) (image : List (PixelParams × ℝ)) :
    (processGrey brightness contrast altitude image).length = image.length ∧
    ∀ p ∈ processGrey brightness contrast altitude image, p ≤ 255 := by
  refine ⟨by simp [processGrey, gammaCorrect], fun p hp => ?_⟩
  obtain ⟨v, -, rfl⟩ := List.mem_map.1 hp
  unfold toUint8
  obtain ⟨h1, h2⟩ := clip_bounds (v * 255) 0 255 (by norm_num)
  exact Nat.floor_le_of_le (by simpa using h2)

/-- C51: normalised intensities are in [0, 1]. -/
theorem C51_normalised (v mean std targetMean targetStd : ℝ) :
    0 ≤ pixelStat v mean std targetMean targetStd ∧ pixelStat v mean std targetMean targetStd ≤ 1 :=
  clip_bounds _ _ _ (by norm_num)

/-- C51: after gamma correction no intensity exceeds 1, so the brightest pixels are not wrapped around. -/
theorem C51_gamma_range (image : List ℝ) (h : ∀ v ∈ image, 0 ≤ v ∧ v ≤ 1) :
    ∀ w ∈ gammaCorrect image, -0.055 ≤ w ∧ w ≤ 1 := by
  intro w hw
  obtain ⟨v, hv, rfl⟩ := List.mem_map.1 hw
  obtain ⟨h0, h1⟩ := h v hv
  unfold gammaPixel
  split_ifs with hd
  · have := hd v hv
    constructor <;> norm_num at * <;> linarith
  · have p0 := Real.rpow_nonneg h0 (1 / 1.5 : ℝ)
    have p1 := Real.rpow_le_one h0 h1 (by norm_num : (0 : ℝ) ≤ 1 / 1.5)
    constructor <;> linarith

/-- C51: within an image, of two pixels with the same parameters the brighter never comes out darker (positive
gain, deviation and curve, contrast not negative). -/
theorem C51_monotone (brightness contrast altitude : ℝ) (image : List (PixelParams × ℝ)) (i j : ℕ)
    (p : PixelParams) (v w : ℝ) (hi : image[i]? = some (p, v)) (hj : image[j]? = some (p, w)) (hvw : v ≤ w)
    (hs : 0 < p.std) (hg : 0 ≤ p.gain) (hc : 0 < p.a * Real.exp (p.b * altitude) + p.c) (ht : 0 ≤ contrast) :
    ∃ x y, (processGrey brightness contrast altitude image)[i]? = some x ∧
      (processGrey brightness contrast altitude image)[j]? = some y ∧ x ≤ y := by
  unfold processGrey gammaCorrect
  simp only [List.map_map, List.getElem?_map, hi, hj, Option.map_some]
  refine ⟨_, _, rfl, rfl, ?_⟩
  simp only [Function.comp]
  apply uint8_mono
  apply gamma_mono _ _ _ (C51_normalised _ _ _ _ _).1
  unfold colourPixel pixelStat
  apply clip_mono
  have h1 : attenuationCorrect v altitude p.a p.b p.c p.gain ≤ attenuationCorrect w altitude p.a p.b p.c p.gain := by
    unfold attenuationCorrect
    exact mul_le_mul_of_nonneg_left hvw (div_nonneg hg hc.le)
  have h2 : (attenuationCorrect v altitude p.a p.b p.c p.gain - p.mean) / p.std ≤
      (attenuationCorrect w altitude p.a p.b p.c p.gain - p.mean) / p.std :=
    div_le_div_of_nonneg_right (by linarith) hs.le
  nlinarith

example : ∃ p : PixelParams, 0 < p.std ∧ 0 ≤ p.gain ∧ 0 < p.a * Real.exp (p.b * 3) + p.c :=
  ⟨⟨1, 0, 0, 1, 0, 1⟩, by norm_num⟩

/-- C51 fails between images: the gamma branch depends on the whole image, so the same pixel position with a
larger intensity (0.001 against 0.0009) comes out darker (0 against 2) when the image has a bright spot
elsewhere. -/
theorem C51_across_images_false :
    ∃ p : PixelParams, processGrey 0 100 3 [(p, 0.0009)] = [2] ∧
      (processGrey 0 100 3 [(p, 0.001), (p, 1)]).head? = some 0 := by
  refine ⟨⟨1, 0, 0, 1, 0, 1⟩, ?_, ?_⟩
  · have hc : colourPixel ⟨1, 0, 0, 1, 0, 1⟩ 0 100 3 0.0009 = 0.0009 := by
      norm_num [colourPixel, pixelStat, attenuationCorrect, clip]
    have hd : gammaDark [(0.0009 : ℝ)] := by
      intro i hi; rw [List.mem_singleton.1 hi]; norm_num
    simp only [processGrey, gammaCorrect, List.map_cons, List.map_nil, hc, gammaPixel, if_pos hd]
    congr 1
    unfold toUint8 clip
    rw [max_eq_left (by norm_num), min_eq_left (by norm_num), Nat.floor_eq_iff (by norm_num)]
    norm_num
  · have hc : colourPixel ⟨1, 0, 0, 1, 0, 1⟩ 0 100 3 0.001 = 0.001 := by
      norm_num [colourPixel, pixelStat, attenuationCorrect, clip]
    have hc1 : colourPixel ⟨1, 0, 0, 1, 0, 1⟩ 0 100 3 1 = 1 := by
      norm_num [colourPixel, pixelStat, attenuationCorrect, clip]
    have hd : ¬ gammaDark [(0.001 : ℝ), 1] := by
      intro h; have := h 1 (by simp); norm_num at this
    have hp : (0.001 : ℝ) ^ (1 / 1.5 : ℝ) = 0.01 := by
      have e : (0.001 : ℝ) = (0.1 : ℝ) ^ (3 : ℝ) := by
        rw [show (3 : ℝ) = ((3 : ℕ) : ℝ) by norm_num, Real.rpow_natCast]; norm_num
      rw [e, ← Real.rpow_mul (by norm_num), show (3 : ℝ) * (1 / 1.5) = ((2 : ℕ) : ℝ) by norm_num,
        Real.rpow_natCast]
      norm_num
    simp only [processGrey, gammaCorrect, List.map_cons, List.map_nil, hc, hc1, gammaPixel, if_neg hd, hp,
      List.head?_cons]
    congr 1
    unfold toUint8 clip
    rw [max_eq_right (by norm_num), min_eq_left (by norm_num)]
    simp

/-! ## C76 -/

/-- C76: with the identity matrix and zero offsets a colour pixel is unchanged; in general the balance is affine:
the difference of two pixels is mapped by the matrix alone. -/
theorem C76_affine_partial {K : Type} [CommRing K] (m0 m1 m2 off v w : V3 K) :
    manualBalance ⟨1, 0, 0⟩ ⟨0, 1, 0⟩ ⟨0, 0, 1⟩ ⟨0, 0, 0⟩ v = v ∧
    manualBalance m0 m1 m2 off off = (⟨0, 0, 0⟩ : V3 K) ∧
    (manualBalance m0 m1 m2 off v).x - (manualBalance m0 m1 m2 off w).x =
      m0.x * (v.x - w.x) + m0.y * (v.y - w.y) + m0.z * (v.z - w.z) ∧
    (manualBalance m0 m1 m2 off v).y - (manualBalance m0 m1 m2 off w).y =
      m1.x * (v.x - w.x) + m1.y * (v.y - w.y) + m1.z * (v.z - w.z) ∧
    (manualBalance m0 m1 m2 off v).z - (manualBalance m0 m1 m2 off w).z =
      m2.x * (v.x - w.x) + m2.y * (v.y - w.y) + m2.z * (v.z - w.z) := by
  refine ⟨?_, ?_, ?_, ?_, ?_⟩
  · cases v; simp [manualBalance]
  · simp [manualBalance]
  all_goals simp only [manualBalance]; ring

/-- C76: on a monochrome pixel the red gain and offset are used, as for a colour pixel with equal channels and a
diagonal matrix. -/
theorem C76_grey_pixel {K : Type} [CommRing K] (g : K) (off : V3 K) (v : K) :
    manualBalanceGrey ⟨g, 0, 0⟩ off v = (manualBalance ⟨g, 0, 0⟩ ⟨0, g, 0⟩ ⟨0, 0, g⟩ off ⟨v, v, v⟩).x := by
  simp [manualBalanceGrey, manualBalance]
  ring

/-- C76 fails: a grayscale image (two axes) never reaches the manual balance. -/
theorem C76_grayscale_false : manualChannels .grayscale 2 = .error .indexError := rfl

/-- C76: colour images of every kind of camera can be balanced. -/
theorem C76_colour_channels (t : CamType) : manualChannels t 3 = .ok () := by
  cases t <;> rfl

end Oplab.Props
