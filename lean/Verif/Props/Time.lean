import Mathlib.Algebra.Order.Field.Rat
import Mathlib.Algebra.Order.Field.Basic
import Mathlib.Tactic.Positivity
import Mathlib.Data.Rat.Cast.Defs
import Mathlib.Tactic.Ring
import Mathlib.Tactic.Linarith
import Mathlib.Tactic.NormNum
import Verif.Lemmas.Calendar
import Verif.Spec.Calendar

/-! Properties C10, C11, C12. -/

namespace Oplab.Props
open Oplab Oplab.Spec

/-! ## C10 calendar -/

/-- C10: the epoch is 0 at 1970-01-01 00:00:00 UTC. -/
theorem C10_origin : dateTimeToEpoch ⟨1970, 1, 1, 0, 0, 0, 0⟩ 0 = .ok 0 := by
  have h : (⟨1970, 1, 1, 0, 0, 0, 0⟩ : DateTime).ok = true := by decide
  have hs : (⟨1970, 1, 1, 0, 0, 0, 0⟩ : DateTime).seconds = 0 := by decide
  simp [dateTimeToEpoch, h, hs]

/-- C10: every valid date-time converts; everything else is rejected with `ValueError`. -/
theorem C10_defined_iff_valid (c : DateTime) (tz : ℚ) :
    (ValidDate c → ∃ e, dateTimeToEpoch c tz = .ok e) ∧
    (¬ ValidDate c → dateTimeToEpoch c tz = .error .valueError) := by
  constructor
  · intro h
    exact ⟨_, by simp only [dateTimeToEpoch, (ok_iff c).mpr h, if_true]; rfl⟩
  · intro h
    rw [← ok_iff] at h
    simp only [dateTimeToEpoch, h, if_false, Bool.false_eq_true]

/-- C10: midnight of the day after any date is exactly 86400 s after midnight of that date (all leap-year
cases included). -/
theorem C10_next_day (y m d : Nat) (e e' : ℚ)
    (h : dateTimeToEpoch ⟨y, m, d, 0, 0, 0, 0⟩ 0 = .ok e)
    (h' : dateTimeToEpoch ⟨(nextDay (y, m, d)).1, (nextDay (y, m, d)).2.1, (nextDay (y, m, d)).2.2, 0, 0, 0, 0⟩ 0 = .ok e') :
    e' = e + 86400 := by
  have hv : (⟨y, m, d, 0, 0, 0, 0⟩ : DateTime).ok = true := by
    by_contra hn; simp only [dateTimeToEpoch, hn] at h; simp at h
  have hval := (ok_iff _).mp hv
  obtain ⟨⟨hy1, hy2⟩, ⟨hm1, hm2⟩, ⟨hd1, hd2⟩, _⟩ := hval
  simp only at hy1 hy2 hm1 hm2 hd1 hd2
  have key : ymd2ord (nextDay (y, m, d)).1 (nextDay (y, m, d)).2.1 (nextDay (y, m, d)).2.2 = ymd2ord y m d + 1 := by
    simp only [nextDay]
    split
    · simp only [ymd2ord]; omega
    · rename_i hnd
      have hdeq : d = daysInMonth y m := by rw [dim_eq y m hm1 hm2]; omega
      split
      · rename_i h12
        simp only [ymd2ord]; rw [dbm_succ y m hm1 h12, hdeq]; omega
      · have h12 : m = 12 := by omega
        subst h12
        simp only [ymd2ord, dby_succ y hy1, dbm_dec]
        have h1 : daysBeforeMonth (y + 1) 1 = 0 := by simp [daysBeforeMonth]
        have h2 : daysInMonth y 12 = 31 := rfl
        rw [h1, hdeq, h2]; split <;> omega
  simp only [dateTimeToEpoch] at h h'
  split at h
  · split at h'
    · simp only [Except.ok.injEq] at h h'
      rw [← h, ← h']
      simp only [DateTime.seconds, key]
      push_cast; ring
    · simp at h'
  · exact absurd hv (by assumption)

/-- C10: time of day and timezone enter exactly: an hour is 3600, a minute 60, a second 1, and a timezone
offset of `tz` hours subtracts `3600 tz`. -/
theorem C10_time_of_day (c : DateTime) (tz e : ℚ) (h : dateTimeToEpoch c tz = .ok e) :
    ∃ e0, dateTimeToEpoch ⟨c.year, c.month, c.day, 0, 0, 0, 0⟩ 0 = .ok e0 ∧
      e = e0 + 3600 * c.hour + 60 * c.minute + c.second + c.us / 1000000 - 3600 * tz := by
  simp only [dateTimeToEpoch] at h
  split at h
  · rename_i hok
    have hok' : (⟨c.year, c.month, c.day, 0, 0, 0, 0⟩ : DateTime).ok = true := by
      simp only [DateTime.ok, decide_eq_true_eq] at hok ⊢
      omega
    simp only [Except.ok.injEq] at h
    refine ⟨_, by simp only [dateTimeToEpoch, hok', if_true]; rfl, ?_⟩
    rw [← h]
    simp only [DateTime.seconds]
    push_cast; ring
  · simp at h

/-- C10: later date-times (same timezone) have strictly larger epochs. -/
theorem C10_strictly_monotone (a b : DateTime) (tz ea eb : ℚ) (h : Before a b)
    (ha : dateTimeToEpoch a tz = .ok ea) (hb : dateTimeToEpoch b tz = .ok eb) : ea < eb := by
  simp only [dateTimeToEpoch] at ha hb
  split at ha
  · split at hb
    · rename_i hoka hokb
      simp only [Except.ok.injEq] at ha hb
      rw [← ha, ← hb]
      simp only [DateTime.ok, decide_eq_true_eq] at hoka hokb
      obtain ⟨a1, a2, a3, a4, a5, a6, a7, a8, a9, a10⟩ := hoka
      obtain ⟨b1, b2, b3, b4, b5, b6, b7, b8, b9, b10⟩ := hokb
      have husa : (a.us : ℚ) < 1000000 := by exact_mod_cast a10
      have husb : (0 : ℚ) ≤ b.us := by positivity
      suffices hs : a.seconds < b.seconds ∨ (a.seconds = b.seconds ∧ a.us < b.us) by
        rcases hs with hs | ⟨hs, hu⟩
        · have h1 : (a.seconds : ℚ) + 1 ≤ b.seconds := by exact_mod_cast hs
          have h2 : (a.us : ℚ) / 1000000 < 1 := by rw [div_lt_one (by norm_num)]; exact husa
          have h3 : (0 : ℚ) ≤ (b.us : ℚ) / 1000000 := by positivity
          linarith
        · have h1 : (a.us : ℚ) < b.us := by exact_mod_cast hu
          have h2 : (a.us : ℚ) / 1000000 < (b.us : ℚ) / 1000000 := by
            apply div_lt_div_of_pos_right h1; norm_num
          rw [hs]; linarith
      by_cases hday : a.year < b.year ∨ a.year = b.year ∧ (a.month < b.month ∨ a.month = b.month ∧ a.day < b.day)
      · left
        have := ord_lt _ _ _ _ _ _ a1 a3 a4 a6 b3 b4 b5 hday
        simp only [DateTime.seconds]; omega
      · have hsame : a.year = b.year ∧ a.month = b.month ∧ a.day = b.day ∧
          (a.hour < b.hour ∨ a.hour = b.hour ∧ (a.minute < b.minute ∨ a.minute = b.minute ∧
            (a.second < b.second ∨ a.second = b.second ∧ a.us < b.us))) := by
          simp only [Before] at h; omega
        obtain ⟨e1, e2, e3, h⟩ := hsame
        simp only [DateTime.seconds, e1, e2, e3]
        omega
    · simp at hb
  · simp at ha

/-! ### `epoch_to_datetime` -/

private theorem gmtime_eq (e n y m d : Nat) (h : 719163 + e / 86400 = n) (hp : ord2ymd n = (y, m, d)) :
    gmtime e = ⟨y, m, d, e % 86400 / 3600, e % 86400 % 3600 / 60, e % 86400 % 60, 0⟩ := by
  simp only [gmtime, h, hp]

/-- C10: for every valid date from 1970 on, `epoch_to_datetime` of its epoch prints exactly that date
(14 digits, UTC). -/
theorem C10_epoch_to_datetime (c : DateTime) (hv : ValidDate c) (h70 : 1970 ≤ c.year) (e : Nat)
    (he : dateTimeToEpoch { c with us := 0 } 0 = .ok (e : ℚ)) :
    epochToDatetime e = padDigits 4 c.year ++ padDigits 2 c.month ++ padDigits 2 c.day
      ++ padDigits 2 c.hour ++ padDigits 2 c.minute ++ padDigits 2 c.second := by
  have hok := (ok_iff c).mpr hv
  have hok0 : ({ c with us := 0 } : DateTime).ok = true := by
    simp only [DateTime.ok, decide_eq_true_eq] at hok ⊢; omega
  simp only [dateTimeToEpoch, hok0, if_true, Except.ok.injEq] at he
  have hsec : ({ c with us := 0 } : DateTime).seconds = (e : Int) := by
    have : (({ c with us := 0 } : DateTime).seconds : ℚ) = ((e : Int) : ℚ) := by
      rw [Int.cast_natCast, ← he]; simp
    exact_mod_cast this
  simp only [DateTime.seconds] at hsec
  simp only [DateTime.ok, decide_eq_true_eq] at hok
  obtain ⟨h1, h2, h3, h4, h5, h6, h7, h8, h9, _⟩ := hok
  have hdby := dby_mono 1970 c.year h70
  have h1970 : daysBeforeYear 1970 = 719162 := by decide
  have hge : 719163 ≤ ymd2ord c.year c.month c.day := by simp only [ymd2ord]; omega
  have hord : 719163 + e / 86400 = ymd2ord c.year c.month c.day := by omega
  have hg : gmtime e = ⟨c.year, c.month, c.day, c.hour, c.minute, c.second, 0⟩ := by
    rw [gmtime_eq e _ _ _ _ hord (ord2ymd_ymd2ord _ _ _ h1 h3 h4 h5 h6)]
    simp only [DateTime.mk.injEq, true_and, and_true]
    refine ⟨by omega, by omega, by omega⟩
  simp only [epochToDatetime, hg]

private theorem slice_mid (a b c : List Char) (i j : Nat) (hi : a.length = i) (hj : b.length = j - i) (hij : i ≤ j) :
    slice (a ++ b ++ c) i j = b := by
  simp only [slice]
  rw [List.take_append_of_le_length (by simp; omega), List.take_of_length_le (by simp; omega)]
  rw [← hi, List.drop_left]

/-- C10: reading back the printed epoch gives the same epoch, for all times from 1970 to the end of year 9999. -/
theorem C10_roundtrip (e : Nat) (hmax : e < 253402300800) :
    stringToEpoch (epochToDatetime e) = .ok (e : ℚ) := by
  obtain ⟨n, hn⟩ : ∃ n, 719163 + e / 86400 = n := ⟨_, rfl⟩
  obtain ⟨p1, p2, p3, p4, p5, p6⟩ := ord2ymd_spec n (by omega)
  generalize hp : ord2ymd n = p at *
  obtain ⟨y, m, d⟩ := p
  simp only at *
  have hy : y ≤ 9999 := by
    by_contra hn
    have h1 := dby_mono 10000 y (by omega)
    have h2 : daysBeforeYear 10000 = 3652059 := by decide
    simp only [ymd2ord] at p6; omega
  have hd99 : d < 100 := by
    have := dim_eq y m p2 p3
    have h31 : monthLength y m ≤ 31 := by
      simp only [monthLength]; split
      · split <;> omega
      · split <;> omega
    omega
  have hg : gmtime e = ⟨y, m, d, e % 86400 / 3600, e % 86400 % 3600 / 60, e % 86400 % 60, 0⟩ := by
    exact gmtime_eq e n y m d hn hp
  set hh := e % 86400 / 3600
  set mi := e % 86400 % 3600 / 60
  set ss := e % 86400 % 60
  have hA : epochToDatetime e = padDigits 4 y ++ padDigits 2 m ++ padDigits 2 d ++ padDigits 2 hh
      ++ padDigits 2 mi ++ padDigits 2 ss := by simp only [epochToDatetime, hg]
  have s1 : slice (epochToDatetime e) 0 4 = padDigits 4 y := by
    rw [hA]
    have := slice_mid [] (padDigits 4 y) (padDigits 2 m ++ padDigits 2 d ++ padDigits 2 hh
      ++ padDigits 2 mi ++ padDigits 2 ss) 0 4 rfl (by simp [padDigits_length]) (by omega)
    simpa [List.append_assoc] using this
  have s2 : slice (epochToDatetime e) 4 6 = padDigits 2 m := by
    rw [hA]
    have := slice_mid (padDigits 4 y) (padDigits 2 m) (padDigits 2 d ++ padDigits 2 hh
      ++ padDigits 2 mi ++ padDigits 2 ss) 4 6 (by simp [padDigits_length]) (by simp [padDigits_length]) (by omega)
    simpa [List.append_assoc] using this
  have s3 : slice (epochToDatetime e) 6 8 = padDigits 2 d := by
    rw [hA]
    have := slice_mid (padDigits 4 y ++ padDigits 2 m) (padDigits 2 d) (padDigits 2 hh
      ++ padDigits 2 mi ++ padDigits 2 ss) 6 8 (by simp [padDigits_length]) (by simp [padDigits_length]) (by omega)
    simpa [List.append_assoc] using this
  have s4 : slice (epochToDatetime e) 8 10 = padDigits 2 hh := by
    rw [hA]
    have := slice_mid (padDigits 4 y ++ padDigits 2 m ++ padDigits 2 d) (padDigits 2 hh)
      (padDigits 2 mi ++ padDigits 2 ss) 8 10 (by simp [padDigits_length]) (by simp [padDigits_length]) (by omega)
    simpa [List.append_assoc] using this
  have s5 : slice (epochToDatetime e) 10 12 = padDigits 2 mi := by
    rw [hA]
    have := slice_mid (padDigits 4 y ++ padDigits 2 m ++ padDigits 2 d ++ padDigits 2 hh) (padDigits 2 mi)
      (padDigits 2 ss) 10 12 (by simp [padDigits_length]) (by simp [padDigits_length]) (by omega)
    simpa [List.append_assoc] using this
  have s6 : slice (epochToDatetime e) 12 14 = padDigits 2 ss := by
    rw [hA]
    have := slice_mid (padDigits 4 y ++ padDigits 2 m ++ padDigits 2 d ++ padDigits 2 hh ++ padDigits 2 mi)
      (padDigits 2 ss) [] 12 14 (by simp [padDigits_length]) (by simp [padDigits_length]) (by omega)
    simpa [List.append_assoc] using this
  have hok : (⟨y, m, d, hh, mi, ss, 0⟩ : DateTime).ok = true := by
    simp only [DateTime.ok, decide_eq_true_eq]
    refine ⟨p1, hy, p2, p3, p4, p5, ?_, ?_, ?_, by omega⟩ <;> simp only [hh, mi, ss] <;> omega
  have hsec : (⟨y, m, d, hh, mi, ss, 0⟩ : DateTime).seconds = (e : Int) := by
    simp only [DateTime.seconds, p6, hh, mi, ss]; omega
  simp only [stringToEpoch, s1, s2, s3, s4, s5, s6]
  rw [pyInt_padDigits 4 y (by omega) (by omega), pyInt_padDigits 2 m (by omega) (by omega),
    pyInt_padDigits 2 d (by omega) (by omega), pyInt_padDigits 2 hh (by omega) (by simp only [hh]; omega),
    pyInt_padDigits 2 mi (by omega) (by simp only [mi]; omega),
    pyInt_padDigits 2 ss (by omega) (by simp only [ss]; omega)]
  simp only [bind, Except.bind, dateTimeToEpoch, hok, if_true, hsec]
  simp

example : dateTimeToEpoch ⟨2024, 2, 29, 12, 0, 0, 500000⟩ 1 = .ok (1709204400 + 1 / 2) := by
  have h : (⟨2024, 2, 29, 12, 0, 0, 500000⟩ : DateTime).ok = true := by decide
  have hs : (⟨2024, 2, 29, 12, 0, 0, 500000⟩ : DateTime).seconds = 1709208000 := by decide
  simp only [dateTimeToEpoch, h, hs, if_true]; norm_num

example : ValidDate ⟨2000, 2, 29, 0, 0, 0, 0⟩ ∧ ¬ ValidDate ⟨1900, 2, 29, 0, 0, 0, 0⟩ := by
  constructor <;> simp [ValidDate, monthLength, Leap]

/-! ## C11 time zones -/

/-- What C11 asks for: both readers give the same answer. -/
def ZonesAgree (toFloat : String → Option ℚ) (tz : TzValue) : Prop :=
  readTimezone tz = missionTimezone toFloat tz

/-- C11 as stated is false: "CET" is 0 h in `read_timezone` and 1 h in the mission loader. -/
theorem C11_agree_false (toFloat : String → Option ℚ) : ¬ ∀ tz, ZonesAgree toFloat tz := by
  intro h
  have := h (.str "CET")
  simp [ZonesAgree, readTimezone, missionTimezone] at this

/-- C11 (partial): exactly which entries the two readers agree on: every number, and the names utc, UTC, jst, JST;
never on any other text. Missing: cet, CET, bst, BST and offsets written as text. -/
theorem C11_agree_iff_partial (toFloat : String → Option ℚ) (tz : TzValue) :
    ZonesAgree toFloat tz ↔
      (∀ s, tz = .str s → (s = "utc" ∨ s = "UTC" ∨ s = "jst" ∨ s = "JST" ∨
        (s = "bst" ∧ toFloat "bst" = some 1) ∨ (s = "BST" ∧ toFloat "BST" = some 1))) := by
  cases tz with
  | num q => simp [ZonesAgree, readTimezone, missionTimezone]
  | other => simp [ZonesAgree, readTimezone, missionTimezone]
  | str s =>
    simp only [ZonesAgree, readTimezone, missionTimezone, TzValue.str.injEq, forall_eq']
    by_cases h1 : s = "utc"
    · subst h1; simp
    by_cases h2 : s = "UTC"
    · subst h2; simp
    by_cases h3 : s = "cet"
    · subst h3; simp
    by_cases h4 : s = "CET"
    · subst h4; simp
    by_cases h5 : s = "jst"
    · subst h5; simp
    by_cases h6 : s = "JST"
    · subst h6; simp
    by_cases h7 : s = "bst"
    · subst h7
      cases hf : toFloat "bst" with
      | none => simp
      | some q => simp; exact eq_comm
    by_cases h8 : s = "BST"
    · subst h8
      cases hf : toFloat "BST" with
      | none => simp
      | some q => simp; exact eq_comm
    simp only [h1, h2, h3, h4, h5, h6, h7, h8, or_self, if_false, false_and]
    cases toFloat s <;> simp

/-- C11 (partial): an unknown name is never mapped to an offset: `read_timezone` fails, and the mission loader quits
unless the text is a number. -/
theorem C11_unknown_rejected_partial (toFloat : String → Option ℚ) (s : String)
    (h : s ∉ ["utc", "UTC", "cet", "CET", "jst", "JST", "bst", "BST"]) (hf : toFloat s = none) :
    (∃ e, readTimezone (.str s) = .error e) ∧ missionTimezone toFloat (.str s) = .error .quit := by
  simp only [List.mem_cons, List.not_mem_nil, or_false, not_or] at h
  obtain ⟨h1, h2, h3, h4, h5, h6, h7, h8⟩ := h
  constructor
  · exact ⟨.unboundLocal, by simp [readTimezone, *]⟩
  · simp [missionTimezone, *]

/-- C11 (partial): the mission offset in seconds is 3600 times the hours plus the clock offset. -/
theorem C11_offset_seconds_partial (toFloat : String → Option ℚ) (tz : TzValue) (off h : ℚ)
    (hh : missionTimezone toFloat tz = .ok h) :
    missionOffsetSeconds toFloat tz off = .ok (3600 * h + off) := by
  simp only [missionOffsetSeconds, hh, bind, Except.bind]
  congr 1; ring

example : missionTimezone (fun _ => none) (.str "jst") = .ok 9 ∧ readTimezone (.str "jst") = .ok 9 := by
  simp [missionTimezone, readTimezone]

/-! ## C12 file names -/

private theorem fieldChars_render (filler : Nat → Char) (g : Char) : ∀ (fmt : List Char) (field : Char → List Char),
    fmt.count g = (field g).length → fieldChars g (render filler field fmt) fmt = field g
  | [], field, h => by
    simp at h; simp [fieldChars, render]; exact List.length_eq_zero_iff.mp h.symm
  | f :: fmt, field, h => by
    cases hf : field f with
    | cons c cs =>
      simp only [render, hf]
      by_cases hg : f = g
      · subst hg
        rw [List.count_cons_self, hf, List.length_cons] at h
        have ih := fieldChars_render filler f fmt (fun g => if g = f then cs else field g) (by simp; omega)
        simp only [fieldChars] at ih ⊢
        simp only [List.zip_cons_cons, List.filter_cons, decide_true, if_true, List.map_cons]
        rw [ih]; simp [hf]
      · rw [List.count_cons_of_ne hg] at h
        have hg' : ¬ g = f := fun h => hg h.symm
        have ih := fieldChars_render filler g fmt (fun g => if g = f then cs else field g) (by simp [hg']; omega)
        simp only [fieldChars] at ih ⊢
        simp only [List.zip_cons_cons, List.filter_cons, hg, decide_false, Bool.false_eq_true, if_false]
        rw [ih]; simp [hg']
    | nil =>
      simp only [render, hf]
      have hg : ¬ f = g := by
        rintro rfl
        rw [List.count_cons_self, hf] at h; simp at h
      rw [List.count_cons_of_ne hg] at h
      have ih := fieldChars_render filler g fmt field h
      simp only [fieldChars] at ih ⊢
      simp only [List.zip_cons_cons, List.filter_cons, hg, decide_false, Bool.false_eq_true, if_false]
      exact ih

private theorem pyInt_pad0 (n v : Nat) (h : v < 10 ^ n) :
    pyInt (if padDigits n v = [] then ['0'] else padDigits n v) = .ok v := by
  cases n with
  | zero => simp at h; subst h; simp [padDigits]; decide
  | succ n =>
    have : padDigits (n + 1) v ≠ [] := by
      intro he; have := padDigits_length (n + 1) v; rw [he] at this; simp at this
    rw [if_neg this, pyInt_padDigits _ _ (by omega) h]

/-- C12: a name printed from a date according to any pattern with 4 year, 2 month, day, hour, minute and
second letters, up to three millisecond and microsecond letters and no index or epoch letter, decodes to the epoch of
exactly that date, whatever the other characters are. -/
theorem C12_decodes (toFloat : List Char → Option ℚ) (table : Option (Nat → Option ℚ)) (filler : Nat → Char)
    (fmt : List Char) (c : DateTime) (ms us : Nat) (hv : ValidDate c) (hus : c.us = 1000 * ms + us)
    (hY : fmt.count 'Y' = 4) (hM : fmt.count 'M' = 2) (hD : fmt.count 'D' = 2) (hh : fmt.count 'h' = 2)
    (hm : fmt.count 'm' = 2) (hs : fmt.count 's' = 2) (hf : fmt.count 'f' ≤ 3) (hu : fmt.count 'u' ≤ 3)
    (hi : fmt.count 'i' = 0) (he : fmt.count 'e' = 0)
    (hms : ms < 10 ^ fmt.count 'f') (huu : us < 10 ^ fmt.count 'u') :
    filenameToEpoch toFloat table
      (render filler (dateFields c ms us (fmt.count 'f') (fmt.count 'u')) fmt) fmt = dateTimeToEpoch c 0 := by
  have hok := (ok_iff c).mpr hv
  obtain ⟨⟨y1, y2⟩, ⟨m1, m2⟩, ⟨d1, d2⟩, h1, mi1, s1, _⟩ := hv
  have hd31 : c.day ≤ 31 := by
    have h31 : monthLength c.year c.month ≤ 31 := by
      simp only [monthLength]; split
      · split <;> omega
      · split <;> omega
    omega
  have key : ∀ g, fmt.count g = (dateFields c ms us (fmt.count 'f') (fmt.count 'u') g).length →
    fieldChars g (render filler (dateFields c ms us (fmt.count 'f') (fmt.count 'u')) fmt) fmt
      = dateFields c ms us (fmt.count 'f') (fmt.count 'u') g :=
    fun g hg => fieldChars_render filler g fmt _ hg
  have kY := key 'Y' (by simp [dateFields, padDigits_length, hY])
  have kM := key 'M' (by simp [dateFields, padDigits_length, hM])
  have kD := key 'D' (by simp [dateFields, padDigits_length, hD])
  have kh := key 'h' (by simp [dateFields, padDigits_length, hh])
  have km := key 'm' (by simp [dateFields, padDigits_length, hm])
  have ks := key 's' (by simp [dateFields, padDigits_length, hs])
  have kf := key 'f' (by simp [dateFields, padDigits_length])
  have ku := key 'u' (by simp [dateFields, padDigits_length])
  have ki := key 'i' (by simp [dateFields, hi])
  have ke := key 'e' (by simp [dateFields, he])
  simp only [filenameToEpoch, kY, kM, kD, kh, km, ks, kf, ku, ki, ke]
  have di : ∀ a b, dateFields c ms us a b 'i' = [] := fun _ _ => rfl
  have de : ∀ a b, dateFields c ms us a b 'e' = [] := fun _ _ => rfl
  have dY : ∀ a b, dateFields c ms us a b 'Y' = padDigits 4 c.year := fun _ _ => rfl
  have dM : ∀ a b, dateFields c ms us a b 'M' = padDigits 2 c.month := fun _ _ => rfl
  have dD : ∀ a b, dateFields c ms us a b 'D' = padDigits 2 c.day := fun _ _ => rfl
  have dh : ∀ a b, dateFields c ms us a b 'h' = padDigits 2 c.hour := fun _ _ => rfl
  have dm : ∀ a b, dateFields c ms us a b 'm' = padDigits 2 c.minute := fun _ _ => rfl
  have ds : ∀ a b, dateFields c ms us a b 's' = padDigits 2 c.second := fun _ _ => rfl
  have df : ∀ a b, dateFields c ms us a b 'f' = padDigits a ms := fun _ _ => rfl
  have du : ∀ a b, dateFields c ms us a b 'u' = padDigits b us := fun _ _ => rfl
  simp only [di, de, dY, dM, dD, dh, dm, ds, df, du, padDigits_length, and_self, if_true, ne_eq, not_true, if_false,
    show (2 : Nat) ≤ 2 from le_refl 2, hf, hu, pyInt_pad0 _ _ hms, pyInt_pad0 _ _ huu]
  rw [pyInt_padDigits 4 c.year (by omega) (by omega), pyInt_padDigits 2 c.month (by omega) (by omega),
    pyInt_padDigits 2 c.day (by omega) (by omega), pyInt_padDigits 2 c.hour (by omega) (by omega),
    pyInt_padDigits 2 c.minute (by omega) (by omega), pyInt_padDigits 2 c.second (by omega) (by omega)]
  simp only [bind, Except.bind]
  have e : ms * 1000 + us = c.us := by rw [hus]; ring
  rw [e]
  have hc : (⟨c.year, c.month, c.day, c.hour, c.minute, c.second, c.us⟩ : DateTime) = c := rfl
  simp only [hc, hok, if_true, dateTimeToEpoch]
  congr 1; ring

/-- C12: the decoded value does not depend on any character outside the field positions. -/
theorem C12_other_characters_irrelevant (toFloat : List Char → Option ℚ) (table : Option (Nat → Option ℚ))
    (n n' fmt : List Char) (hl : n.length = n'.length)
    (h : ∀ (k : Nat) (f a b : Char), fmt[k]? = some f → f ∈ ['Y', 'M', 'D', 'h', 'm', 's', 'f', 'u', 'i', 'e'] →
      n[k]? = some a → n'[k]? = some b → a = b) :
    filenameToEpoch toFloat table n fmt = filenameToEpoch toFloat table n' fmt := by
  have key : ∀ g ∈ ['Y', 'M', 'D', 'h', 'm', 's', 'f', 'u', 'i', 'e'], fieldChars g n fmt = fieldChars g n' fmt := by
    intro g hg
    simp only [fieldChars]
    clear toFloat table
    induction fmt generalizing n n' with
    | nil => simp
    | cons f fmt ih =>
      cases n with
      | nil => cases n' with
        | nil => rfl
        | cons _ _ => simp at hl
      | cons a n => cases n' with
        | nil => simp at hl
        | cons b n' =>
          have ih' := ih n n' (by simpa using hl) (fun k f' a' b' h1 h2 h3 h4 =>
            h (k + 1) f' a' b' (by simpa using h1) h2 (by simpa using h3) (by simpa using h4))
          simp only [List.zip_cons_cons, List.filter_cons]
          by_cases hfg : f = g
          · have := h 0 f a b (by simp) (by rw [hfg]; exact hg) (by simp) (by simp)
            subst this
            simp [hfg, ih']
          · simp [hfg, ih']
  simp only [filenameToEpoch]
  rw [key 'Y' (by simp), key 'M' (by simp), key 'D' (by simp), key 'h' (by simp), key 'm' (by simp),
    key 's' (by simp), key 'f' (by simp), key 'u' (by simp), key 'i' (by simp), key 'e' (by simp)]

/-- C12, the rejection half, is false: a name with extra characters at the end is decoded as if they were not there. -/
theorem C12_length_rejected_false (toFloat : List Char → Option ℚ) (table : Option (Nat → Option ℚ))
    (name extra fmt : List Char) (h : fmt.length ≤ name.length) :
    filenameToEpoch toFloat table (name ++ extra) fmt = filenameToEpoch toFloat table name fmt := by
  have key : ∀ g, fieldChars g (name ++ extra) fmt = fieldChars g name fmt := by
    intro g; simp only [fieldChars]
    have : (name ++ extra).zip fmt = name.zip fmt := by
      clear g
      induction fmt generalizing name with
      | nil => simp
      | cons f fmt ih =>
        cases name with
        | nil => simp at h
        | cons a name => simp [ih name (by simpa using h)]
    rw [this]
  simp only [filenameToEpoch, key]

/-- C12 (partial), rejection: when the name supplies a wrong number of year, month, day or hour characters (and no
index or epoch field), decoding fails. Missing: names that are too long, or have too few
minute or second characters but at least one. -/
theorem C12_incomplete_rejected_partial (toFloat : List Char → Option ℚ) (table : Option (Nat → Option ℚ))
    (name fmt : List Char) (hi : 'i' ∉ fmt) (he : 'e' ∉ fmt)
    (h : (fieldChars 'Y' name fmt).length ≠ 4 ∨ (fieldChars 'M' name fmt).length ≠ 2 ∨
      (fieldChars 'D' name fmt).length ≠ 2 ∨ (fieldChars 'h' name fmt).length ≠ 2) :
    filenameToEpoch toFloat table name fmt = .error .assertion := by
  have hnone : ∀ g, g ∉ fmt → fieldChars g name fmt = [] := by
    intro g hg
    simp only [fieldChars, List.map_eq_nil_iff, List.filter_eq_nil_iff]
    intro p hp hpg
    simp at hpg
    exact hg (hpg ▸ (List.of_mem_zip hp).2)
  simp only [filenameToEpoch, hnone 'i' hi, hnone 'e' he, and_self, if_true]
  split
  · rfl
  · split
    · rfl
    · split
      · rfl
      · split
        · rfl
        · omega

/-- C12: an epoch field takes priority and is read as a number. -/
theorem C12_epoch_field (toFloat : List Char → Option ℚ) (table : Option (Nat → Option ℚ))
    (name fmt : List Char) (q : ℚ) (hne : fieldChars 'e' name fmt ≠ [])
    (hq : toFloat (fieldChars 'e' name fmt) = some q) : filenameToEpoch toFloat table name fmt = .ok q := by
  simp only [filenameToEpoch, hne, and_false, if_false, ne_eq, not_false_iff, if_true, hq]

/-- C12: an index field is looked up in the timestamp file; without a file the program quits. -/
theorem C12_index_field (toFloat : List Char → Option ℚ) (table : Nat → Option ℚ)
    (name fmt : List Char) (i : Nat) (q : ℚ) (he : fieldChars 'e' name fmt = [])
    (hi : pyInt (fieldChars 'i' name fmt) = .ok i) (hq : table i = some q) :
    filenameToEpoch toFloat (some table) name fmt = .ok q ∧
    filenameToEpoch toFloat none name fmt = .error .quit := by
  have hne : fieldChars 'i' name fmt ≠ [] := by
    intro h; rw [h] at hi; simp [pyInt] at hi
  constructor <;> simp [filenameToEpoch, hne, he, hi, bind, Except.bind, hq]

/-- The documented example pattern: PR_20180811_153729_762_RC16 -> 2018-08-11 15:37:29.762. -/
example : filenameToEpoch (fun _ => none) none "PR_20180811_153729_762_RC16".toList
    "xxxYYYYMMDDxhhmmssxfffxxxxx.xxx".toList = .ok (1534001849 + 762 / 1000) := by
  have h : (⟨2018, 8, 11, 15, 37, 29, 762000⟩ : DateTime).ok = true := by decide
  have hs : (⟨2018, 8, 11, 15, 37, 29, 762000⟩ : DateTime).seconds = 1534001849 := by decide
  have := C12_decodes (fun _ => none) none
    (fun _ => 'P') "xxxYYYYMMDDxhhmmssxfffxxxxx.xxx".toList ⟨2018, 8, 11, 15, 37, 29, 762000⟩ 762 0
    ((ok_iff _).mp h) rfl (by decide) (by decide) (by decide) (by decide) (by decide) (by decide) (by decide)
    (by decide) (by decide) (by decide) (by decide) (by decide)
  have hgo : dateTimeToEpoch ⟨2018, 8, 11, 15, 37, 29, 762000⟩ 0 = .ok (1534001849 + 762 / 1000) := by
    simp only [dateTimeToEpoch, h, hs, if_true]; norm_num
  rw [hgo] at this
  rw [← this]
  rfl

end Oplab.Props
