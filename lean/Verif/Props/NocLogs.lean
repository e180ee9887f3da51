import Verif.Spec.NocLogs
import Verif.Lemmas.Split
import Mathlib.Tactic.Ring
import Mathlib.Tactic.NormNum
import Mathlib.Tactic.Linarith

namespace Oplab.Props
open Oplab Oplab.Spec

/-! ## Texts -/

private theorem noChar (k : Char) (hk : k.isDigit = false) (w n : ℕ) : ∀ c ∈ padDigits w n, decide (c = k) = false :=
  digits_noSep _ (by intro c h; rw [decide_eq_true_eq] at h; subst h; exact hk) w n

private theorem notMem (k : Char) (l : List Char) (h : k ∉ l) : ∀ c ∈ l, decide (c = k) = false := by
  intro c hc
  rw [decide_eq_false_iff_not]
  rintro rfl
  exact h hc

private theorem digits_notMem (k : Char) (hk : k.isDigit = false) (w n : ℕ) : k ∉ padDigits w n := by
  intro h
  have := noChar k hk w n k h
  simp at this

private theorem get0 {α : Type} (a : α) (l : List α) : pyGet (a :: l) 0 = .ok a := pyGet_of_getElem? _ 0 a rfl
private theorem get1 {α : Type} (a b : α) (l : List α) : pyGet (a :: b :: l) 1 = .ok b := pyGet_of_getElem? _ 1 b rfl
private theorem get2 {α : Type} (a b c : α) (l : List α) : pyGet (a :: b :: c :: l) 2 = .ok c := pyGet_of_getElem? _ 2 c rfl

private theorem split_two (k : Char) (a b : List Char) (ha : k ∉ a) (hb : k ∉ b) : splitAtSep (· = k) (a ++ k :: b) = [a, b] := by
  rw [splitSep_append _ k (by simp), splitSep_none _ a (notMem k a ha), splitSep_none _ b (notMem k b hb)]
  rfl

private theorem split_one (k : Char) (a : List Char) (ha : k ∉ a) : splitAtSep (· = k) a = [a] := splitSep_none _ a (notMem k a ha)

private theorem split_three (k : Char) (a b c : List Char) (ha : k ∉ a) (hb : k ∉ b) (hc : k ∉ c) :
    splitAtSep (· = k) (a ++ k :: (b ++ k :: c)) = [a, b, c] := by
  rw [splitSep_append _ k (by simp), split_one k a ha, split_two k b c hb hc]
  rfl

private theorem split_first (k : Char) (a rest : List Char) (ha : k ∉ a) :
    ∃ t, splitAtSep (· = k) (a ++ k :: rest) = a :: t := by
  rw [splitSep_append _ k (by simp), split_one k a ha]
  exact ⟨_, rfl⟩

private theorem split_second (k : Char) (a b rest : List Char) (ha : k ∉ a) (hb : k ∉ b) :
    ∃ t, splitAtSep (· = k) (a ++ k :: (b ++ k :: rest)) = a :: b :: t := by
  rw [splitSep_append _ k (by simp), split_one k a ha, splitSep_append _ k (by simp), split_one k b hb]
  exact ⟨_, rfl⟩

/-! ## C191 -/

private theorem nmea_frac (tz off : ℚ) (date c : DateTime) (frac clock name rest : List Char) (hd : date.ok = true) (hc : c.ok = true)
    (hf : ',' ∉ frac) (hn : ',' ∉ name) :
    nmeaTime tz off (nmeaText date clock name c frac rest) (nmeaTelegram name c frac rest)
      = (fractionRead (frac.take 3)).bind fun f => .ok
        (((⟨date.year, date.month, date.day, c.hour, c.minute, c.second, 0⟩ : DateTime).seconds : ℚ) - tz * 3600 + f + off) := by
  obtain ⟨f1, f2, f3, -, -, -⟩ := validDate_digits _ hd
  obtain ⟨-, -, -, f4, f5, f6⟩ := validDate_digits _ hc
  obtain ⟨t1, e1⟩ := split_first ' ' (padDigits 2 date.day ++ '/' :: (padDigits 2 date.month ++ '/' :: padDigits 4 date.year))
    (clock ++ '\t' :: nmeaTelegram name c (frac) rest) (by
      simp only [List.mem_append, List.mem_cons, digits_notMem ' ' (by decide), false_or, or_false]; decide)
  obtain ⟨t2, e2⟩ := split_second ',' name (padDigits 2 c.hour ++ padDigits 2 c.minute ++ padDigits 2 c.second ++ '.' :: frac) rest
    hn (by simp only [List.mem_append, List.mem_cons, digits_notMem ',' (by decide), hf, false_or, or_false]; decide)
  have l1 : nmeaText date clock name c (frac) rest = (padDigits 2 date.day ++ '/' :: (padDigits 2 date.month ++ '/' ::
      padDigits 4 date.year)) ++ ' ' :: (clock ++ '\t' :: nmeaTelegram name c (frac) rest) := by
    simp [nmeaText, nmeaTelegram]
  have l2 : nmeaTelegram name c (frac) rest = name ++ ',' :: ((padDigits 2 c.hour ++ padDigits 2 c.minute ++ padDigits 2 c.second ++
      '.' :: frac) ++ ',' :: rest) := by
    simp [nmeaTelegram]
  have s1 := slice_between (padDigits 2 date.day ++ '/' :: (padDigits 2 date.month ++ ['/'])) (padDigits 4 date.year) [] 6 10
    (by simp [padDigits_length]) (by simp [padDigits_length])
  have s2 := slice_between (padDigits 2 date.day ++ ['/']) (padDigits 2 date.month) ('/' :: padDigits 4 date.year) 3 5
    (by simp [padDigits_length]) (by simp [padDigits_length])
  have s3 := slice_between [] (padDigits 2 date.day) ('/' :: (padDigits 2 date.month ++ '/' :: padDigits 4 date.year)) 0 2
    (by simp) (by simp [padDigits_length])
  have s4 := slice_between [] (padDigits 2 c.hour) (padDigits 2 c.minute ++ (padDigits 2 c.second ++ '.' :: frac)) 0 2
    (by simp) (by simp [padDigits_length])
  have s5 := slice_between (padDigits 2 c.hour) (padDigits 2 c.minute) (padDigits 2 c.second ++ '.' :: frac) 2 4
    (by simp [padDigits_length]) (by simp [padDigits_length])
  have s6 := slice_between (padDigits 2 c.hour ++ padDigits 2 c.minute) (padDigits 2 c.second) ('.' :: frac) 4 6
    (by simp [padDigits_length]) (by simp [padDigits_length])
  have s7 : slice (padDigits 2 c.hour ++ (padDigits 2 c.minute ++ (padDigits 2 c.second ++ '.' :: frac))) 7 10 = frac.take 3 := by
    have := slice_between (padDigits 2 c.hour ++ padDigits 2 c.minute ++ padDigits 2 c.second ++ ['.']) (frac.take 3) (frac.drop 3) 7
      (7 + (frac.take 3).length) (by simp [padDigits_length]) rfl
    rw [List.take_append_drop] at this
    rw [← this]
    simp only [List.append_assoc, List.cons_append, List.nil_append, slice]
    by_cases h3 : 3 ≤ frac.length
    · rw [List.length_take, Nat.min_eq_left h3]
    · rw [List.take_of_length_le (by simp [padDigits_length]; omega), List.take_of_length_le (by simp [padDigits_length]; omega)]
  simp only [List.append_assoc, List.cons_append, List.nil_append, List.append_nil] at s1 s2 s3 s4 s5 s6
  have hok : (⟨date.year, date.month, date.day, c.hour, c.minute, c.second, 0⟩ : DateTime).ok = true := by
    simp only [DateTime.ok, decide_eq_true_eq] at hd hc ⊢
    omega
  unfold nmeaTime
  rw [l1, e1, l2, e2]
  simp only [get0, get1, bind, Except.bind, List.append_assoc, s1, s2, s3, s4, s5, s6, s7,
    pyInt_padDigits 4 _ (by norm_num) f1, pyInt_padDigits 2 _ (by norm_num) f2, pyInt_padDigits 2 _ (by norm_num) f3,
    pyInt_padDigits 2 _ (by norm_num) f4, pyInt_padDigits 2 _ (by norm_num) f5, pyInt_padDigits 2 _ (by norm_num) f6, dateTimeToEpoch, hok, if_true]
  cases fractionRead (frac.take 3) with
  | error e => rfl
  | ok v =>
    refine congrArg Except.ok ?_
    push_cast
    ring

private theorem nmea_time (tz off : ℚ) (date c : DateTime) (ms : ℕ) (clock name rest : List Char) (hd : date.ok = true) (hc : c.ok = true)
    (hm : ms < 1000) (hn : ',' ∉ name) :
    nmeaTime tz off (nmeaText date clock name c (padDigits 3 ms) rest) (nmeaTelegram name c (padDigits 3 ms) rest)
      = .ok (instantOf tz off ⟨date.year, date.month, date.day, c.hour, c.minute, c.second, 0⟩ ms) := by
  rw [nmea_frac tz off date c _ clock name rest hd hc (digits_notMem ',' (by decide) _ _) hn,
    List.take_of_length_le (by simp [padDigits_length])]
  simp only [fractionRead, pyInt_padDigits 3 ms (by norm_num) hm, bind, Except.bind, instantOf]
  congr 1
  ring

private theorem nmea_line (K : Type) (parse : List Char → Res (NmeaMsg K)) (n : ℕ) (tz off : ℚ) (line : List Char)
    (r : Option (DateTime × ℕ × NmeaMsg K)) (h : NmeaKind parse n line r) :
    nmeaLine parse (.num n) tz off line = .ok (r.map fun p => (instantOf tz off p.1 p.2.1, p.2.2)) := by
  cases h with
  | plain h =>
    simp only [nmeaLine, split_one _ _ h, Option.map_none]
  | other before telegram m w k e h1 h2 hp hw hk hs hne =>
    subst e
    have hb : nmeaIsBeacon (.num n) m = .ok false := by
      simp only [nmeaIsBeacon, hs, pyInt_padDigits w k hw hk, bind, Except.bind]
      congr 1
      simp [Ne.symm hne]
    simp only [nmeaLine, split_two _ _ _ h1 h2, hp, hb, bind, Except.bind, Option.map_none]
    rfl
  | fix c ms clock name rest m w hok hus hm e h1 h2 h3 h4 hp hw hn hs =>
    have hb : nmeaIsBeacon (.num n) m = .ok true := by
      simp only [nmeaIsBeacon, hs, pyInt_padDigits w n hw hn, bind, Except.bind]
      congr 1
    have hsplit : splitAtSep (· = '\t') line = [padDigits 2 c.day ++ '/' :: (padDigits 2 c.month ++ '/' :: (padDigits 4 c.year ++ ' ' :: clock)),
        nmeaTelegram name c (padDigits 3 ms) rest] := by
      have l1 : line = (padDigits 2 c.day ++ '/' :: (padDigits 2 c.month ++ '/' :: (padDigits 4 c.year ++ ' ' :: clock))) ++ '\t' ::
          nmeaTelegram name c (padDigits 3 ms) rest := by
        rw [e]; simp [nmeaText, nmeaTelegram]
      rw [l1]
      refine split_two _ _ _ ?_ ?_
      · simp only [List.mem_append, List.mem_cons, digits_notMem '\t' (by decide), h1, false_or, or_false]; decide
      · simp only [nmeaTelegram, List.mem_append, List.mem_cons, digits_notMem '\t' (by decide), h2, h4, false_or, or_false]; decide
    have ht := nmea_time tz off c c ms clock name rest hok hok hm h3
    rw [← e] at ht
    have hcc : (⟨c.year, c.month, c.day, c.hour, c.minute, c.second, 0⟩ : DateTime) = c := by
      obtain ⟨y, mo, d, hh, mi, s, us⟩ := c
      simp only at hus; subst hus; rfl
    rw [hcc] at ht
    simp only [nmeaLine, hsplit, hp, hb, ht, bind, Except.bind, if_true, Option.map_some]

/-- C191 (partial): every telegram of the configured station gives one fix, in the order of the log, with the time it states; telegrams of
other stations and lines without a telegram give none. Missing: logs in which the date of the computer is not that of the telegram, see
`C191_midnight_false`; fractions that do not have three digits, see `C191_fraction_false`; labels given as text, see
`C191_text_label_false`. -/
theorem C191_fixes_partial {K : Type} (parse : List Char → Res (NmeaMsg K)) (n : ℕ) (tz off : ℚ) (lines : List (List Char))
    (rs : List (Option (DateTime × ℕ × NmeaMsg K))) (h : List.Forall₂ (NmeaKind parse n) lines rs) :
    nmeaLines parse (.num n) tz off lines = .ok (rs.filterMap fun r => r.map fun p => (instantOf tz off p.1 p.2.1, p.2.2)) := by
  induction h with
  | nil => rfl
  | @cons line r lines rs h1 _ ih =>
    simp only [nmeaLines, nmea_line K parse n tz off line r h1, ih, bind, Except.bind]
    cases r <;> rfl

/-- A `pynmea2` that reads station 2 at the origin from everything. -/
private def someMsg : NmeaMsg ℚ := ⟨some ['0', '0', '0', '2'], 0, 0, -10⟩

/-- Non-vacuity: a log with a line without telegram and a fix. -/
example : List.Forall₂ (NmeaKind (fun _ => .ok someMsg) 2) [['x'], nmeaText ⟨2019, 9, 6, 10, 11, 12, 0⟩ ['1'] ['$', 'A'] ⟨2019, 9, 6, 10, 11, 12, 0⟩
    (padDigits 3 250) ['2']] [none, some (⟨2019, 9, 6, 10, 11, 12, 0⟩, 250, someMsg)] :=
  .cons (.plain (by decide)) (.cons (.fix _ 250 ['1'] ['$', 'A'] ['2'] someMsg 4 (by decide) rfl (by norm_num) rfl (by decide) (by decide) (by decide)
    (by decide) rfl (by norm_num) (by norm_num) rfl) .nil)

/-- Full statement: a telegram sent less than a minute before the computer noted it gives a fix within that minute, whatever the dates. -/
def NmeaTimeRight : Prop := ∀ (tz off : ℚ) (date c : DateTime) (ms : ℕ) (clock name rest : List Char), date.ok = true → c.ok = true → ms < 1000 →
  ',' ∉ name → 0 ≤ (date.seconds : ℚ) - c.seconds → (date.seconds : ℚ) - c.seconds < 60 →
  nmeaTime tz off (nmeaText date clock name c (padDigits 3 ms) rest) (nmeaTelegram name c (padDigits 3 ms) rest) = .ok (instantOf tz off c ms)

/-- C191 is false at midnight: a telegram of 23:59:59 noted two seconds later, on the next day, gives a fix that is a day late. -/
theorem C191_midnight_false : ¬ NmeaTimeRight := by
  intro h
  have s1 : (⟨2019, 9, 7, 0, 0, 1, 0⟩ : DateTime).seconds = 1567814401 := by decide
  have s2 : (⟨2019, 9, 6, 23, 59, 59, 0⟩ : DateTime).seconds = 1567814399 := by decide
  have s3 : (⟨2019, 9, 7, 23, 59, 59, 0⟩ : DateTime).seconds = 1567900799 := by decide
  have h1 := h 0 0 ⟨2019, 9, 7, 0, 0, 1, 0⟩ ⟨2019, 9, 6, 23, 59, 59, 0⟩ 0 [] [] [] (by decide) (by decide) (by norm_num) (by simp)
    (by rw [s1, s2]; norm_num) (by rw [s1, s2]; norm_num)
  rw [nmea_time 0 0 _ _ 0 [] [] [] (by decide) (by decide) (by norm_num) (by simp)] at h1
  simp only [instantOf, s2, s3, Except.ok.injEq] at h1
  norm_num at h1

/-- C191 is false for fractions with one digit: half a second (".5") becomes five milliseconds, and ".25" twenty-five; without a fraction the
log is not read at all. -/
theorem C191_fraction_false (tz off : ℚ) (c : DateTime) (hok : c.ok = true) (clock name rest : List Char) (hn : ',' ∉ name) :
    nmeaTime tz off (nmeaText c clock name c ['5'] rest) (nmeaTelegram name c ['5'] rest) = .ok (instantOf tz off { c with us := 0 } 5) ∧
    nmeaTime tz off (nmeaText c clock name c [] rest) (nmeaTelegram name c [] rest) = .error .valueError := by
  have h5 : pyInt ['5'] = .ok 5 := by rfl
  have h0 : pyInt [] = .error .valueError := by rfl
  constructor
  · rw [nmea_frac tz off c c ['5'] clock name rest hok hok (by decide) hn]
    simp only [List.take, fractionRead, h5, bind, Except.bind, instantOf]
    congr 1
    push_cast
    ring
  · rw [nmea_frac tz off c c [] clock name rest hok hok (by decide) hn]
    simp only [List.take, fractionRead, h0, bind, Except.bind]

/-- C191 is false for a label given as text (`label: "2"`): no telegram at all gives a fix, although the station is the same. -/
theorem C191_text_label_false {K : Type} (parse : List Char → Res (NmeaMsg K)) (n : ℕ) (label : List Char) (tz off : ℚ) (lines : List (List Char))
    (rs : List (Option (DateTime × ℕ × NmeaMsg K))) (h : List.Forall₂ (NmeaKind parse n) lines rs) :
    nmeaLines parse (.text label) tz off lines = .ok [] := by
  have hb : ∀ (m : NmeaMsg K) (w k : ℕ), 0 < w → k < 10 ^ w → m.station = some (padDigits w k) → nmeaIsBeacon (.text label) m = .ok false := by
    intro m w k hw hk hs
    simp only [nmeaIsBeacon, hs, pyInt_padDigits w k hw hk, bind, Except.bind]
    congr 1
  induction h with
  | nil => rfl
  | @cons line r lines rs h1 _ ih =>
    have hl : nmeaLine parse (.text label) tz off line = .ok none := by
      cases h1 with
      | plain h => simp only [nmeaLine, split_one _ _ h]
      | other before telegram m w k e h1 h2 hp hw hk hs hne =>
        subst e
        simp only [nmeaLine, split_two _ _ _ h1 h2, hp, hb m w k hw hk hs, bind, Except.bind]
        rfl
      | fix c ms clock name rest m w hok hus hm e h1 h2 h3 h4 hp hw hn hs =>
        have hsplit : splitAtSep (· = '\t') line = [padDigits 2 c.day ++ '/' :: (padDigits 2 c.month ++ '/' :: (padDigits 4 c.year ++ ' ' :: clock)),
            nmeaTelegram name c (padDigits 3 ms) rest] := by
          have l1 : line = (padDigits 2 c.day ++ '/' :: (padDigits 2 c.month ++ '/' :: (padDigits 4 c.year ++ ' ' :: clock))) ++ '\t' ::
              nmeaTelegram name c (padDigits 3 ms) rest := by
            rw [e]; simp [nmeaText, nmeaTelegram]
          rw [l1]
          refine split_two _ _ _ ?_ ?_
          · simp only [List.mem_append, List.mem_cons, digits_notMem '\t' (by decide), h1, false_or, or_false]; decide
          · simp only [nmeaTelegram, List.mem_append, List.mem_cons, digits_notMem '\t' (by decide), h2, h4, false_or, or_false]; decide
        simp only [nmeaLine, hsplit, hp, hb m w n hw hn hs, bind, Except.bind]
        rfl
    simp only [nmeaLines, hl, ih, bind, Except.bind]
    rfl

/-! ## C192 -/

private theorem isBlank_digit (c : Char) (h : c.isDigit = true) : isBlank c = false := by
  by_contra hn
  rw [Bool.not_eq_false] at hn
  simp only [isBlank, decide_eq_true_eq] at hn
  rcases hn with rfl | rfl | rfl | rfl <;> revert h <;> decide

private theorem strip_digits (w n : ℕ) : stripBlanks (padDigits w n) = padDigits w n := by
  have h := List.all_eq_true.mp (padDigits_all w n)
  refine stripBlanks_id _ ?_ ?_
  · intro c hc; exact isBlank_digit c (h c (List.mem_of_mem_head? hc))
  · intro c hc; exact isBlank_digit c (h c (List.mem_of_mem_getLast? hc))

private theorem two_columns (n : ℕ) (s : List Char) (h : TwoColumns n s) : s.length = 2 ∧ blankInt s = .ok n := by
  cases h with
  | zero hn => exact ⟨padDigits_length _ _, by rw [blankInt, strip_digits]; exact pyInt_padDigits 2 n (by norm_num) (by omega)⟩
  | blank hn =>
    refine ⟨by simp [padDigits_length], ?_⟩
    have : stripBlanks (' ' :: padDigits 1 n) = stripBlanks (padDigits 1 n) := by
      unfold stripBlanks
      rw [List.dropWhile_cons_of_pos (by decide)]
    rw [blankInt, this, strip_digits]
    exact pyInt_padDigits 1 n (by norm_num) (by omega)

private theorem blankInt_digits (w n : ℕ) (hw : 0 < w) (h : n < 10 ^ w) : blankInt (padDigits w n) = .ok n := by
  rw [blankInt, strip_digits, pyInt_padDigits w n hw h]

private theorem pol_line {K : Type} [Field K] (toFloat : List Char → Res K) (offset : K) (tz off : ℚ) (c : DateTime) (hok : c.ok = true)
    (hs : c.second = 0) (hus : c.us = 0) (height : K) (line : List Char) (h : PolText toFloat c height line) :
    polLine toFloat offset tz off line = .ok (instantOf tz off c 0, height, height * offset) := by
  obtain ⟨d, m, gap, level, rest, hd, hm, hg, hl, hf, rfl⟩ := h
  obtain ⟨d1, d2⟩ := two_columns _ _ hd
  obtain ⟨m1, m2⟩ := two_columns _ _ hm
  obtain ⟨f1, -, -, f4, f5, -⟩ := validDate_digits _ hok
  have s1 := slice_between [] d ('/' :: (m ++ '/' :: (padDigits 4 c.year ++ ' ' :: ' ' :: (padDigits 2 c.hour ++ ':' ::
    (padDigits 2 c.minute ++ (gap ++ (level ++ rest))))))) 0 2 rfl (by omega)
  have s2 := slice_between (d ++ ['/']) m ('/' :: (padDigits 4 c.year ++ ' ' :: ' ' :: (padDigits 2 c.hour ++ ':' ::
    (padDigits 2 c.minute ++ (gap ++ (level ++ rest)))))) 3 5 (by simp [d1]) (by omega)
  have s3 := slice_between (d ++ '/' :: (m ++ ['/'])) (padDigits 4 c.year) (' ' :: ' ' :: (padDigits 2 c.hour ++ ':' ::
    (padDigits 2 c.minute ++ (gap ++ (level ++ rest))))) 6 10 (by simp [d1, m1]) (by simp [padDigits_length])
  have s4 := slice_between (d ++ '/' :: (m ++ '/' :: (padDigits 4 c.year ++ [' ', ' ']))) (padDigits 2 c.hour) (':' ::
    (padDigits 2 c.minute ++ (gap ++ (level ++ rest)))) 12 14 (by simp [d1, m1, padDigits_length]) (by simp [padDigits_length])
  have s5 := slice_between (d ++ '/' :: (m ++ '/' :: (padDigits 4 c.year ++ ' ' :: ' ' :: (padDigits 2 c.hour ++ [':'])))) (padDigits 2 c.minute)
    (gap ++ (level ++ rest)) 15 17 (by simp [d1, m1, padDigits_length]) (by simp [padDigits_length])
  have s6 := slice_between (d ++ '/' :: (m ++ '/' :: (padDigits 4 c.year ++ ' ' :: ' ' :: (padDigits 2 c.hour ++ ':' :: (padDigits 2 c.minute ++
    gap))))) level rest 22 28 (by simp [d1, m1, hg, padDigits_length]) (by omega)
  simp only [List.append_assoc, List.cons_append, List.nil_append] at s1 s2 s3 s4 s5 s6
  have hcc : (⟨c.year, c.month, c.day, c.hour, c.minute, 0, 0⟩ : DateTime) = c := by
    obtain ⟨y, mo, d, hh, mi, s, us⟩ := c
    simp only at hus hs; subst hus hs; rfl
  unfold polLine
  simp only [s1, s2, s3, s4, s5, s6, d2, m2, blankInt_digits 4 _ (by norm_num) f1, blankInt_digits 2 _ (by norm_num) f4,
    blankInt_digits 2 _ (by norm_num) f5, hf, bind, Except.bind, dateTimeToEpoch, hcc, hok, if_true, instantOf]
  congr 2
  push_cast
  ring

/-- A table: a date, a time of day without seconds and a height per line. -/
private def PolLineOf {K : Type} (toFloat : List Char → Res K) (line : List Char) (p : DateTime × K) : Prop :=
  p.1.ok = true ∧ p.1.second = 0 ∧ p.1.us = 0 ∧ PolText toFloat p.1 p.2 line

private theorem pol_lines {K : Type} [Field K] (toFloat : List Char → Res K) (offset : K) (tz off : ℚ) (lines : List (List Char))
    (ps : List (DateTime × K)) (h : List.Forall₂ (PolLineOf toFloat) lines ps) :
    polLines toFloat offset tz off lines = .ok (ps.map fun p => (instantOf tz off p.1 0, p.2, p.2 * offset)) := by
  induction h with
  | nil => rfl
  | @cons line p lines ps h1 _ ih =>
    obtain ⟨a, b, c, d⟩ := h1
    simp only [polLines, pol_line toFloat offset tz off p.1 a b c p.2 line d, ih, bind, Except.bind, List.map_cons]

/-- C192 (partial): of every file, each line after the first six gives one record, in order, with the time and the height it states.
Missing: the standard deviation, see `C192_std_false`; a blank line, see `C192_blank_line_false`. -/
theorem C192_records_partial {K : Type} [Field K] (toFloat : List Char → Res K) (offset : K) (tz off : ℚ) (files : List (List (List Char)))
    (tables : List (List (DateTime × K)))
    (h : List.Forall₂ (fun file table => ∃ head lines, file = head ++ lines ∧ head.length = 6 ∧ List.Forall₂ (fun line p =>
      p.1.ok = true ∧ p.1.second = 0 ∧ p.1.us = 0 ∧ PolText toFloat p.1 p.2 line) lines table) files tables) :
    ∃ stds : List K, stds.length = tables.flatten.length ∧
      parsePolpred toFloat offset tz off files = .ok ((tables.flatten.zip stds).map fun p => (instantOf tz off p.1.1 0, p.1.2, p.2)) := by
  refine ⟨tables.flatten.map fun p => p.2 * offset, by rw [List.length_map], ?_⟩
  induction h with
  | nil => rfl
  | @cons file table files tables h1 _ ih =>
    obtain ⟨head, lines, rfl, h6, hl⟩ := h1
    have hd : (head ++ lines).drop 6 = lines := by rw [← h6, List.drop_left]
    simp only [parsePolpred, hd, pol_lines toFloat offset tz off lines table hl, ih, bind, Except.bind]
    congr 1
    rw [List.flatten_cons, List.map_append, List.zip_append (by simp), List.map_append]
    congr 1
    rw [List.zip_map_right, List.map_map]
    clear hl
    induction table with
    | nil => rfl
    | cons p t ih2 => simp [ih2]

/-- Non-vacuity: a line of 6 September 2019, 10:20, height 1.25 m. -/
example : PolText (fun _ => .ok (5 / 4 : ℚ)) ⟨2019, 9, 6, 10, 20, 0, 0⟩ (5 / 4)
    [' ', '6', '/', ' ', '9', '/', '2', '0', '1', '9', ' ', ' ', '1', '0', ':', '2', '0', ' ', ' ', ' ', ' ', ' ', ' ', ' ', '1', '.', '2', '5', '\n'] :=
  ⟨[' ', '6'], [' ', '9'], [' ', ' ', ' ', ' ', ' '], [' ', ' ', '1', '.', '2', '5'], ['\n'], .blank (by norm_num), .blank (by norm_num), rfl, rfl,
    rfl, rfl⟩

/-- Full statement: the standard deviation of a height is not negative, and for the height zero it is the offset given. -/
def PolStdRight : Prop := ∀ (toFloat : List Char → Res ℚ) (offset : ℚ) (c : DateTime) (height : ℚ) (line : List Char), 0 ≤ offset → c.ok = true →
  c.second = 0 → c.us = 0 → PolText toFloat c height line →
  ∃ t std, polLine toFloat offset 0 0 line = .ok (t, height, std) ∧ 0 ≤ std ∧ (height = 0 → std = offset)

/-- C192's standard deviation is false: it is the height times the offset of mission.yaml, negative for water below the datum and zero at
the datum. -/
theorem C192_std_false : ¬ PolStdRight ∧ ∀ {K : Type} [Field K] (toFloat : List Char → Res K) (offset : K) (tz off : ℚ) (c : DateTime) (height : K)
    (line : List Char), c.ok = true → c.second = 0 → c.us = 0 → PolText toFloat c height line →
    polLine toFloat offset tz off line = .ok (instantOf tz off c 0, height, height * offset) := by
  refine ⟨?_, fun toFloat offset tz off c height line h1 h2 h3 h4 => pol_line toFloat offset tz off c h1 h2 h3 height line h4⟩
  intro h
  let l : List Char := [' ', '6', '/', ' ', '9', '/', '2', '0', '1', '9', ' ', ' ', '1', '0', ':', '2', '0', ' ', ' ', ' ', ' ', ' ', ' ', '-', '1', '.',
    '2', '5']
  have ht : PolText (fun _ => .ok (-1 : ℚ)) ⟨2019, 9, 6, 10, 20, 0, 0⟩ (-1) l :=
    ⟨[' ', '6'], [' ', '9'], [' ', ' ', ' ', ' ', ' '], [' ', '-', '1', '.', '2', '5'], [], .blank (by norm_num), .blank (by norm_num), rfl, rfl,
      rfl, rfl⟩
  obtain ⟨t, std, e, hp, -⟩ := h _ 1 _ _ l (by norm_num) (by decide) rfl rfl ht
  rw [pol_line (fun _ => .ok (-1 : ℚ)) 1 0 0 _ (by decide) rfl rfl (-1) l ht] at e
  simp only [Except.ok.injEq, Prod.mk.injEq] at e
  rw [← e.2.2] at hp
  norm_num at hp

private theorem pol_blank {K : Type} [Field K] (toFloat : List Char → Res K) (offset : K) (tz off : ℚ) (post : List (List Char)) :
    ∀ pre, ∃ e, polLines toFloat offset tz off (pre ++ ['\n'] :: post) = .error e
  | [] => by
    have : blankInt (slice ['\n'] 0 2) = .error .valueError := by rfl
    exact ⟨.valueError, by simp only [List.nil_append, polLines, polLine, this, bind, Except.bind]⟩
  | line :: pre => by
    obtain ⟨e, he⟩ := pol_blank toFloat offset tz off post pre
    rw [List.cons_append, polLines, he]
    cases polLine toFloat offset tz off line with
    | error e' => exact ⟨e', rfl⟩
    | ok v => exact ⟨e, rfl⟩

/-- C192 is false for a blank line, as editors leave at the end: no record of any file is returned. -/
theorem C192_blank_line_false {K : Type} [Field K] (toFloat : List Char → Res K) (offset : K) (tz off : ℚ) (files : List (List (List Char)))
    (head pre post : List (List Char)) (h6 : head.length = 6) (hm : head ++ (pre ++ ['\n'] :: post) ∈ files) :
    ∃ e, parsePolpred toFloat offset tz off files = .error e := by
  induction files with
  | nil => simp at hm
  | cons file files ih =>
    rcases List.mem_cons.mp hm with rfl | hm
    · obtain ⟨e, he⟩ := pol_blank toFloat offset tz off post pre
      have hd : (head ++ (pre ++ ['\n'] :: post)).drop 6 = pre ++ ['\n'] :: post := by rw [← h6, List.drop_left]
      exact ⟨e, by rw [parsePolpred, hd, he]; rfl⟩
    · obtain ⟨e, he⟩ := ih hm
      rw [parsePolpred, he]
      cases polLines toFloat offset tz off (file.drop 6) with
      | error e' => exact ⟨e', rfl⟩
      | ok v => exact ⟨e, rfl⟩

/-! ## C193 -/

private theorem split_join : ∀ fs : List (List Char), fs ≠ [] → (∀ f ∈ fs, ',' ∉ f) → splitAtSep (· = ',') (commaJoin fs) = fs
  | [], h, _ => absurd rfl h
  | [f], _, h => split_one ',' f (h f (by simp))
  | f :: g :: fs, _, h => by
    rw [commaJoin, splitSep_append _ ',' (by simp), split_one ',' f (h f (by simp)),
      split_join (g :: fs) (by simp) fun x hx => h x (List.mem_cons_of_mem _ hx)]
    rfl

private theorem join_last : ∀ (fs : List (List Char)) (l : List Char), l ≠ [] → (commaJoin (fs ++ [l])).getLast? = l.getLast?
  | [], l, _ => rfl
  | [f], l, h => by
    show (f ++ ',' :: l).getLast? = _
    rw [List.getLast?_append, List.getLast?_cons]
    cases hl : l.getLast? with
    | none => exact absurd (List.getLast?_eq_none_iff.mp hl) h
    | some x => simp
  | f :: g :: fs, l, h => by
    have ih := join_last (g :: fs) l h
    show (f ++ ',' :: commaJoin (g :: (fs ++ [l]))).getLast? = _
    have hne : commaJoin (g :: (fs ++ [l])) ≠ [] := by
      intro e
      rw [List.cons_append, e] at ih
      exact h (List.getLast?_eq_none_iff.mp ih.symm)
    rw [List.getLast?_append, List.getLast?_cons]
    rw [List.cons_append] at ih
    rw [ih]
    cases hl : l.getLast? with
    | none => exact absurd (List.getLast?_eq_none_iff.mp hl) h
    | some x => simp

private theorem dump_time (tz off : ℚ) (c : DateTime) (hok : c.ok = true) (hus : c.us = 0) (fs : List (List Char)) :
    dumpTime tz off (dumpDate c :: dumpClock c :: fs) = .ok (instantOf tz off c 0) := by
  obtain ⟨f1, f2, f3, f4, f5, f6⟩ := validDate_digits _ hok
  have e1 : splitAtSep (· = '-') (dumpDate c) = [padDigits 4 c.year, padDigits 2 c.month, padDigits 2 c.day] :=
    split_three _ _ _ _ (digits_notMem _ (by decide) _ _) (digits_notMem _ (by decide) _ _) (digits_notMem _ (by decide) _ _)
  have e2 : splitAtSep (· = ':') (dumpClock c) = [padDigits 2 c.hour, padDigits 2 c.minute, padDigits 2 c.second] :=
    split_three _ _ _ _ (digits_notMem _ (by decide) _ _) (digits_notMem _ (by decide) _ _) (digits_notMem _ (by decide) _ _)
  have hcc : (⟨c.year, c.month, c.day, c.hour, c.minute, c.second, 0⟩ : DateTime) = c := by
    obtain ⟨y, mo, d, hh, mi, s, us⟩ := c
    simp only at hus; subst hus; rfl
  unfold dumpTime
  simp only [get0, get1, get2, e1, e2, bind, Except.bind, pyInt_padDigits 4 _ (by norm_num) f1, pyInt_padDigits 2 _ (by norm_num) f2,
    pyInt_padDigits 2 _ (by norm_num) f3, pyInt_padDigits 2 _ (by norm_num) f4, pyInt_padDigits 2 _ (by norm_num) f5,
    pyInt_padDigits 2 _ (by norm_num) f6, hcc, dateTimeToEpoch, hok, if_true, instantOf]
  congr 1
  push_cast
  ring

private theorem dump_angle {K : Type} [Field K] (toFloat : List Char → Res K) (a : DumpAngle K) (h : a.Valid toFloat) (pos : String) :
    dumpAngle toFloat pos a.line = .ok (usblDumpDegMin a.deg a.minutes pos (String.ofList a.hemi)) := by
  obtain ⟨hw, hd, hf, ht, hh⟩ := h
  have e1 : splitAtSep (· = ' ') a.line = [padDigits a.w a.deg ++ '-' :: a.text, a.hemi] := by
    have : a.line = (padDigits a.w a.deg ++ '-' :: a.text) ++ ' ' :: a.hemi := by simp [DumpAngle.line]
    rw [this]
    refine split_two _ _ _ ?_ fun hc => (hh _ hc).2 rfl
    simp only [List.mem_append, List.mem_cons, digits_notMem ' ' (by decide), false_or]
    rintro (h | h)
    · exact absurd h (by decide)
    · exact (ht _ h).2.1 rfl
  have e2 : splitAtSep (· = '-') (padDigits a.w a.deg ++ '-' :: a.text) = [padDigits a.w a.deg, a.text] :=
    split_two _ _ _ (digits_notMem _ (by decide) _ _) fun hc => (ht _ hc).2.2 rfl
  unfold dumpAngle
  simp only [e1, get0, get1, e2, bind, Except.bind, pyInt_padDigits a.w _ hw hd, hf]

private theorem dump_num {K : Type} (toFloat : List Char → Res K) (a : DumpNum K) (h : a.Valid toFloat) :
    dumpValue toFloat a.line = .ok a.value := by
  obtain ⟨hf, -, hn, ht⟩ := h
  have : splitAtSep (· = '=') a.line = [a.name, a.text] := split_two _ _ _ (fun hc => (hn _ hc).2 rfl) fun hc => (ht _ hc).2.1 rfl
  simp only [dumpValue, this, get1, bind, Except.bind, hf]

private theorem comma_angle {K : Type} (toFloat : List Char → Res K) (a : DumpAngle K) (h : a.Valid toFloat) : ',' ∉ a.line := by
  obtain ⟨-, -, -, ht, hh⟩ := h
  simp only [DumpAngle.line, List.mem_append, List.mem_cons, digits_notMem ',' (by decide), false_or]
  rintro (h | h | h | h)
  · exact absurd h (by decide)
  · exact (ht _ h).1 rfl
  · exact absurd h (by decide)
  · exact (hh _ h).1 rfl

private theorem comma_num {K : Type} (toFloat : List Char → Res K) (a : DumpNum K) (h : a.Valid toFloat) : ',' ∉ a.line := by
  obtain ⟨-, -, hn, ht⟩ := h
  simp only [DumpNum.line, List.mem_append, List.mem_cons]
  rintro (h | h | h)
  · exact (hn _ h).1 rfl
  · exact absurd h (by decide)
  · exact (ht _ h).1 rfl

private theorem comma_date (c : DateTime) : ',' ∉ dumpDate c := by
  simp only [dumpDate, List.mem_append, List.mem_cons, digits_notMem ',' (by decide), false_or, or_false]; decide

private theorem comma_clock (c : DateTime) : ',' ∉ dumpClock c := by
  simp only [dumpClock, List.mem_append, List.mem_cons, digits_notMem ',' (by decide), false_or, or_false]; decide

private theorem row_fields {K : Type} (toFloat : List Char → Res K) (r : DumpRow K) (h : r.Valid toFloat) :
    splitAtSep (· = ',') (stripBlanks (commaJoin r.fields ++ ['\n'])) = r.fields := by
  obtain ⟨-, -, ⟨c1, c2, c3, c4⟩, va, vo, v1, v2, v3, v4⟩ := h
  have hlast : (commaJoin r.fields).getLast? = r.distance.line.getLast? :=
    join_last [dumpDate r.at_, dumpClock r.at_, r.label, r.g3, r.g4, r.g5, r.latitude.line, r.longitude.line, r.depth.line, r.lateral.line,
      r.bearing.line] r.distance.line (by simp [DumpNum.line])
  have hl2 : ∀ c ∈ (commaJoin r.fields).getLast?, isBlank c = false := by
    rw [hlast, DumpNum.line, List.getLast?_append, List.getLast?_cons]
    intro c hc
    obtain ⟨x, xs, hx⟩ := List.exists_cons_of_ne_nil v4.2.1
    cases hl : r.distance.text.getLast? with
    | none => exact absurd (List.getLast?_eq_none_iff.mp hl) v4.2.1
    | some y =>
      rw [hl] at hc
      simp only [Option.getD_some, Option.some_or, Option.mem_def, Option.some.injEq] at hc
      subst hc
      exact (v4.2.2.2 _ (List.mem_of_mem_getLast? hl)).2.2
  have hfirst : ∃ x xs, commaJoin r.fields = x :: xs ∧ isBlank x = false := by
    obtain ⟨x, xs, hx⟩ : ∃ x xs, padDigits 4 r.at_.year = x :: xs := by
      have := padDigits_length 4 r.at_.year
      cases hp : padDigits 4 r.at_.year with
      | nil => rw [hp] at this; simp at this
      | cons x xs => exact ⟨x, xs, rfl⟩
    have hb := isBlank_digit x (List.all_eq_true.mp (padDigits_all 4 r.at_.year) x (by rw [hx]; simp))
    rw [DumpRow.fields, commaJoin, dumpDate, hx]
    exact ⟨x, _, rfl, hb⟩
  obtain ⟨x, xs, hx, hb⟩ := hfirst
  rw [stripBlanks_line _ (by rw [hx]; simp) (by rw [hx]; intro c hc; simp at hc; subst hc; exact hb) hl2]
  refine split_join _ (by simp [DumpRow.fields]) ?_
  intro f hf
  simp only [DumpRow.fields, List.mem_cons, List.not_mem_nil, or_false] at hf
  rcases hf with rfl | rfl | rfl | rfl | rfl | rfl | rfl | rfl | rfl | rfl | rfl | rfl
  · exact comma_date _
  · exact comma_clock _
  · exact c1
  · exact c2
  · exact c3
  · exact c4
  · exact comma_angle toFloat _ va
  · exact comma_angle toFloat _ vo
  · exact comma_num toFloat _ v1
  · exact comma_num toFloat _ v2
  · exact comma_num toFloat _ v3
  · exact comma_num toFloat _ v4

private theorem getN {α : Type} (l : List α) (i : ℕ) (a : α) (h : l[i]? = some a) : pyGet l (i : ℤ) = .ok a := pyGet_of_getElem? l i a h

private theorem row_line {K : Type} [Field K] (toFloat : List Char → Res K) (tz off : ℚ) (r : DumpRow K) (h : r.Valid toFloat) :
    dumpLine toFloat (.text r.label) tz off (commaJoin r.fields ++ ['\n']) = .ok (some ⟨instantOf tz off r.at_ 0,
      usblDumpDegMin r.latitude.deg r.latitude.minutes "N" (String.ofList r.latitude.hemi),
      usblDumpDegMin r.longitude.deg r.longitude.minutes "E" (String.ofList r.longitude.hemi), r.depth.value, r.distance.value, r.lateral.value,
      r.bearing.value⟩) := by
  have hf := row_fields toFloat r h
  obtain ⟨hok, hus, -, va, vo, v1, v2, v3, v4⟩ := h
  have ht := dump_time tz off r.at_ hok hus [r.label, r.g3, r.g4, r.g5, r.latitude.line, r.longitude.line, r.depth.line, r.lateral.line,
    r.bearing.line, r.distance.line]
  have hne : r.latitude.line ≠ [] := by simp [DumpAngle.line]
  have g2 : pyGet r.fields 2 = .ok r.label := getN _ 2 _ rfl
  have g6 : pyGet r.fields 6 = .ok r.latitude.line := getN _ 6 _ rfl
  have g7 : pyGet r.fields 7 = .ok r.longitude.line := getN _ 7 _ rfl
  have g8 : pyGet r.fields 8 = .ok r.depth.line := getN _ 8 _ rfl
  have g9 : pyGet r.fields 9 = .ok r.lateral.line := getN _ 9 _ rfl
  have g10 : pyGet r.fields 10 = .ok r.bearing.line := getN _ 10 _ rfl
  have g11 : pyGet r.fields 11 = .ok r.distance.line := getN _ 11 _ rfl
  have ht' : dumpTime tz off r.fields = .ok (instantOf tz off r.at_ 0) := ht
  simp only [dumpLine, hf, g2, ht', dumpFix, g6, hne, g7, g8, g9, g10, g11, dump_angle toFloat _ va, dump_angle toFloat _ vo, dump_num toFloat _ v1,
    dump_num toFloat _ v2, dump_num toFloat _ v3, dump_num toFloat _ v4, bind, Except.bind, if_true, if_false]

/-- C193 (partial): every line of the beacon with a position gives one fix, in the order of the file, with the time, the position, the depth,
the distances and the bearing it states; lines of other beacons and lines without a position give none. Missing: southern and western
positions with minutes, see `C193_south_false`; blank lines, see `C193_blank_line_false`; labels that YAML reads as numbers, see
`C193_numeric_label_false`. -/
theorem C193_fixes_partial {K : Type} [Field K] (toFloat : List Char → Res K) (label : List Char) (tz off : ℚ) (lines : List (List Char))
    (rs : List (Option (DumpRow K))) (h : List.Forall₂ (DumpKind toFloat label) lines rs)
    (hpos : ∀ r ∈ rs.reduceOption, (r.latitude.hemi = ['N'] ∨ r.latitude.minutes = 0) ∧ (r.longitude.hemi = ['E'] ∨ r.longitude.minutes = 0)) :
    parseDump toFloat (.text label) tz off lines = .ok (rs.reduceOption.map (DumpRow.fix tz off)) := by
  have hdeg : ∀ (a : DumpAngle K) (p : Char), (a.hemi = [p] ∨ a.minutes = 0) →
      usblDumpDegMin a.deg a.minutes (String.ofList [p]) (String.ofList a.hemi) = a.degrees [p] := by
    intro a p hp
    unfold usblDumpDegMin DumpAngle.degrees
    by_cases he : a.hemi = [p]
    · simp [he]
    · have hne : String.ofList a.hemi ≠ String.ofList [p] := fun e => he (String.ofList_injective e)
      rw [if_pos hne, if_neg he, hp.resolve_left he]
      simp
  induction h with
  | nil => rfl
  | @cons line r lines rs h1 _ ih =>
    have hl : dumpLine toFloat (.text label) tz off line = .ok (r.map (DumpRow.fix tz off)) := by
      cases h1 with
      | other fs l e hc h2 hne =>
        have hfs : fs ≠ [] := by rintro rfl; simp at h2
        have g2 : pyGet fs 2 = .ok l := getN fs 2 l h2
        have hn : ¬ BeaconLabel.text l = .text label := by simpa using hne
        simp only [dumpLine, e, split_join fs hfs hc, g2, bind, Except.bind, hn, if_false, Option.map_none]
      | lost c fs hok hus e hc h3 =>
        have hc' : ∀ f ∈ dumpDate c :: dumpClock c :: label :: fs, ',' ∉ f := by
          intro f hf
          rcases List.mem_cons.mp hf with rfl | hf
          · exact comma_date c
          · rcases List.mem_cons.mp hf with rfl | hf
            · exact comma_clock c
            · exact hc f hf
        have g6 : pyGet (dumpDate c :: dumpClock c :: label :: fs) 6 = .ok [] := getN _ 6 _ (by simpa using h3)
        simp only [dumpLine, e, split_join _ (List.cons_ne_nil _ _) hc', get2, bind, Except.bind, if_true, dump_time tz off c hok hus, dumpFix, g6,
          Option.map_none]
      | fix r hv hlab e =>
        obtain ⟨p1, p2⟩ := hpos r (by simp [List.reduceOption])
        subst e hlab
        rw [row_line toFloat tz off r hv]
        have e1 := hdeg r.latitude 'N' p1
        have e2 := hdeg r.longitude 'E' p2
        simp only [Option.map_some, DumpRow.fix, ← e1, ← e2]
    have ih' := ih fun x hx => hpos x (by
      cases r with
      | none => exact hx
      | some y => exact List.mem_cons_of_mem _ hx)
    simp only [parseDump, hl, ih', bind, Except.bind]
    cases r <;> rfl

/-- The row of the examples: 34-30.0 `h`, 012-15.0 E, depth 10, lateral 3, bearing 90, distance 11. -/
private def rowOf (h : List Char) : DumpRow ℚ :=
  ⟨⟨2019, 9, 6, 10, 20, 30, 0⟩, ['2'], [], [], [], ⟨2, 34, ['a'], 30, h⟩, ⟨3, 12, ['b'], 15, ['E']⟩, ⟨['D', 'e', 'p'], ['c'], 10⟩, ⟨['L'], ['d'], 3⟩,
    ⟨['B'], ['e'], 90⟩, ⟨['R'], ['f'], 11⟩⟩

private def rowFloat : List Char → Res ℚ
  | ['a'] => .ok 30
  | ['b'] => .ok 15
  | ['c'] => .ok 10
  | ['d'] => .ok 3
  | ['e'] => .ok 90
  | ['f'] => .ok 11
  | _ => .error .valueError

private theorem rowOf_valid (h : Char) (h1 : h = 'N' ∨ h = 'S') : (rowOf [h]).Valid rowFloat := by
  rcases h1 with rfl | rfl <;>
  exact ⟨by decide, rfl, by decide, ⟨by decide, by decide, rfl, by decide, by decide⟩, ⟨by decide, by decide, rfl, by decide, by decide⟩,
    ⟨rfl, by decide, by decide, by decide⟩, ⟨rfl, by decide, by decide, by decide⟩, ⟨rfl, by decide, by decide, by decide⟩,
    ⟨rfl, by decide, by decide, by decide⟩⟩

/-- Non-vacuity: a line of another beacon, a line without position and a fix. -/
example : List.Forall₂ (DumpKind rowFloat ['2']) [['a', ',', 'b', ',', '3'],
    commaJoin [dumpDate ⟨2019, 9, 6, 10, 20, 30, 0⟩, dumpClock ⟨2019, 9, 6, 10, 20, 30, 0⟩, ['2'], [], [], [], [], ['x']],
    commaJoin (rowOf ['N']).fields ++ ['\n']] [none, none, some (rowOf ['N'])] :=
  .cons (.other [['a'], ['b'], ['3']] ['3'] (by decide) (by decide) rfl (by decide))
    (.cons (.lost ⟨2019, 9, 6, 10, 20, 30, 0⟩ [[], [], [], [], ['x']] (by decide) rfl (by decide) (by decide) rfl)
      (.cons (.fix _ (rowOf_valid 'N' (by decide)) rfl rfl) .nil))

/-- Full statement: the position is right in every half of the globe. -/
def DumpPositionsRight : Prop := ∀ (toFloat : List Char → Res ℚ) (tz off : ℚ) (r : DumpRow ℚ), r.Valid toFloat →
  (parseDump toFloat (.text r.label) tz off [commaJoin r.fields ++ ['\n']]) = .ok [r.fix tz off]

/-- C193 is false in the south: 34 degrees 30 minutes South becomes -33.5 degrees, 111 km too far north. -/
theorem C193_south_false : ¬ DumpPositionsRight ∧
    (parseDump rowFloat (.text ['2']) 0 0 [commaJoin (rowOf ['S']).fields ++ ['\n']]).toOption.map (List.map DumpFix.latitude) = some [-67 / 2] := by
  have hv := rowOf_valid 'S' (by decide)
  have hl : parseDump rowFloat (.text ['2']) 0 0 [commaJoin (rowOf ['S']).fields ++ ['\n']] = .ok [⟨instantOf 0 0 (rowOf ['S']).at_ 0,
      usblDumpDegMin 34 30 "N" (String.ofList ['S']), usblDumpDegMin 12 15 "E" (String.ofList ['E']), 10, 11, 3, 90⟩] := by
    have := row_line rowFloat 0 0 (rowOf ['S']) hv
    simp only [parseDump, bind, Except.bind]
    rw [show (BeaconLabel.text ['2']) = .text (rowOf ['S']).label from rfl, this]
    rfl
  have hval : usblDumpDegMin (K := ℚ) 34 30 "N" (String.ofList ['S']) = -67 / 2 := by
    have : String.ofList ['S'] ≠ "N" := by decide
    rw [usblDumpDegMin, if_pos this]
    norm_num
  constructor
  · intro h
    have h1 := h rowFloat 0 0 (rowOf ['S']) hv
    rw [show (BeaconLabel.text (rowOf ['S']).label) = .text ['2'] from rfl, hl] at h1
    have h2 := congrArg DumpFix.latitude (List.cons.inj (Except.ok.inj h1)).1
    have h3 : ((rowOf ['S']).fix 0 0).latitude = -69 / 2 := by
      have hd : ((rowOf ['S']).fix 0 0).latitude = -((34 : ℕ) + 30 / 60 : ℚ) := by
        show DumpAngle.degrees ['N'] (⟨2, 34, ['a'], 30, ['S']⟩ : DumpAngle ℚ) = _
        rw [DumpAngle.degrees, if_neg (by decide)]
      rw [hd]
      show -((34 : ℕ) + 30 / 60 : ℚ) = _
      norm_num
    rw [h3] at h2
    have h4 : usblDumpDegMin (K := ℚ) 34 30 "N" (String.ofList ['S']) = -69 / 2 := h2
    rw [hval] at h4
    norm_num at h4
  · rw [hl]
    show some [usblDumpDegMin (K := ℚ) 34 30 "N" (String.ofList ['S'])] = _
    rw [hval]

/-- C193 is false for a blank line, and for any other with fewer than three fields: no fix of the file is returned. -/
theorem C193_blank_line_false {K : Type} [Field K] (toFloat : List Char → Res K) (label : BeaconLabel) (tz off : ℚ) (pre post : List (List Char))
    (line : List Char) (h : (splitAtSep (· = ',') (stripBlanks line)).length < 3) :
    ∃ e, parseDump toFloat label tz off (pre ++ line :: post) = .error e := by
  induction pre with
  | nil =>
    have : pyGet (splitAtSep (· = ',') (stripBlanks line)) 2 = .error .indexError := by
      unfold pyGet
      have hn : ¬ ((2 : ℤ) < 0) := by omega
      have h2 : (splitAtSep (· = ',') (stripBlanks line))[2]? = none := List.getElem?_eq_none_iff.mpr (by omega)
      rw [if_neg hn]
      simp only [show (2 : ℤ).toNat = 2 from rfl, h2, ite_self]
    exact ⟨.indexError, by simp only [List.nil_append, parseDump, dumpLine, this, bind, Except.bind]⟩
  | cons l pre ih =>
    obtain ⟨e, he⟩ := ih
    rw [List.cons_append, parseDump, he]
    cases dumpLine toFloat label tz off l with
    | error e' => exact ⟨e', rfl⟩
    | ok v => exact ⟨e, rfl⟩

/-- The line break that ends a file is such a line. -/
example : (splitAtSep (· = ',') (stripBlanks ['\n'])).length < 3 := by decide

/-- C193 is false for a label written as a number in mission.yaml (`label: 2`): no line of the file gives a fix. -/
theorem C193_numeric_label_false {K : Type} [Field K] (toFloat : List Char → Res K) (n : ℕ) (tz off : ℚ) (lines : List (List Char))
    (h : ∀ line ∈ lines, 3 ≤ (splitAtSep (· = ',') (stripBlanks line)).length) :
    parseDump toFloat (.num n) tz off lines = .ok [] := by
  induction lines with
  | nil => rfl
  | cons line lines ih =>
    have h3 := h line (by simp)
    have hg := getN (splitAtSep (· = ',') (stripBlanks line)) 2 _ (List.getElem?_eq_getElem (by omega))
    have hl : dumpLine toFloat (.num n) tz off line = .ok none := by
      simp only [Nat.cast_ofNat] at hg
      simp only [dumpLine, hg, bind, Except.bind, reduceCtorEq, if_false]
    simp only [parseDump, hl, ih fun l hl => h l (List.mem_cons_of_mem _ hl), bind, Except.bind]
    rfl

/-- Non-vacuity: a line with three fields. -/
example : 3 ≤ (splitAtSep (· = ',') (stripBlanks ['a', ',', 'b', ',', '2'])).length := by decide

/-- C193: the acfr format has for each fix the position of the target that is at the distance and in the direction of the fix from the
origin, with the depth and the ranges of the log; the ship is always at the origin. -/
theorem C193_acfr (metres : ℝ → ℝ → ℝ × ℝ) (f : DumpFix ℝ) :
    ∃ north east, dumpAcfr metres f = [(f.t : ℝ), 0, 0, north, east, f.depth, f.lateral, f.distance, f.bearing] ∧
      north ^ 2 + east ^ 2 = (metres f.latitude f.longitude).1 ^ 2 ∧
      north * Real.cos ((metres f.latitude f.longitude).2 * Real.pi / 180) + east * Real.sin ((metres f.latitude f.longitude).2 * Real.pi / 180) =
        (metres f.latitude f.longitude).1 := by
  refine ⟨_, _, rfl, ?_, ?_⟩
  · have h := Real.sin_sq_add_cos_sq ((metres f.latitude f.longitude).2 * Real.pi / 180)
    linear_combination (metres f.latitude f.longitude).1 ^ 2 * h
  · have h := Real.sin_sq_add_cos_sq ((metres f.latitude f.longitude).2 * Real.pi / 180)
    linear_combination (metres f.latitude f.longitude).1 * h

end Oplab.Props
