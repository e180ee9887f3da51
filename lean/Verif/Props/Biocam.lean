import Verif.Model.Biocam
import Verif.Spec.Biocam
import Verif.Spec.Lines
import Verif.Lemmas.Digits
import Verif.Props.Parsers

namespace Oplab.Props
open Oplab Oplab.Spec

/-! ## Texts -/

private theorem bsplit_ne (sep : Char → Bool) : ∀ l, splitAtSep sep l ≠ []
  | [] => by simp [splitAtSep]
  | c :: cs => by
    rw [splitAtSep]; split <;> simp

private theorem bsplit_append (sep : Char → Bool) (c : Char) (hc : sep c = true) (rest : List Char) :
    ∀ f, splitAtSep sep (f ++ c :: rest) = splitAtSep sep f ++ splitAtSep sep rest
  | [] => by simp [splitAtSep, hc]
  | d :: f => by
    have ih := bsplit_append sep c hc rest f
    rw [List.cons_append, splitAtSep, splitAtSep, ih]
    by_cases h : sep d = true
    · rw [if_pos h, if_pos h]; rfl
    · rw [if_neg h, if_neg h]
      obtain ⟨a, as, e⟩ := List.exists_cons_of_ne_nil (bsplit_ne sep f)
      rw [e]; rfl

private theorem bsplit_none (sep : Char → Bool) : ∀ f, (∀ c ∈ f, sep c = false) → splitAtSep sep f = [f]
  | [], _ => rfl
  | d :: f, h => by
    have ih := bsplit_none sep f fun c hc => h c (List.mem_cons_of_mem _ hc)
    have hd : ¬ sep d = true := by rw [h d (by simp)]; simp
    rw [splitAtSep, if_neg hd, ih]; rfl

private theorem digits_no (s : List Char) (h : s.all Char.isDigit = true) : ∀ c ∈ s, (decide (c = '_')) = false := by
  intro c hc
  have := List.all_eq_true.mp h c hc
  rw [decide_eq_false_iff_not]
  rintro rfl
  exact absurd this (by decide)

private theorem all_app (a b : List Char) (ha : a.all Char.isDigit = true) (hb : b.all Char.isDigit = true) :
    (a ++ b).all Char.isDigit = true := by
  rw [List.all_append, ha, hb]; rfl

private theorem moment_split (m : Moment) : splitAtSep (· = '_') m.text
    = [padDigits 4 m.at_.year ++ padDigits 2 m.at_.month ++ padDigits 2 m.at_.day,
       padDigits 2 m.at_.hour ++ padDigits 2 m.at_.minute ++ padDigits 2 m.at_.second, padDigits m.w m.n] := by
  unfold Moment.text
  rw [bsplit_append _ '_' (by decide), bsplit_append _ '_' (by decide), bsplit_none, bsplit_none, bsplit_none]
  · rfl
  · exact digits_no _ (padDigits_all _ _)
  · exact digits_no _ (all_app _ _ (all_app _ _ (padDigits_all _ _) (padDigits_all _ _)) (padDigits_all _ _))
  · exact digits_no _ (all_app _ _ (all_app _ _ (padDigits_all _ _) (padDigits_all _ _)) (padDigits_all _ _))

private theorem bslice_mid (pre mid post : List Char) (a b : Nat) (ha : pre.length = a) (hb : a + mid.length = b) :
    slice (pre ++ (mid ++ post)) a b = mid := by
  subst ha hb
  rw [slice, ← List.append_assoc, List.take_left' (by simp), List.drop_left]

private theorem b_ok_facts (c : DateTime) (h : c.ok = true) : c.year < 10000 ∧ c.month < 100 ∧ c.day < 100 ∧ c.hour < 100 ∧ c.minute < 100
    ∧ c.second < 100 := by
  simp only [DateTime.ok, decide_eq_true_eq] at h
  obtain ⟨-, h2, -, h4, -, h6, h7, h8, h9, -⟩ := h
  have : daysInMonth c.year c.month ≤ 31 := by
    unfold daysInMonth; split <;> (try split) <;> omega
  omega

private theorem slice3 (x y z wx wy wz : ℕ) :
    slice (padDigits wx x ++ padDigits wy y ++ padDigits wz z) 0 wx = padDigits wx x ∧
    slice (padDigits wx x ++ padDigits wy y ++ padDigits wz z) wx (wx + wy) = padDigits wy y ∧
    slice (padDigits wx x ++ padDigits wy y ++ padDigits wz z) (wx + wy) (wx + wy + wz) = padDigits wz z := by
  refine ⟨?_, ?_, ?_⟩
  · have := bslice_mid [] (padDigits wx x) (padDigits wy y ++ padDigits wz z) 0 wx rfl (by simp [padDigits_length])
    simpa using this
  · have := bslice_mid (padDigits wx x) (padDigits wy y) (padDigits wz z) wx (wx + wy) (by simp [padDigits_length]) (by simp [padDigits_length])
    simpa using this
  · have := bslice_mid (padDigits wx x ++ padDigits wy y) (padDigits wz z) [] (wx + wy) (wx + wy + wz) (by simp [padDigits_length]) (by simp [padDigits_length])
    simpa using this

private theorem frac_slice (w n : ℕ) : slice (padDigits w n) 0 w = padDigits w n := by
  have := bslice_mid [] (padDigits w n) [] 0 w rfl (by simp [padDigits_length])
  simpa using this

private theorem time_gen (c : DateTime) (hok : c.ok = true) (hus : c.us = 0) (frac : List Char) (u : Option ℕ)
    (hf : biocamFraction frac = .ok u) (tz off : ℚ) :
    biocamTime (padDigits 4 c.year ++ padDigits 2 c.month ++ padDigits 2 c.day)
      (padDigits 2 c.hour ++ padDigits 2 c.minute ++ padDigits 2 c.second) frac tz off
      = if c.year < 2000 then .ok 0 else
        u.elim (.error .unboundLocal) fun u => .ok (c.seconds - tz * 3600 + (u : ℚ) / 1000000 + off) := by
  obtain ⟨y, mo, d, hh, mi, s, us⟩ := c
  simp only at hok hus
  subst hus
  obtain ⟨f1, f2, f3, f4, f5, f6⟩ := b_ok_facts _ hok
  simp only at f1 f2 f3 f4 f5 f6
  obtain ⟨a1, a2, a3⟩ := slice3 y mo d 4 2 2
  obtain ⟨b1, b2, b3⟩ := slice3 hh mi s 2 2 2
  simp only [Nat.reduceAdd] at a2 a3 b2 b3
  unfold biocamTime
  simp only [a1, a2, a3, b1, b2, b3, hf, pyInt_padDigits 4 _ (by norm_num) f1, pyInt_padDigits 2 _ (by norm_num) f2,
    pyInt_padDigits 2 _ (by norm_num) f3, pyInt_padDigits 2 _ (by norm_num) f4, pyInt_padDigits 2 _ (by norm_num) f5,
    pyInt_padDigits 2 _ (by norm_num) f6, bind, Except.bind, dateTimeToEpoch, hok, if_true, Nat.cast_zero, zero_div, add_zero]
  cases u <;> rfl

private theorem time_of (m : Moment) (h : m.Valid) (tz off : ℚ) :
    biocamTime (padDigits 4 m.at_.year ++ padDigits 2 m.at_.month ++ padDigits 2 m.at_.day)
      (padDigits 2 m.at_.hour ++ padDigits 2 m.at_.minute ++ padDigits 2 m.at_.second) (padDigits m.w m.n) tz off
      = .ok (if m.at_.year < 2000 then 0 else m.utc tz off) := by
  obtain ⟨c, w, n⟩ := m
  obtain ⟨hok, hus, hw, hn⟩ := h
  simp only at hok hus hw hn
  have hfrac : biocamFraction (padDigits w n) = .ok (some (if w = 6 then n else n * 1000)) := by
    unfold biocamFraction
    rw [padDigits_length]
    rcases hw with rfl | rfl
    · rw [if_neg (by norm_num), if_pos rfl, frac_slice, pyInt_padDigits _ _ (by norm_num) hn, if_neg (by norm_num)]
      rfl
    · rw [if_pos rfl, frac_slice, pyInt_padDigits _ _ (by norm_num) hn, if_pos rfl]
      rfl
  simp only
  rw [time_gen c hok hus _ _ hfrac]
  by_cases hy : c.year < 2000
  · rw [if_pos hy, if_pos hy]
  · rw [if_neg hy, if_neg hy]
    simp only [Option.elim_some, Except.ok.injEq, Moment.utc]
    rcases hw with rfl | rfl
    · rw [if_neg (by norm_num)]; push_cast; ring
    · rw [if_pos rfl]; ring

private theorem strip_id (s : List Char) (h1 : ∀ c ∈ s.head?, isBlank c = false) (h2 : ∀ c ∈ s.getLast?, isBlank c = false) :
    stripBlanks s = s := by
  have e1 : s.dropWhile isBlank = s := by
    cases s with
    | nil => rfl
    | cons c s => rw [List.dropWhile_cons_of_neg]; simpa using h1 c (by simp)
  unfold stripBlanks
  rw [e1]
  have e2 : s.reverse.dropWhile isBlank = s.reverse := by
    rw [← List.head?_reverse] at h2
    cases hr : s.reverse with
    | nil => rfl
    | cons c l => rw [List.dropWhile_cons_of_neg]; simpa using h2 c (by simp [hr])
  rw [e2, List.reverse_reverse]

private theorem text_head (m : Moment) (more : List Char) : ∀ c ∈ (m.text ++ more).head?, isBlank c = false := by
  intro c hc
  have hl := padDigits_length 4 m.at_.year
  have ha := padDigits_all 4 m.at_.year
  unfold Moment.text at hc
  cases hd : padDigits 4 m.at_.year with
  | nil => rw [hd] at hl; simp at hl
  | cons d ds =>
    rw [hd] at hc ha
    simp at hc ha
    subst hc
    unfold isBlank
    rw [decide_eq_false_iff_not]
    rintro (rfl | rfl | rfl | rfl) <;> exact absurd ha.1 (by decide)

private theorem bpyGet_nat {α : Type} (l : List α) (i : Nat) (a : α) (h : l[i]? = some a) : pyGet l (i : Int) = .ok a := by
  unfold pyGet
  have : ¬ ((i : Int) < 0) := by omega
  simp only [this, if_false, Int.toNat_natCast, h]

/-! ## C185 -/

/-- C185: the times of an image are those of its name, that of the computer and that of the camera, each a time or, before the year
2000, zero. -/
theorem C185_times_partial (pc cam : Moment) (hp : pc.Valid) (hc : cam.Valid) (rest : List Char)
    (hr : ∀ c ∈ rest.getLast?, isBlank c = false) (hne : rest ≠ []) (tz off : ℚ) :
    biocamStamp (bioName pc cam rest) tz off
      = .ok (if pc.at_.year < 2000 then 0 else pc.utc tz off, if cam.at_.year < 2000 then 0 else cam.utc tz off) := by
  have hs : stripBlanks (bioName pc cam rest) = bioName pc cam rest := by
    apply strip_id
    · exact text_head pc _
    · intro c hc
      apply hr c
      unfold bioName at hc
      have : pc.text ++ '_' :: (cam.text ++ '_' :: rest) = (pc.text ++ '_' :: (cam.text ++ ['_'])) ++ rest := by simp
      rw [this, List.getLast?_append_of_ne_nil _ hne] at hc
      exact hc
  have hparts : splitAtSep (· = '_') (bioName pc cam rest)
      = splitAtSep (· = '_') pc.text ++ (splitAtSep (· = '_') cam.text ++ splitAtSep (· = '_') rest) := by
    unfold bioName
    rw [bsplit_append _ '_' (by decide), bsplit_append _ '_' (by decide)]
  rw [moment_split, moment_split] at hparts
  have hlen : 1 ≤ (splitAtSep (· = '_') rest).length := by
    have := bsplit_ne (· = '_') rest
    exact List.length_pos_iff.mpr this
  unfold biocamStamp
  rw [hs, hparts]
  simp only [List.cons_append, List.nil_append, List.length_cons, bind, Except.bind]
  rw [if_pos (by omega)]
  rw [show (0 : Int) = ((0 : ℕ) : Int) from rfl, bpyGet_nat _ 0 _ rfl, show (1 : Int) = ((1 : ℕ) : Int) from rfl, bpyGet_nat _ 1 _ rfl,
    show (2 : Int) = ((2 : ℕ) : Int) from rfl, bpyGet_nat _ 2 _ rfl, show (3 : Int) = ((3 : ℕ) : Int) from rfl, bpyGet_nat _ 3 _ rfl,
    show (4 : Int) = ((4 : ℕ) : Int) from rfl, bpyGet_nat _ 4 _ rfl, show (5 : Int) = ((5 : ℕ) : Int) from rfl, bpyGet_nat _ 5 _ rfl]
  simp only [time_of pc hp, time_of cam hc]

/-- Full statement: the times of an image are those of its name. -/
def BioTimes : Prop := ∀ (pc cam : Moment) (rest : List Char) (tz off : ℚ), pc.Valid → cam.Valid → rest ≠ [] →
  (∀ c ∈ rest.getLast?, isBlank c = false) →
  biocamStamp (bioName pc cam rest) tz off = .ok (pc.utc tz off, cam.utc tz off)

/-- C185 (partial): true from the year 2000 on. Missing: earlier times, which a camera without a set clock writes. -/
theorem C185_recent_partial (pc cam : Moment) (hp : pc.Valid) (hc : cam.Valid) (rest : List Char)
    (hr : ∀ c ∈ rest.getLast?, isBlank c = false) (hne : rest ≠ []) (tz off : ℚ) (h1 : 2000 ≤ pc.at_.year) (h2 : 2000 ≤ cam.at_.year) :
    biocamStamp (bioName pc cam rest) tz off = .ok (pc.utc tz off, cam.utc tz off) := by
  rw [C185_times_partial pc cam hp hc rest hr hne, if_neg (by omega), if_neg (by omega)]

/-- C185 is false: every image of a camera whose clock starts in 1970 has the camera time 0. -/
theorem C185_clock_not_set_false : ¬ BioTimes := by
  intro h
  have hp : (⟨⟨2020, 1, 2, 3, 4, 5, 0⟩, 6, 7⟩ : Moment).Valid := ⟨by decide, rfl, Or.inr rfl, by norm_num⟩
  have hc : (⟨⟨1970, 1, 1, 0, 4, 5, 0⟩, 6, 7⟩ : Moment).Valid := ⟨by decide, rfl, Or.inr rfl, by norm_num⟩
  have h1 := h _ _ ['a', '.', 't', 'i', 'f'] 0 0 hp hc (by simp) (by decide)
  rw [C185_times_partial _ _ hp hc _ (by decide) (by simp)] at h1
  simp only [Except.ok.injEq, Prod.mk.injEq] at h1
  have h2 := h1.2
  rw [if_pos (by norm_num)] at h2
  have e : (⟨1970, 1, 1, 0, 4, 5, 0⟩ : DateTime).seconds = 245 := by decide
  simp only [Moment.utc, e] at h2
  norm_num at h2

/-- Full statement for the older names with one time. -/
def OldBioTimes : Prop := ∀ (word : List Char) (m : Moment) (ending : List Char) (tz off : ℚ), '_' ∉ word → m.Valid →
  2000 ≤ m.at_.year → ending = ['.', 't', 'i', 'f'] ∨ ending = ['.', 'j', 'p', 'g'] →
  biocamStamp (oldBioName word m ending) tz off = .ok (m.utc tz off, m.utc tz off)

/-- C185: no older name gives a time: the ending of the file is taken as a part of the fraction of the second. -/
theorem C185_old_names_stop (word : List Char) (m : Moment) (ending : List Char) (tz off : ℚ) (hw : '_' ∉ word)
    (hb : ∀ c ∈ word.head?, isBlank c = false) (hm : m.Valid)
    (hy : 2000 ≤ m.at_.year) (he : ending = ['.', 't', 'i', 'f'] ∨ ending = ['.', 'j', 'p', 'g']) :
    biocamStamp (oldBioName word m ending) tz off = .error .unboundLocal := by
  have hel : ending.length = 4 := by rcases he with rfl | rfl <;> rfl
  have heu : ∀ c ∈ ending, decide (c = '_') = false := by rcases he with rfl | rfl <;> decide
  have hs : stripBlanks (oldBioName word m ending) = oldBioName word m ending := by
    apply strip_id
    · unfold oldBioName
      cases word with
      | nil => intro c hc; simp at hc; subst hc; decide
      | cons d w => intro c hc; exact hb c (by simpa using hc)
    · intro c hc
      unfold oldBioName at hc
      have : word ++ '_' :: (m.text ++ ending) = (word ++ '_' :: m.text) ++ ending := by simp
      rw [this, List.getLast?_append_of_ne_nil _ (by intro h; rw [h] at hel; simp at hel)] at hc
      rcases he with rfl | rfl <;> (simp at hc; subst hc; decide)
  have hparts : splitAtSep (· = '_') (oldBioName word m ending)
      = [word, padDigits 4 m.at_.year ++ padDigits 2 m.at_.month ++ padDigits 2 m.at_.day,
       padDigits 2 m.at_.hour ++ padDigits 2 m.at_.minute ++ padDigits 2 m.at_.second, padDigits m.w m.n ++ ending] := by
    unfold oldBioName Moment.text
    simp only [List.append_assoc, List.cons_append]
    rw [bsplit_append _ '_' (by decide)]
    rw [← List.append_assoc, ← List.append_assoc (padDigits 2 m.at_.hour)]
    rw [← List.append_assoc (padDigits 4 m.at_.year ++ padDigits 2 m.at_.month)]
    rw [← List.append_assoc (padDigits 2 m.at_.hour ++ padDigits 2 m.at_.minute)]
    rw [bsplit_append _ '_' (by decide), bsplit_append _ '_' (by decide), bsplit_none, bsplit_none, bsplit_none, bsplit_none]
    · rfl
    · intro c hc
      rcases List.mem_append.mp hc with h | h
      · exact digits_no _ (padDigits_all _ _) c h
      · exact heu c h
    · exact digits_no _ (all_app _ _ (all_app _ _ (padDigits_all _ _) (padDigits_all _ _)) (padDigits_all _ _))
    · exact digits_no _ (all_app _ _ (all_app _ _ (padDigits_all _ _) (padDigits_all _ _)) (padDigits_all _ _))
    · intro c hc
      rw [decide_eq_false_iff_not]; rintro rfl; exact hw hc
  have hfrac : biocamFraction (padDigits m.w m.n ++ ending) = .ok none := by
    unfold biocamFraction
    rw [List.length_append, padDigits_length, hel]
    have := hm.2.2.1
    rw [if_neg (by omega), if_neg (by omega)]
  unfold biocamStamp
  rw [hs, hparts]
  simp only [List.length_cons, List.length_nil, bind, Except.bind]
  rw [if_neg (by omega)]
  rw [show (1 : Int) = ((1 : ℕ) : Int) from rfl, bpyGet_nat _ 1 _ rfl,
    show (2 : Int) = ((2 : ℕ) : Int) from rfl, bpyGet_nat _ 2 _ rfl, show (3 : Int) = ((3 : ℕ) : Int) from rfl, bpyGet_nat _ 3 _ rfl]
  simp only [time_gen m.at_ hm.1 hm.2.1 _ _ hfrac]
  rw [if_neg (by omega)]
  rfl

/-- C185 is false for the older names. -/
theorem C185_old_names_false : ¬ OldBioTimes := by
  intro h
  have hm : (⟨⟨2020, 1, 2, 3, 4, 5, 0⟩, 3, 7⟩ : Moment).Valid := ⟨by decide, rfl, Or.inl rfl, by norm_num⟩
  have h1 := h ['a'] _ ['.', 't', 'i', 'f'] 0 0 (by decide) hm (by norm_num) (Or.inl rfl)
  rw [C185_old_names_stop ['a'] _ _ 0 0 (by decide) (by decide) hm (by norm_num) (Or.inl rfl)] at h1
  cases h1

/-- Times with six and three decimals: the hypotheses hold. -/
example : biocamStamp (bioName ⟨⟨2019, 9, 12, 10, 30, 15, 0⟩, 6, 123456⟩ ⟨⟨2019, 9, 12, 10, 30, 14, 0⟩, 3, 120⟩ "pcoc.tif".toList) 1 (1 / 2)
    = .ok (1568284215 - 3600 + 123456 / 1000000 + 1 / 2, 1568284214 - 3600 + 12 / 100 + 1 / 2) := by
  have e1 : (⟨2019, 9, 12, 10, 30, 15, 0⟩ : DateTime).seconds = 1568284215 := by decide
  have e2 : (⟨2019, 9, 12, 10, 30, 14, 0⟩ : DateTime).seconds = 1568284214 := by decide
  rw [C185_recent_partial _ _ ⟨by decide, rfl, Or.inr rfl, by norm_num⟩ ⟨by decide, rfl, Or.inl rfl, by norm_num⟩ _ (by decide) (by decide)
    _ _ (by norm_num) (by norm_num)]
  simp only [Moment.utc, e1, e2]
  norm_num

/-! ## C186 -/

/-- The lists hold files with the endings that are searched for (`glob` patterns). -/
structure Listed (f : BioFiles) : Prop where
  tif : ∀ p ∈ f.strobe1 ++ f.calib1 ++ f.strobe2 ++ f.calib2, ['.', 't', 'i', 'f'] <:+ p
  jpg : ∀ p ∈ f.laser1 ++ f.laser2, ['.', 'j', 'p', 'g'] <:+ p

/-- Nothing else in the paths looks like an ending: no ".txt" or "._" anywhere, no ".jpg" in the path of a tif. -/
structure PlainPaths (f : BioFiles) : Prop where
  plain : ∀ p ∈ f.strobe1 ++ f.calib1 ++ f.strobe2 ++ f.calib2 ++ (f.laser1 ++ f.laser2),
    ¬ ['.', 't', 'x', 't'] <:+: p ∧ ¬ ['.', '_'] <:+: p
  tif : ∀ p ∈ f.strobe1 ++ f.calib1 ++ f.strobe2 ++ f.calib2, ¬ ['.', 'j', 'p', 'g'] <:+: p

/-- Every file name has readable times; `t` gives them. -/
def Readable (tz off : ℚ) (f : BioFiles) (t : List Char → ℚ × ℚ) : Prop :=
  ∀ p ∈ f.strobe1 ++ f.calib1 ++ f.strobe2 ++ f.calib2 ++ (f.laser1 ++ f.laser2), biocamStamp (baseName p) tz off = .ok (t p)

/-- The result that is expected: pairs of the images of the two cameras, then every laser image of the second camera, each with its own
file and times. -/
def BioExpected (tz off : ℚ) (f : BioFiles) (t : List Char → ℚ × ℚ) : Prop :=
  ∃ pairs, PairedFiles (fun p => (t p).1) (f.strobe1 ++ f.laser1 ++ f.calib1) (f.strobe2 ++ f.calib2) pairs ∧
    biocamOplab tz off f = .ok (pairs.map (fun p => .image ⟨p.1, (t p.1).1, (t p.1).2⟩ ⟨p.2, (t p.2).1, (t p.2).2⟩)
      ++ f.laser2.map fun p => .laser ⟨p, (t p).1, (t p).2⟩)

private theorem camera1_plain (f : BioFiles) (h : PlainPaths f) : f.camera1 = f.strobe1 ++ f.laser1 ++ f.calib1 := by
  unfold BioFiles.camera1
  rw [List.filter_eq_self]
  intro p hp
  have := h.plain p (by simp only [List.mem_append] at hp ⊢; tauto)
  simp [hasText, txtMark, hiddenMark, this.1, this.2]

private theorem camera2_plain (f : BioFiles) (hl : Listed f) (h : PlainPaths f) : f.camera2 = f.strobe2 ++ f.calib2 := by
  have keep : ∀ l : List (List Char), (∀ p ∈ l, p ∈ f.strobe1 ++ f.calib1 ++ f.strobe2 ++ f.calib2) →
      l.filter (fun p => !hasText txtMark p && !hasText jpgMark p) = l := by
    intro l hsub
    rw [List.filter_eq_self]
    intro p hp
    have h1 := h.plain p (List.mem_append_left _ (hsub p hp))
    have h2 := h.tif p (hsub p hp)
    simp [hasText, txtMark, jpgMark, h1.1, h2]
  unfold BioFiles.camera2
  rw [List.filter_append, List.filter_append, keep f.strobe2 (by intro p hp; simp [hp]), keep f.calib2 (by intro p hp; simp [hp])]
  have : f.laser2.filter (fun p => !hasText txtMark p && !hasText jpgMark p) = [] := by
    rw [List.filter_eq_nil_iff]
    intro p hp
    have := (hl.jpg p (by simp [hp])).isInfix
    simp [hasText, jpgMark, this]
  rw [this, List.append_nil]

private theorem camera3_plain (f : BioFiles) (hl : Listed f) (h : PlainPaths f) : f.camera3 = f.laser2 := by
  have drop : ∀ l : List (List Char), (∀ p ∈ l, p ∈ f.strobe1 ++ f.calib1 ++ f.strobe2 ++ f.calib2) →
      l.filter (fun p => hasText jpgMark p) = [] := by
    intro l hsub
    rw [List.filter_eq_nil_iff]
    intro p hp
    have h2 := h.tif p (hsub p hp)
    simp [hasText, jpgMark, h2]
  unfold BioFiles.camera3
  rw [List.filter_append, List.filter_append, drop f.strobe2 (by intro p hp; simp [hp]), drop f.calib2 (by intro p hp; simp [hp]),
    List.nil_append, List.append_nil, List.filter_eq_self]
  intro p hp
  have := (hl.jpg p (by simp [hp])).isInfix
  simp [hasText, jpgMark, this]

private theorem shots_of (tz off : ℚ) (t : List Char → ℚ × ℚ) : ∀ l : List (List Char), (∀ p ∈ l, biocamStamp (baseName p) tz off = .ok (t p)) →
    bioShots tz off l = .ok (l.map fun p => ⟨p, (t p).1, (t p).2⟩)
  | [], _ => rfl
  | p :: l, h => by
    have ih := shots_of tz off t l fun q hq => h q (List.mem_cons_of_mem _ hq)
    simp only [bioShots, h p (by simp), ih, bind, Except.bind, List.map_cons]

private theorem pick_sublist {α : Type} : ∀ (L : List α) (k : ℕ) (is : List ℕ), is.Pairwise (· < ·) → (∀ i ∈ is, k ≤ i) →
    (is.filterMap fun i => L[i - k]?).Sublist L
  | [], k, is, _, _ => by simp
  | x :: L, k, is, hp, hk => by
    have shift : ∀ js : List ℕ, (∀ i ∈ js, k + 1 ≤ i) → (js.filterMap fun i => (x :: L)[i - k]?) = js.filterMap fun i => L[i - (k + 1)]? := by
      intro js hj
      apply List.filterMap_congr
      intro i hi
      have := hj i hi
      rw [show i - k = (i - (k + 1)) + 1 by omega, List.getElem?_cons_succ]
    cases is with
    | nil => simp
    | cons i is =>
      rw [List.pairwise_cons] at hp
      by_cases hi : i = k
      · subst hi
        have hlt : ∀ j ∈ is, i + 1 ≤ j := fun j hj => hp.1 j hj
        rw [List.filterMap_cons_some (b := x) (by simp), shift is hlt]
        exact (pick_sublist L _ is hp.2 hlt).cons_cons x
      · have hge : ∀ j ∈ i :: is, k + 1 ≤ j := by
          intro j hj
          have h1 := hk i (by simp)
          rcases List.mem_cons.mp hj with rfl | hj
          · omega
          · have := hp.1 j hj; omega
        rw [shift _ hge]
        exact (pick_sublist L _ (i :: is) (List.pairwise_cons.mpr hp) hge).cons x

private theorem paired (t : List Char → ℚ × ℚ) (L R : List (List Char)) (out : List (ℕ × ℕ))
    (h : GoodPairs (· < (1 / 20 : ℚ)) (L.map fun p => (t p).1) (R.map fun p => (t p).1) out) :
    PairedFiles (fun p => (t p).1) L R (out.filterMap fun ij => match L[ij.1]?, R[ij.2]? with
      | some a, some b => some (a, b)
      | _, _ => none) := by
  have inR : ∀ i j, (i, j) ∈ out → ∃ a b, L[i]? = some a ∧ R[j]? = some b ∧ |(t a).1 - (t b).1| < 1 / 20 ∧
      ∀ q ∈ R, |(t a).1 - (t b).1| ≤ |(t a).1 - (t q).1| := by
    intro i j hij
    obtain ⟨l, r, e1, e2, e3, e4⟩ := h.nearest i j hij
    rw [List.getElem?_map, Option.map_eq_some_iff] at e1 e2
    obtain ⟨a, ha, rfl⟩ := e1
    obtain ⟨b, hb, rfl⟩ := e2
    exact ⟨a, b, ha, hb, e3, fun q hq => e4 _ (List.mem_map.mpr ⟨q, hq, rfl⟩)⟩
  have fsts : ((out.filterMap fun ij => match L[ij.1]?, R[ij.2]? with
      | some a, some b => some (a, b)
      | _, _ => none).map Prod.fst) = (out.map Prod.fst).filterMap fun i => L[i - 0]? := by
    rw [List.map_filterMap, List.filterMap_map]
    apply List.filterMap_congr
    rintro ⟨i, j⟩ hij
    obtain ⟨a, b, ha, hb, -⟩ := inR i j hij
    simp [ha, hb]
  refine ⟨?_, ?_, ?_⟩
  · rw [fsts]
    exact pick_sublist L 0 _ (List.pairwise_map.mpr h.increasing) (by simp)
  · intro p hp
    obtain ⟨⟨i, j⟩, hij, hm⟩ := List.mem_filterMap.mp hp
    obtain ⟨a, b, ha, hb, hn, hall⟩ := inR i j hij
    simp only [ha, hb, Option.some.injEq] at hm
    subst hm
    exact ⟨List.mem_of_getElem? hb, hn, hall⟩
  · intro p hp hq
    obtain ⟨q, hq, hn⟩ := hq
    obtain ⟨i, hi⟩ := List.mem_iff_getElem?.mp hp
    obtain ⟨j, hj⟩ := h.complete i (t p).1 (by rw [List.getElem?_map, hi]; rfl) ⟨_, List.mem_map.mpr ⟨q, hq, rfl⟩, hn⟩
    rw [fsts]
    exact List.mem_filterMap.mpr ⟨i, List.mem_map.mpr ⟨_, hj, rfl⟩, by simpa using hi⟩

private theorem pairs_of (tz off : ℚ) (f : BioFiles) (t : List Char → ℚ × ℚ) (hl : Listed f) (hp : PlainPaths f)
    (hr : Readable tz off f t) (hn : f.strobe2 ++ f.calib2 ≠ [] ∨ f.strobe1 ++ f.laser1 ++ f.calib1 = []) :
    ∃ pairs, PairedFiles (fun p => (t p).1) (f.strobe1 ++ f.laser1 ++ f.calib1) (f.strobe2 ++ f.calib2) pairs ∧
      bioPairs tz off f = .ok (pairs.map fun p => (⟨p.1, (t p.1).1, (t p.1).2⟩, ⟨p.2, (t p.2).1, (t p.2).2⟩)) := by
  have s1 := shots_of tz off t (f.strobe1 ++ f.laser1 ++ f.calib1) (fun p h => hr p (by simp only [List.mem_append] at h ⊢; tauto))
  have s2 := shots_of tz off t (f.strobe2 ++ f.calib2) (fun p h => hr p (by simp only [List.mem_append] at h ⊢; tauto))
  unfold bioPairs
  rw [camera1_plain f hp, camera2_plain f hl hp]
  generalize f.strobe1 ++ f.laser1 ++ f.calib1 = L at *
  generalize f.strobe2 ++ f.calib2 = R at *
  have hout : ∃ out, biocamPairs bioTolerance ((L.map fun p => (t p).1)) ((R.map fun p => (t p).1)) = .ok out := by
    rcases hn with hn | rfl
    · exact (C17_defined_partial bioTolerance _ _ (by simpa using hn)).1
    · exact ⟨[], rfl⟩
  obtain ⟨out, hout⟩ := hout
  have good := C17_biocam_pairs_partial _ _ _ _ hout
  refine ⟨_, paired t L R out good, ?_⟩
  simp only [s1, s2, bind, Except.bind, List.map_map, Function.comp_def, hout, Except.ok.injEq, List.map_filterMap]
  apply List.filterMap_congr
  rintro ⟨i, j⟩ -
  simp only [List.getElem?_map]
  cases L[i]? <;> cases R[j]? <;> rfl

/-- C186 (partial): the pairs and the laser images are recorded as expected, if the paths are plain and the second camera has an image or
the first has none. Missing: other paths and dives in which only the first camera took strobed images. -/
theorem C186_records_partial (tz off : ℚ) (f : BioFiles) (t : List Char → ℚ × ℚ) (hl : Listed f) (hp : PlainPaths f)
    (hr : Readable tz off f t) (hn : f.strobe2 ++ f.calib2 ≠ [] ∨ f.strobe1 ++ f.laser1 ++ f.calib1 = []) : BioExpected tz off f t := by
  obtain ⟨pairs, hpair, he⟩ := pairs_of tz off f t hl hp hr hn
  refine ⟨pairs, hpair, ?_⟩
  have s3 := shots_of tz off t f.laser2 (fun p h => hr p (by simp only [List.mem_append]; tauto))
  unfold biocamOplab
  rw [he, camera3_plain f hl hp, s3]
  simp only [bind, Except.bind, List.map_map, Function.comp_def]

/-- C186: with images of the first camera only the parser stops, and the laser images are lost too. -/
theorem C186_one_camera_stops (tz off : ℚ) (f : BioFiles) (t : List Char → ℚ × ℚ) (hl : Listed f) (hp : PlainPaths f)
    (hr : Readable tz off f t) (h1 : f.strobe1 ++ f.laser1 ++ f.calib1 ≠ []) (h2 : f.strobe2 ++ f.calib2 = []) :
    biocamOplab tz off f = .error .valueError := by
  have s1 := shots_of tz off t (f.strobe1 ++ f.laser1 ++ f.calib1) (fun p h => hr p (by simp only [List.mem_append] at h ⊢; tauto))
  unfold biocamOplab bioPairs
  rw [camera1_plain f hp, camera2_plain f hl hp, h2, s1]
  obtain ⟨p, l, e⟩ := List.exists_cons_of_ne_nil h1
  rw [e]
  simp only [bioShots, bind, Except.bind, List.map_cons, List.map_nil, biocamPairs, stereoPairsFrom, minIdx]

/-- Full statement: images and laser images are recorded whenever their names are readable and the paths are plain. -/
def BioRecorded : Prop := ∀ (tz off : ℚ) (f : BioFiles) (t : List Char → ℚ × ℚ), Listed f → PlainPaths f → Readable tz off f t →
  BioExpected tz off f t

/-- Full statement: the names of folders do not matter. -/
def BioAnyFolder : Prop := ∀ (tz off : ℚ) (f : BioFiles) (t : List Char → ℚ × ℚ), Listed f → Readable tz off f t →
  (f.strobe2 ++ f.calib2 ≠ [] ∨ f.strobe1 ++ f.laser1 ++ f.calib1 = []) → BioExpected tz off f t

private def exMoment : Moment := ⟨⟨2020, 1, 2, 3, 4, 5, 0⟩, 6, 7⟩
private theorem exMoment_valid : exMoment.Valid := ⟨by decide, rfl, Or.inr rfl, by norm_num [exMoment]⟩
private def exTif : List Char := bioName exMoment exMoment ['.', 't', 'i', 'f']
private def exJpg : List Char := bioName exMoment exMoment ['.', 'j', 'p', 'g']

private theorem ex_stamp (folder : List Char) (hf : folder = [] ∨ folder.getLast? = some '/') (rest : List Char) (h : rest = ['.', 't', 'i', 'f'] ∨ rest = ['.', 'j', 'p', 'g']) :
    biocamStamp (baseName (folder ++ bioName exMoment exMoment rest)) 0 0 = .ok (exMoment.utc 0 0, exMoment.utc 0 0) := by
  have hb : baseName (folder ++ bioName exMoment exMoment rest) = bioName exMoment exMoment rest := by
    have hno : splitAtSep (· = '/') (bioName exMoment exMoment rest) = [bioName exMoment exMoment rest] := by
      apply bsplit_none
      rcases h with rfl | rfl <;> decide
    unfold baseName
    rcases hf with rfl | hf
    · rw [List.nil_append, hno]; rfl
    · obtain ⟨g, rfl⟩ := List.getLast?_eq_some_iff.mp hf
      rw [List.append_assoc, List.singleton_append, bsplit_append _ '/' (by decide), hno, List.getLastD_eq_getLast?, List.getLast?_append]
      rfl
  rw [hb]
  exact C185_recent_partial _ _ exMoment_valid exMoment_valid _ (by rcases h with rfl | rfl <;> decide) (by rcases h with rfl | rfl <;> decide)
    0 0 (by decide) (by decide)

/-- C186 is false: a dive with an image of the first camera and a laser image. -/
theorem C186_one_camera_false : ¬ BioRecorded := by
  intro h
  have hl : Listed ⟨[exTif], [], [], [], [exJpg], []⟩ := ⟨by decide, by decide⟩
  have hp : PlainPaths ⟨[exTif], [], [], [], [exJpg], []⟩ := ⟨by decide, by decide⟩
  have hr : Readable 0 0 ⟨[exTif], [], [], [], [exJpg], []⟩ fun _ => (exMoment.utc 0 0, exMoment.utc 0 0) := by
    intro p hp
    simp at hp
    rcases hp with rfl | rfl
    · exact ex_stamp [] (Or.inl rfl) _ (Or.inl rfl)
    · exact ex_stamp [] (Or.inl rfl) _ (Or.inr rfl)
  obtain ⟨pairs, -, e⟩ := h 0 0 _ _ hl hp hr
  rw [C186_one_camera_stops 0 0 _ _ hl hp hr (by simp) rfl] at e
  cases e

/-- C186 is false: below a folder whose name contains "._" no image of the first camera is found. -/
theorem C186_folder_false : ¬ BioAnyFolder := by
  intro h
  have hl : Listed ⟨[['a', '.', '_', '/'] ++ exTif], [], [], [['a', '.', '_', '/'] ++ exTif], [], []⟩ := ⟨by decide, by decide⟩
  have hr : Readable 0 0 ⟨[['a', '.', '_', '/'] ++ exTif], [], [], [['a', '.', '_', '/'] ++ exTif], [], []⟩
      fun _ => (exMoment.utc 0 0, exMoment.utc 0 0) := by
    intro p hp
    have : p = ['a', '.', '_', '/'] ++ exTif := by simpa using hp
    subst this
    exact ex_stamp _ (Or.inr rfl) _ (Or.inl rfl)
  obtain ⟨pairs, hpair, e⟩ := h 0 0 _ _ hl hr (Or.inl (by simp))
  have hin := hpair.all (['a', '.', '_', '/'] ++ exTif) (by simp) ⟨['a', '.', '_', '/'] ++ exTif, by simp, by norm_num⟩
  have c1 : BioFiles.camera1 ⟨[['a', '.', '_', '/'] ++ exTif], [], [], [['a', '.', '_', '/'] ++ exTif], [], []⟩ = [] := by decide
  have c2 : BioFiles.camera2 ⟨[['a', '.', '_', '/'] ++ exTif], [], [], [['a', '.', '_', '/'] ++ exTif], [], []⟩ = [['a', '.', '_', '/'] ++ exTif] := by decide
  have c3 : BioFiles.camera3 ⟨[['a', '.', '_', '/'] ++ exTif], [], [], [['a', '.', '_', '/'] ++ exTif], [], []⟩ = [] := by decide
  unfold biocamOplab bioPairs at e
  rw [c1, c2, c3, shots_of 0 0 _ [['a', '.', '_', '/'] ++ exTif] (fun p hp => hr p (by simpa using hp))] at e
  simp only [bioShots, bind, Except.bind, List.map_nil, biocamPairs, stereoPairsFrom, List.filterMap_nil, List.append_nil, Except.ok.injEq] at e
  have : pairs = [] := by
    have := congrArg List.length e
    simp at this
    exact List.length_eq_zero_iff.mp this.symm
  subst this
  simp at hin

/-- The hypotheses of `C186_records_partial` hold for a pair of images and a laser image. -/
example : BioExpected 0 0 ⟨[exTif], [], [], [exTif], [exJpg], []⟩ fun _ => (exMoment.utc 0 0, exMoment.utc 0 0) := by
  refine C186_records_partial 0 0 _ _ ⟨by decide, by decide⟩ ⟨by decide, by decide⟩ ?_ (Or.inl (by simp))
  intro p hp
  simp at hp
  rcases hp with rfl | rfl
  · exact ex_stamp [] (Or.inl rfl) _ (Or.inl rfl)
  · exact ex_stamp [] (Or.inl rfl) _ (Or.inr rfl)

/-! ## C187 -/

/-- Full statement: a dive that can be converted to the oplab format can be converted to the acfr format. -/
def BioBothFormats : Prop := ∀ (tz off : ℚ) (f : BioFiles) (out : List BioRecord), biocamOplab tz off f = .ok out →
  ∃ lines, biocamAcfr tz off f = .ok lines

/-- C187: no dive with a laser image can be converted to the acfr format, whatever its files. -/
theorem C187_laser_stops (tz off : ℚ) (f : BioFiles) (hl : Listed f) (h : f.laser2 ≠ []) : ∃ e, biocamAcfr tz off f = .error e := by
  have hne : f.camera3 ≠ [] := by
    obtain ⟨p, l, e⟩ := List.exists_cons_of_ne_nil h
    have : p ∈ f.camera3 := by
      unfold BioFiles.camera3
      rw [List.mem_filter]
      refine ⟨by simp [e], ?_⟩
      have := (hl.jpg p (by simp [e])).isInfix
      simp [hasText, jpgMark, this]
    exact List.ne_nil_of_mem this
  obtain ⟨p, l, e⟩ := List.exists_cons_of_ne_nil hne
  unfold biocamAcfr
  rw [e]
  cases bioPairs tz off f with
  | error x => exact ⟨x, rfl⟩
  | ok pairs =>
    simp only [bind, Except.bind]
    cases biocamStamp (baseName p) tz off with
    | error x => exact ⟨x, rfl⟩
    | ok v => exact ⟨_, rfl⟩

/-- C187 is false. -/
theorem C187_false : ¬ BioBothFormats := by
  intro h
  have hl : Listed ⟨[], [], [], [], [exJpg], []⟩ := ⟨by decide, by decide⟩
  obtain ⟨pairs, -, e⟩ := C186_records_partial 0 0 ⟨[], [], [], [], [exJpg], []⟩ (fun _ => (exMoment.utc 0 0, exMoment.utc 0 0)) hl
    ⟨by decide, by decide⟩ (by
      intro p hp
      simp at hp
      subst hp
      exact ex_stamp [] (Or.inl rfl) _ (Or.inr rfl)) (Or.inr rfl)
  obtain ⟨lines, e'⟩ := h _ _ _ _ e
  obtain ⟨x, e''⟩ := C187_laser_stops 0 0 _ hl (by simp)
  rw [e'] at e''
  cases e''

/-- C187 (partial): without laser images the lines are those of the pairs, the left image before the right one, with the times of the
computer. Missing: dives with laser images. -/
theorem C187_lines_partial (tz off : ℚ) (f : BioFiles) (hl : Listed f) (hp : PlainPaths f) (h : f.laser2 = []) (out : List BioRecord)
    (ho : biocamOplab tz off f = .ok out) :
    biocamAcfr tz off f = .ok (out.flatMap fun
      | .image a b => [(a.pc, a.file), (b.pc, b.file)]
      | .laser _ => []) := by
  have c3 := camera3_plain f hl hp
  rw [h] at c3
  unfold biocamOplab at ho
  unfold biocamAcfr
  rw [c3] at ho ⊢
  cases hb : bioPairs tz off f with
  | error x => rw [hb] at ho; simp [bind, Except.bind] at ho
  | ok pairs =>
    rw [hb] at ho
    simp only [bioShots, bind, Except.bind, Except.ok.injEq, List.map_nil, List.append_nil] at ho ⊢
    subst ho
    rw [List.flatMap_map]

end Oplab.Props
