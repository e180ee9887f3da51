import Verif.Model.ImageParsers
import Verif.Spec.ImageLists
import Verif.Lemmas.Digits
import Mathlib.Tactic.Ring
import Mathlib.Tactic.Linarith
import Mathlib.Tactic.NormNum
import Mathlib.Tactic.FieldSimp

/-! # C136–C142: image lists, tides and AE2000 logs -/

namespace Oplab.Props
open Oplab Oplab.Spec

/-! ## Slices of texts of digits -/

private theorem slice_mid (pre x post : List Char) (a b : Nat) (ha : pre.length = a) (hb : a + x.length = b) :
    slice (pre ++ (x ++ post)) a b = x := by
  subst ha; subst hb
  simp only [slice]
  rw [← List.append_assoc, List.take_append_of_le_length (by simp), List.take_of_length_le (by simp)]
  simp

private theorem slice_digits (pre post : List Char) (w n a : Nat) (ha : pre.length = a) :
    slice (pre ++ (padDigits w n ++ post)) a (a + w) = padDigits w n :=
  slice_mid pre _ post a _ ha (by rw [padDigits_length])

private theorem ok_facts (c : DateTime) (h : c.ok = true) : c.year < 10000 ∧ c.month < 100 ∧ c.day < 100 ∧ c.hour < 100 ∧ c.minute < 100
    ∧ c.second < 100 := by
  simp only [DateTime.ok, decide_eq_true_eq] at h
  obtain ⟨-, h2, -, h4, -, h6, h7, h8, h9, -⟩ := h
  have : daysInMonth c.year c.month ≤ 31 := by
    unfold daysInMonth; split <;> (try split) <;> omega
  omega

/-! ## C136 -/

private theorem fileTimeStamp_row (s : Shot) (h : s.Valid) (tz off : ℚ) :
    fileTimeStamp (padDigits 4 s.at_.year ++ padDigits 2 s.at_.month ++ padDigits 2 s.at_.day)
      (padDigits 2 s.at_.hour ++ padDigits 2 s.at_.minute ++ padDigits 2 s.at_.second) (padDigits 3 s.ms) tz off = .ok (s.utc tz off) := by
  obtain ⟨-, hok, hus, hms⟩ := h
  obtain ⟨f1, f2, f3, f4, f5, f6⟩ := ok_facts _ hok
  have s1 := slice_digits [] (padDigits 2 s.at_.month ++ padDigits 2 s.at_.day) 4 s.at_.year 0 rfl
  have s2 := slice_digits (padDigits 4 s.at_.year) (padDigits 2 s.at_.day) 2 s.at_.month 4 (padDigits_length _ _)
  have s3 := slice_digits (padDigits 4 s.at_.year ++ padDigits 2 s.at_.month) [] 2 s.at_.day 6 (by simp [padDigits_length])
  have s4 := slice_digits [] (padDigits 2 s.at_.minute ++ padDigits 2 s.at_.second) 2 s.at_.hour 0 rfl
  have s5 := slice_digits (padDigits 2 s.at_.hour) (padDigits 2 s.at_.second) 2 s.at_.minute 2 (padDigits_length _ _)
  have s6 := slice_digits (padDigits 2 s.at_.hour ++ padDigits 2 s.at_.minute) [] 2 s.at_.second 4 (by simp [padDigits_length])
  have s7 := slice_digits [] [] 3 s.ms 0 rfl
  simp only [List.nil_append, List.append_nil, List.append_assoc, Nat.zero_add, Nat.reduceAdd] at s1 s2 s3 s4 s5 s6 s7
  have hd : dateTimeToEpoch ⟨s.at_.year, s.at_.month, s.at_.day, s.at_.hour, s.at_.minute, s.at_.second, 0⟩ tz
      = .ok ((s.at_.seconds : ℚ) - tz * 3600) := by
    have he : (⟨s.at_.year, s.at_.month, s.at_.day, s.at_.hour, s.at_.minute, s.at_.second, 0⟩ : DateTime) = s.at_ := by
      rw [← hus]
    rw [he]
    simp [dateTimeToEpoch, hok, hus]
  simp only [fileTimeStamp, List.append_assoc, s1, s2, s3, s4, s5, s6, s7, pyInt_padDigits 4 _ (by norm_num) f1,
    pyInt_padDigits 2 _ (by norm_num) f2, pyInt_padDigits 2 _ (by norm_num) f3, pyInt_padDigits 2 _ (by norm_num) f4,
    pyInt_padDigits 2 _ (by norm_num) f5, pyInt_padDigits 2 _ (by norm_num) f6, pyInt_padDigits 3 _ (by norm_num) hms,
    bind, Except.bind, hd, Shot.utc]

private theorem digits_ne_date (s : Shot) :
    padDigits 4 s.at_.year ++ padDigits 2 s.at_.month ++ padDigits 2 s.at_.day ≠ dateWord := by
  intro h
  have := congrArg List.length h
  simp [padDigits_length, dateWord] at this

private theorem stereoRows_rows (tz off : ℚ) : ∀ (l : List (Shot × List (List Char))), (∀ s ∈ l, s.1.Valid) →
    stereoRows tz off (l.map fun s => s.1.row s.2) = .ok (l.map fun s => (s.1.index, s.1.utc tz off))
  | [], _ => rfl
  | s :: l, h => by
    simp only [List.map_cons, Shot.row, stereoRows, if_neg (digits_ne_date s.1), fileTimeStamp_row s.1 (h s (by simp)) tz off,
      bind, Except.bind]
    have := stereoRows_rows tz off l fun x hx => h x (List.mem_cons_of_mem _ hx)
    simp only [Shot.row] at this
    rw [this]

private theorem pyGet_app {α : Type} (pre : List α) (x : α) (post : List α) :
    pyGet (pre ++ x :: post) ((pre.length : ℕ) : Int) = .ok x := by
  have h0 : ¬ ((pre.length : Int) < 0) := by omega
  simp only [pyGet, if_neg h0, Int.toNat_natCast]
  simp

private theorem matchTimes_self (l : List (List Char × ℚ)) : ∀ (post pre : List (List Char × ℚ)), l = pre ++ post →
    matchTimes (l.map fun p => p.1) (l.map fun p => p.2) (post.map fun p => p.1) ((pre.length : ℕ) : Int) = .ok (post.map fun p => p.2)
  | [], _, _ => rfl
  | x :: post, pre, hl => by
    have g1 := pyGet_app (pre.map fun p => p.1) x.1 (post.map fun p => p.1)
    have g2 := pyGet_app (pre.map fun p => p.2) x.2 (post.map fun p => p.2)
    rw [List.length_map] at g1 g2
    have ih := matchTimes_self l post (pre ++ [x]) (by simp [hl])
    rw [List.length_append, List.length_singleton, Nat.cast_add, Nat.cast_one] at ih
    have e1 : (l.map fun p => p.1) = (pre.map fun p => p.1) ++ x.1 :: (post.map fun p => p.1) := by simp [hl]
    have e2 : (l.map fun p => p.2) = (pre.map fun p => p.2) ++ x.2 :: (post.map fun p => p.2) := by simp [hl]
    simp only [List.map_cons, matchTimes, bind, Except.bind]
    rw [e1, g1]
    simp only [if_true]
    rw [e2, g2]
    rw [e1, e2] at ih
    simp only [ih]

private theorem rawStem_id (l : List Char) (h : '.' ∉ l) : rawStem l = l := by
  rw [rawStem, List.takeWhile_eq_self_iff]
  intro c hc
  simp only [ne_eq, decide_not, Bool.not_eq_eq_eq_not, Bool.not_true, decide_eq_false_iff_not]
  rintro rfl; exact h hc

private theorem stereoRecords_all (o1 o2 : ℚ) (l : List (List Char × ℚ)) : ∀ (post pre : List (List Char × ℚ)), l = pre ++ post →
    stereoRecords o1 o2 (post.map fun p => p.1) (l.map fun p => p.2) pre.length
      = .ok (post.map fun p => ⟨p.2 + o1, p.2 + o2, p.1 ++ ".raw".toList⟩)
  | [], _, _ => rfl
  | x :: post, pre, hl => by
    have g2 := pyGet_app (pre.map fun p => p.2) x.2 (post.map fun p => p.2)
    rw [List.length_map] at g2
    have ih := stereoRecords_all o1 o2 l post (pre ++ [x]) (by simp [hl])
    rw [List.length_append, List.length_singleton] at ih
    have e2 : (l.map fun p => p.2) = (pre.map fun p => p.2) ++ x.2 :: (post.map fun p => p.2) := by simp [hl]
    rw [List.map_cons, stereoRecords.eq_def]
    simp only [bind, Except.bind, ih]
    rw [e2, g2]
    rfl

/-- Full statement: every image logged in FileTime.csv gives one record with its own time and file names, in the order of the file, wherever there
are empty lines. -/
def StereoFileRead : Prop := ∀ (tz off o1 o2 : ℚ) (rows : List (List (List Char))) (shots : List Shot), (∀ s ∈ shots, s.Valid) →
  rows.filter (fun r => 4 ≤ r.length) = fileTimeHeader :: shots.map (fun s => s.row []) →
  seaxerocksStereo tz off o1 o2 rows = .ok (shots.map fun s => ⟨s.utc tz off + o1, s.utc tz off + o2, s.index ++ ".raw".toList⟩)

/-- An empty line aborts the reading of the file. -/
theorem C136_stereo_file_false : ¬ StereoFileRead := by
  intro h
  have := h 0 0 0 0 [fileTimeHeader, [[]]] [] (by simp) (by decide)
  have hs : seaxerocksStereo 0 0 0 0 [fileTimeHeader, [[]]] = .error .indexError := by
    simp only [seaxerocksStereo, fileTimeHeader, stereoRows]
    rw [if_pos (by decide)]
    rfl
  rw [hs] at this
  cases this

/-- Without short lines each logged image gives one record: its own time in universal time with both cameras' offsets, and its own name, in the
order of the file, whatever further fields there are. Missing for the full property: empty lines (they abort the parser), and numbers
with a decimal point. -/
theorem C136_stereo_file_partial (tz off o1 o2 : ℚ) (shots : List (Shot × List (List Char))) (h : ∀ s ∈ shots, s.1.Valid) :
    seaxerocksStereo tz off o1 o2 (fileTimeHeader :: shots.map fun s => s.1.row s.2)
      = .ok (shots.map fun s => ⟨s.1.utc tz off + o1, s.1.utc tz off + o2, s.1.index ++ ".raw".toList⟩) := by
  have h0 : stereoRows tz off (fileTimeHeader :: shots.map fun s => s.1.row s.2)
      = .ok (shots.map fun s => (s.1.index, s.1.utc tz off)) := by
    simp only [fileTimeHeader, stereoRows]
    rw [if_pos (by decide)]
    exact stereoRows_rows tz off shots h
  simp only [seaxerocksStereo, bind, Except.bind, h0]
  have hm := matchTimes_self (shots.map fun s => (s.1.index, s.1.utc tz off)) _ [] rfl
  have hst : (List.map rawStem (List.map (fun p => p.1) (shots.map fun s => (s.1.index, s.1.utc tz off))))
      = List.map (fun p => p.1) (shots.map fun s => (s.1.index, s.1.utc tz off)) := by
    simp only [List.map_map]
    apply List.map_congr_left
    intro s hs
    simp only [Function.comp]
    exact rawStem_id _ (h s hs).1
  rw [hst]
  simp only [List.length_nil, Nat.cast_zero] at hm
  rw [hm]
  have hr := stereoRecords_all o1 o2 (shots.map fun s => (s.1.index, s.1.utc tz off)) _ [] rfl
  simp only [List.length_nil] at hr
  simp only [hr]
  rw [List.map_map]
  rfl

example : (⟨"0000012".toList, ⟨2018, 8, 5, 12, 34, 56, 0⟩, 789⟩ : Shot).Valid := by
  refine ⟨by decide, by decide, rfl, by norm_num⟩

private theorem laserRows_rows (tz off : ℚ) : ∀ (l : List (List (List Char) ⊕ (Shot × List (List Char)))),
    (∀ s, .inr s ∈ l → s.1.Valid) → (∀ r, .inl r ∈ l → r.length < 4) →
    laserRows tz off (l.map fun x => match x with | .inl r => r | .inr s => s.1.row s.2)
      = .ok (l.filterMap fun x => match x with | .inl _ => none | .inr s => some (s.1.index, s.1.utc tz off))
  | [], _, _ => rfl
  | .inr s :: l, h, h' => by
    simp only [List.map_cons, Shot.row, laserRows, if_neg (digits_ne_date s.1), fileTimeStamp_row s.1 (h s (by simp)) tz off,
      bind, Except.bind, List.filterMap_cons]
    have := laserRows_rows tz off l (fun x hx => h x (List.mem_cons_of_mem _ hx)) (fun x hx => h' x (List.mem_cons_of_mem _ hx))
    simp only [Shot.row] at this
    rw [this]
  | .inl r :: l, h, h' => by
    have ih := laserRows_rows tz off l (fun x hx => h x (List.mem_cons_of_mem _ hx)) (fun x hx => h' x (List.mem_cons_of_mem _ hx))
    have hr := h' r (by simp)
    simp only [List.map_cons, List.filterMap_cons]
    match r, hr with
    | [], _ => simpa only [laserRows] using ih
    | [_], _ => simpa only [laserRows] using ih
    | [_, _], _ => simpa only [laserRows] using ih
    | [_, _, _], _ => simpa only [laserRows] using ih

/-- For the laser camera the full statement holds: short lines anywhere in the file are skipped and each logged image has its own time. -/
theorem C136_laser_file (isFile : List Char × List Char × String → Bool) (tz off : ℚ)
    (lines : List (List (List Char) ⊕ (Shot × List (List Char))))
    (h : ∀ s, .inr s ∈ lines → s.1.Valid) (h' : ∀ r, .inl r ∈ lines → r.length < 4) :
    (seaxerocksLaser isFile tz off (fileTimeHeader :: lines.map fun x => match x with | .inl r => r | .inr s => s.1.row s.2)).map
        (fun r => r.map fun p => (p.2.2.1, p.1))
      = .ok (lines.filterMap fun x => match x with | .inl _ => none | .inr s => some (s.1.index, s.1.utc tz off)) := by
  have h0 : laserRows tz off (fileTimeHeader :: lines.map fun x => match x with | .inl r => r | .inr s => s.1.row s.2)
      = .ok (lines.filterMap fun x => match x with | .inl _ => none | .inr s => some (s.1.index, s.1.utc tz off)) := by
    simp only [fileTimeHeader, laserRows]
    rw [if_pos (by decide)]
    exact laserRows_rows tz off lines h h'
  simp only [seaxerocksLaser, bind, Except.bind, h0]
  generalize (lines.filterMap fun x => match x with | .inl _ => none | .inr s => some (s.1.index, s.1.utc tz off)) = l
  have hm := matchTimes_self l _ [] rfl
  simp only [List.length_nil, Nat.cast_zero] at hm
  rw [hm]
  simp only [Except.map, Except.ok.injEq]
  have hlf : ∀ ns : List (List Char), (laserFiles isFile ns).map (fun p => p.2.1) = ns := by
    intro ns
    unfold laserFiles
    split
    · next hn => rw [List.getLast?_eq_none_iff] at hn; simp [hn]
    · simp [laserPath, Function.comp_def]
  have hl := hlf (l.map fun p => p.1)
  have hlen : (laserFiles isFile (l.map fun p => p.1)).length = l.length := by
    have := congrArg List.length hl
    simpa using this
  apply List.ext_getElem
  · simp [hlen]
  · intro i h1 h2
    have e : ((laserFiles isFile (l.map fun p => p.1)).map (fun p => p.2.1))[i]'(by simp [hlen, h2]) = (l.map fun p => p.1)[i]'(by simp [h2]) := by
      simp only [hl]
    simp only [List.getElem_map] at e
    simp only [List.getElem_map, List.getElem_zip, e]

/-! ## C137 -/

/-- The images `numbers` are stored with a convention: the folder is made of three digits from place `s`, and the extension is `ext`. -/
def StoredAs (isFile : List Char × List Char × String → Bool) (numbers : List (List Char)) (s : ℕ) (ext : String) : Prop :=
  ∀ folder number e, isFile (folder, number, e) = true ↔ number ∈ numbers ∧ folder = (number.drop s).take 3 ∧ e = ext

/-- Full statement: whichever of the four conventions the dataset uses, the path recorded for every laser image is that of an existing file. -/
def LaserPathsExist : Prop := ∀ (isFile : List Char × List Char × String → Bool) (numbers : List (List Char)) (s : ℕ) (ext : String),
  (s = 0 ∨ s = 1) → (ext = "jpg" ∨ ext = "tif") → StoredAs isFile numbers s ext → ∀ p ∈ laserFiles isFile numbers, isFile p = true

private theorem slice_eq (n : List Char) (s : ℕ) : slice n s (s + 3) = (n.drop s).take 3 := by
  simp [slice, List.drop_take]

private theorem isFile_path {isFile : List Char × List Char × String → Bool} {numbers : List (List Char)} {s : ℕ} {ext : String}
    (h : StoredAs isFile numbers s ext) (n : List Char) (s' : ℕ) (e : String) :
    isFile (laserPath n s' e) = true ↔ n ∈ numbers ∧ (n.drop s').take 3 = (n.drop s).take 3 ∧ e = ext := by
  rw [laserPath, h, slice_eq]

/-- The recorded paths are right exactly if the folders start at the first digit, or the first and second three digits of the last image
differ, or they agree for all images. -/
theorem C137_laser_paths_iff_partial (isFile : List Char × List Char × String → Bool) (numbers : List (List Char)) (last : List Char)
    (s : ℕ) (ext : String) (hs : s = 0 ∨ s = 1) (he : ext = "jpg" ∨ ext = "tif") (h : StoredAs isFile (numbers ++ [last]) s ext) :
    (∀ p ∈ laserFiles isFile (numbers ++ [last]), isFile p = true) ↔
      s = 0 ∨ last.take 3 ≠ (last.drop 1).take 3 ∨ ∀ n ∈ numbers, n.take 3 = (n.drop 1).take 3 := by
  have hmem : last ∈ numbers ++ [last] := by simp
  have hf := fun n s' e => isFile_path h n s' e
  have key : ∀ s' : ℕ, (∀ p ∈ (numbers ++ [last]).map fun n => laserPath n s' ext, isFile p = true) ↔
      ∀ n ∈ numbers ++ [last], (n.drop s').take 3 = (n.drop s).take 3 := by
    intro s'
    simp only [List.mem_map, forall_exists_index, and_imp, forall_apply_eq_imp_iff₂]
    refine forall₂_congr fun n hn => ?_
    rw [hf]; simp [hn]
  have hconv : ∀ s' : ℕ, laserConvention isFile last = (s', ext) →
      ((∀ p ∈ laserFiles isFile (numbers ++ [last]), isFile p = true) ↔ ∀ n ∈ numbers ++ [last], (n.drop s').take 3 = (n.drop s).take 3) := by
    intro s' hc
    rw [← key s']
    simp only [laserFiles, List.getLast?_concat, hc]
  have jt : ("jpg" : String) ≠ "tif" := by decide
  rcases hs with rfl | rfl
  · have hc : laserConvention isFile last = (0, ext) := by
      rcases he with rfl | rfl <;> simp [laserConvention, hf, jt]
    rw [hconv 0 hc]
    simp
  · by_cases hd : last.take 3 = (last.drop 1).take 3
    · have hc : laserConvention isFile last = (0, ext) := by
        rcases he with rfl | rfl <;> simp [laserConvention, hf, jt, hd]
      rw [hconv 0 hc]
      simp only [List.drop_zero, one_ne_zero, false_or, ne_eq, hd, not_true_eq_false]
      constructor
      · intro h n hn; exact h n (by simp [hn])
      · intro h n hn
        rcases List.mem_append.mp hn with hn | hn
        · exact h n hn
        · rw [List.mem_singleton.mp hn]; exact hd
    · have hd' : ¬ last.take 3 = last.tail.take 3 := by simpa using hd
      have hc : laserConvention isFile last = (1, ext) := by
        rcases he with rfl | rfl <;> simp [laserConvention, hf, jt, hd']
      rw [hconv 1 hc]
      simp [hd']

/-- With 1000 images to a folder and a dive that ends with image 1111000 the recorded paths of earlier images do not exist. -/
theorem C137_laser_paths_false : ¬ LaserPathsExist := by
  intro h
  let isFile : List Char × List Char × String → Bool := fun p =>
    decide (p.2.1 ∈ ["1110999".toList, "1111000".toList] ∧ p.1 = (p.2.1.drop 1).take 3 ∧ p.2.2 = "jpg")
  have hst : StoredAs isFile ["1110999".toList, "1111000".toList] 1 "jpg" := by
    intro f n e; simp [isFile]
  have := (C137_laser_paths_iff_partial isFile ["1110999".toList] "1111000".toList 1 "jpg" (.inr rfl) (.inl rfl) hst).1
    (h isFile ["1110999".toList, "1111000".toList] 1 "jpg" (.inr rfl) (.inl rfl) hst)
  revert this; decide

/-- In particular the paths are right for fewer than a thousand images numbered with leading zeros. -/
theorem C137_first_thousand_partial (isFile : List Char × List Char × String → Bool) (numbers : List (List Char)) (s : ℕ) (ext : String)
    (hs : s = 0 ∨ s = 1) (he : ext = "jpg" ∨ ext = "tif") (h : StoredAs isFile numbers s ext)
    (hn : ∀ n ∈ numbers, n.take 4 = "0000".toList) : ∀ p ∈ laserFiles isFile numbers, isFile p = true := by
  rcases List.eq_nil_or_concat numbers with rfl | ⟨ns, last, rfl⟩
  · simp [laserFiles]
  · rw [List.concat_eq_append] at h hn ⊢
    refine (C137_laser_paths_iff_partial isFile ns last s ext hs he h).2 (Or.inr (Or.inr fun n hm => ?_))
    have h4 := hn n (by simp [hm])
    have e1 : n.take 3 = (n.take 4).take 3 := by simp [List.take_take]
    have e2 : (n.drop 1).take 3 = (n.take 4).drop 1 := by rw [List.drop_take]
    rw [e1, e2, h4]; decide

/-! ## C138 -/

/-- Full statement: the time of an NTNU image is the one in its name, with four decimals of a second. -/
def NtnuTimeRead : Prop := ∀ (yy mo d h mi s ffff : ℕ) (rest : List Char) (tz off : ℚ), yy < 100 → (⟨2000 + yy, mo, d, h, mi, s, 0⟩ : DateTime).ok = true →
  ffff < 10000 → ntnuTime (ntnuName yy mo d h mi s ffff rest) tz off
    = .ok ((⟨2000 + yy, mo, d, h, mi, s, 0⟩ : DateTime).seconds - tz * 3600 + (ffff : ℚ) / 10000 + off)

/-- What is read: the four decimals are taken for milliseconds, so the time is late by nine times the fraction. -/
theorem C138_ntnu_time_partial (yy mo d h mi s ffff : ℕ) (rest : List Char) (tz off : ℚ) (hy : yy < 100)
    (hok : (⟨2000 + yy, mo, d, h, mi, s, 0⟩ : DateTime).ok = true) (hf : ffff < 10000) :
    ntnuTime (ntnuName yy mo d h mi s ffff rest) tz off
      = .ok ((⟨2000 + yy, mo, d, h, mi, s, 0⟩ : DateTime).seconds - tz * 3600 + (ffff : ℚ) / 10000 + off + 9 * ((ffff : ℚ) / 10000)) := by
  obtain ⟨-, f2, f3, f4, f5, f6⟩ := ok_facts _ hok
  simp only at f2 f3 f4 f5 f6
  have s1 := slice_digits [] (padDigits 2 mo ++ padDigits 2 d ++ ['-'] ++ padDigits 2 h ++ padDigits 2 mi ++ padDigits 2 s ++ ['.']
    ++ padDigits 4 ffff ++ rest) 2 yy 0 rfl
  have s2 := slice_digits (padDigits 2 yy) (padDigits 2 d ++ ['-'] ++ padDigits 2 h ++ padDigits 2 mi ++ padDigits 2 s ++ ['.']
    ++ padDigits 4 ffff ++ rest) 2 mo 2 (by simp [padDigits_length])
  have s3 := slice_digits (padDigits 2 yy ++ padDigits 2 mo) (['-'] ++ padDigits 2 h ++ padDigits 2 mi ++ padDigits 2 s ++ ['.']
    ++ padDigits 4 ffff ++ rest) 2 d 4 (by simp [padDigits_length])
  have s4 := slice_digits (padDigits 2 yy ++ padDigits 2 mo ++ padDigits 2 d ++ ['-']) (padDigits 2 mi ++ padDigits 2 s ++ ['.']
    ++ padDigits 4 ffff ++ rest) 2 h 7 (by simp [padDigits_length])
  have s5 := slice_digits (padDigits 2 yy ++ padDigits 2 mo ++ padDigits 2 d ++ ['-'] ++ padDigits 2 h) (padDigits 2 s ++ ['.']
    ++ padDigits 4 ffff ++ rest) 2 mi 9 (by simp [padDigits_length])
  have s6 := slice_digits (padDigits 2 yy ++ padDigits 2 mo ++ padDigits 2 d ++ ['-'] ++ padDigits 2 h ++ padDigits 2 mi) (['.']
    ++ padDigits 4 ffff ++ rest) 2 s 11 (by simp [padDigits_length])
  have s7 := slice_digits (padDigits 2 yy ++ padDigits 2 mo ++ padDigits 2 d ++ ['-'] ++ padDigits 2 h ++ padDigits 2 mi ++ padDigits 2 s ++ ['.'])
    rest 4 ffff 14 (by simp [padDigits_length])
  simp only [List.nil_append, List.append_assoc, Nat.zero_add, Nat.reduceAdd] at s1 s2 s3 s4 s5 s6 s7
  simp only [ntnuTime, ntnuName, List.append_assoc, s1, s2, s3, s4, s5, s6, s7, pyInt_padDigits 2 _ (by norm_num) hy,
    pyInt_padDigits 2 _ (by norm_num) f2, pyInt_padDigits 2 _ (by norm_num) f3, pyInt_padDigits 2 _ (by norm_num) f4,
    pyInt_padDigits 2 _ (by norm_num) f5, pyInt_padDigits 2 _ (by norm_num) f6, pyInt_padDigits 4 _ (by norm_num) hf,
    bind, Except.bind, dateTimeToEpoch, hok, if_true, Except.ok.injEq]
  push_cast
  ring

theorem C138_ntnu_time_false : ¬ NtnuTimeRead := by
  intro h
  have h1 := h 21 4 20 16 5 50 7607 [] 0 0 (by norm_num) (by decide) (by norm_num)
  rw [C138_ntnu_time_partial 21 4 20 16 5 50 7607 [] 0 0 (by norm_num) (by decide) (by norm_num), Except.ok.injEq] at h1
  norm_num at h1

/-- Full statement: later images have later times. -/
def NtnuOrder : Prop := ∀ (yy mo d h mi s s' f f' : ℕ) (rest : List Char) (t t' : ℚ), yy < 100 →
  (⟨2000 + yy, mo, d, h, mi, s, 0⟩ : DateTime).ok = true → (⟨2000 + yy, mo, d, h, mi, s', 0⟩ : DateTime).ok = true → f < 10000 → f' < 10000 →
  (s < s' ∨ s = s' ∧ f < f') → ntnuTime (ntnuName yy mo d h mi s f rest) 0 0 = .ok t →
  ntnuTime (ntnuName yy mo d h mi s' f' rest) 0 0 = .ok t' → t < t'

/-- An image of 0.9 s before the full second comes after one of the next second. -/
theorem C138_ntnu_order_false : ¬ NtnuOrder := by
  intro h
  have h1 := h 21 4 20 16 5 50 51 9000 0 [] _ _ (by norm_num) (by decide) (by decide) (by norm_num) (by norm_num) (by norm_num)
    (C138_ntnu_time_partial 21 4 20 16 5 50 9000 [] 0 0 (by norm_num) (by decide) (by norm_num))
    (C138_ntnu_time_partial 21 4 20 16 5 51 0 [] 0 0 (by norm_num) (by decide) (by norm_num))
  have e : ((⟨2000 + 21, 4, 20, 16, 5, 51, 0⟩ : DateTime).seconds : ℚ) = ((⟨2000 + 21, 4, 20, 16, 5, 50, 0⟩ : DateTime).seconds : ℚ) + 1 := by
    simp only [DateTime.seconds]; push_cast; ring
  rw [e] at h1
  norm_num at h1
  linarith

/-- Within a second the order is right. -/
theorem C138_ntnu_order_partial (yy mo d h mi s f f' : ℕ) (rest rest' : List Char) (tz off t t' : ℚ) (hy : yy < 100)
    (hok : (⟨2000 + yy, mo, d, h, mi, s, 0⟩ : DateTime).ok = true) (hf : f < 10000) (hf' : f' < 10000) (hlt : f < f')
    (h1 : ntnuTime (ntnuName yy mo d h mi s f rest) tz off = .ok t) (h2 : ntnuTime (ntnuName yy mo d h mi s f' rest') tz off = .ok t') :
    t < t' := by
  rw [C138_ntnu_time_partial yy mo d h mi s f rest tz off hy hok hf, Except.ok.injEq] at h1
  rw [C138_ntnu_time_partial yy mo d h mi s f' rest' tz off hy hok hf', Except.ok.injEq] at h2
  have : (f : ℚ) < f' := by exact_mod_cast hlt
  rw [← h1, ← h2]
  linarith

/-! ## C139 -/

/-- Full statement: an image whose name says PPS or SYSTEM after the date has the time of its name in that format, in universal time corrected by
the offset of mission.yaml, and its own path. -/
def VoyisRead : Prop := ∀ (pps sys lpps lsys : List Char → Res ℚ) (tz off : ℚ) (stills laser : List VoyisImage) (ts tl : List ℚ),
  List.Forall₂ (fun m t => ((m.name.drop 15).take 3 = "PPS".toList ∧ pps m.name = .ok t) ∨
    ((m.name.drop 15).take 6 = "SYSTEM".toList ∧ sys m.name = .ok t)) stills ts →
  List.Forall₂ (fun m t => ((m.name.drop 16).take 3 = "PPS".toList ∧ lpps m.name = .ok t) ∨
    ((m.name.drop 16).take 6 = "SYSTEM".toList ∧ lsys m.name = .ok t)) laser tl →
  parseVoyis pps sys lpps lsys tz off stills laser
    = .ok (((ts ++ tl).map fun t => t - tz * 3600 + off).zip ((stills ++ laser).map fun m => m.path))

private theorem slice_eq' (n : List Char) (s : ℕ) : slice n s (s + 3) = (n.drop s).take 3 := slice_eq n s

private theorem slice_ne_system (n : List Char) (k : ℕ) : slice n k (k + 3) ≠ ['S', 'Y', 'S', 'T', 'E', 'M'] := by
  intro h
  have := congrArg List.length h
  rw [slice_eq] at this
  simp only [List.length_take, List.length_cons, List.length_nil] at this
  omega

private theorem voyisEpoch_sys (k : ℕ) (pps sys sys' : List Char → Res ℚ) (e : Option ℚ) (n : List Char) :
    voyisEpoch k pps sys e n = voyisEpoch k pps sys' e n := by
  simp only [voyisEpoch, if_neg (slice_ne_system n k)]

private theorem voyisLoop_sys (k : ℕ) (pps sys sys' : List Char → Res ℚ) (off : ℚ) (paths : List (List Char)) :
    ∀ (l : List VoyisImage) (i : ℕ) (e : Option ℚ), voyisLoop k pps sys off paths i e l = voyisLoop k pps sys' off paths i e l
  | [], _, _ => rfl
  | m :: l, i, e => by
    simp only [voyisLoop, voyisEpoch_sys k pps sys sys']
    congr 1
    funext x
    rcases x with _ | t
    · rfl
    · simp only [voyisLoop_sys k pps sys sys' off paths l]

/-- The format for names with SYSTEM is never used: whatever it is, the outcome is the same. -/
theorem C139_system_format_unused (pps sys sys' lpps lsys lsys' : List Char → Res ℚ) (tz off : ℚ) (stills laser : List VoyisImage) :
    parseVoyis pps sys lpps lsys tz off stills laser = parseVoyis pps sys' lpps lsys' tz off stills laser := by
  simp only [parseVoyis, voyisLoop_sys 15 pps sys sys', voyisLoop_sys 16 lpps lsys lsys']

/-- A dive whose first image has a SYSTEM name cannot be parsed. -/
theorem C139_system_first (pps sys lpps lsys : List Char → Res ℚ) (tz off : ℚ) (m : VoyisImage) (stills laser : List VoyisImage)
    (h : (m.name.drop 15).take 3 ≠ "PPS".toList) : parseVoyis pps sys lpps lsys tz off (m :: stills) laser = .error .unboundLocal := by
  have h' : slice m.name 15 (15 + 3) ≠ ['P', 'P', 'S'] := by rw [slice_eq]; exact h
  simp only [parseVoyis, voyisLoop, voyisEpoch, if_neg h', if_neg (slice_ne_system m.name 15), bind, Except.bind]

theorem C139_voyis_false : ¬ VoyisRead := by
  intro h
  have := h (fun _ => .ok 0) (fun _ => .ok 5) (fun _ => .ok 0) (fun _ => .ok 0) 0 0 [⟨"20220709_000000SYSTEM.tif".toList, ['a']⟩] [] [5] []
    (by refine .cons (.inr ⟨by decide, rfl⟩) .nil) .nil
  rw [C139_system_first _ _ _ _ _ _ _ _ _ (by decide)] at this
  cases this

private theorem voyisLoop_pps (k : ℕ) (pps sys : List Char → Res ℚ) (off : ℚ) (paths : List (List Char)) :
    ∀ (l : List VoyisImage) (ts : List ℚ) (pre mid post : List (List Char)) (e : Option ℚ),
    List.Forall₂ (fun m t => (m.name.drop k).take 3 = "PPS".toList ∧ pps m.name = .ok t) l ts → paths = pre ++ mid ++ post → mid.length = l.length →
    ∃ e', voyisLoop k pps sys off paths pre.length e l = .ok ((ts.map fun t => t + off).zip mid, e')
  | [], _, _, _, _, e, .nil, _, hl => by
    exact ⟨e, by simp [voyisLoop]⟩
  | m :: l, t :: ts, pre, p :: mid, post, e, .cons ⟨h1, h2⟩ hr, hp, hl => by
    have hs : slice m.name k (k + 3) = ['P', 'P', 'S'] := by rw [slice_eq]; exact h1
    obtain ⟨e', ih⟩ := voyisLoop_pps k pps sys off paths l ts (pre ++ [p]) mid post (some t) hr (by simp [hp]) (by simpa using hl)
    rw [List.length_append, List.length_singleton] at ih
    have hg := pyGet_app pre p (mid ++ post)
    refine ⟨e', ?_⟩
    simp only [voyisLoop, voyisEpoch, if_pos hs, h2, Except.map, bind, Except.bind, ih]
    rw [hp, List.append_assoc, List.cons_append, hg]
    rfl

/-- With PPS names only, all stills have their own time and path. Missing for the full property: SYSTEM names; the sign of the offset of
mission.yaml, which is subtracted here and added for all other cameras; and the paths of laser images. -/
theorem C139_stills_partial (pps sys lpps lsys : List Char → Res ℚ) (tz off : ℚ) (stills : List VoyisImage) (ts : List ℚ)
    (h : List.Forall₂ (fun m t => (m.name.drop 15).take 3 = "PPS".toList ∧ pps m.name = .ok t) stills ts) :
    parseVoyis pps sys lpps lsys tz off stills [] = .ok ((ts.map fun t => t - tz * 3600 - off).zip (stills.map fun m => m.path)) := by
  obtain ⟨e', he⟩ := voyisLoop_pps 15 pps sys (voyisOffset tz off) (stills.map fun m => m.path) stills ts [] (stills.map fun m => m.path) [] none h
    (by simp) (by simp)
  simp only [List.length_nil] at he
  simp only [parseVoyis, bind, Except.bind, he, voyisLoop, List.append_nil]
  congr 2
  apply List.map_congr_left
  intro t _
  simp only [voyisOffset]; ring

/-- Laser images have their own times, but the paths of the first stills. -/
theorem C139_laser_paths (pps sys lpps lsys : List Char → Res ℚ) (tz off : ℚ) (stills laser : List VoyisImage) (ts tl : List ℚ)
    (h : List.Forall₂ (fun m t => (m.name.drop 15).take 3 = "PPS".toList ∧ pps m.name = .ok t) stills ts)
    (hl : List.Forall₂ (fun m t => (m.name.drop 16).take 3 = "PPS".toList ∧ lpps m.name = .ok t) laser tl) (hn : laser.length ≤ stills.length) :
    parseVoyis pps sys lpps lsys tz off stills laser
      = .ok ((ts.map fun t => t - tz * 3600 - off).zip (stills.map fun m => m.path) ++
          (tl.map fun t => t - tz * 3600 - off).zip ((stills.take laser.length).map fun m => m.path)) := by
  obtain ⟨e', he⟩ := voyisLoop_pps 15 pps sys (voyisOffset tz off) (stills.map fun m => m.path) stills ts [] (stills.map fun m => m.path) [] none h
    (by simp) (by simp)
  obtain ⟨e2, he2⟩ := voyisLoop_pps 16 lpps lsys (voyisOffset tz off) (stills.map fun m => m.path) laser tl []
    ((stills.take laser.length).map fun m => m.path) ((stills.drop laser.length).map fun m => m.path) e' hl
    (by simp) (by simp [hn])
  simp only [List.length_nil] at he he2
  simp only [parseVoyis, bind, Except.bind, he, he2]
  have hc : ∀ l : List ℚ, (l.map fun t => t + voyisOffset tz off) = l.map fun t => t - tz * 3600 - off := by
    intro l
    apply List.map_congr_left
    intro t _
    simp only [voyisOffset]; ring
  rw [hc, hc]

example : List.Forall₂ (fun (m : VoyisImage) t => (m.name.drop 15).take 3 = "PPS".toList ∧ (fun _ => .ok 7 : List Char → Res ℚ) m.name = .ok t)
    [⟨"20220709_000000PPS.tif".toList, ['a']⟩] [7] := .cons ⟨by decide, rfl⟩ .nil

/-! ## C140 -/

/-- Full statement: the fraction of a second written with any number of digits is read as that fraction. -/
def FractionRead : Prop := ∀ w n : ℕ, 0 < w → n < 10 ^ w → fractionRead (padDigits w n) = .ok ((n : ℚ) / 10 ^ w)

/-- The fraction is right exactly if it is zero or has three digits. -/
theorem C140_fraction_iff_partial (w n : ℕ) (hw : 0 < w) (hn : n < 10 ^ w) :
    fractionRead (padDigits w n) = .ok ((n : ℚ) / 10 ^ w) ↔ n = 0 ∨ w = 3 := by
  simp only [fractionRead, pyInt_padDigits w n hw hn, bind, Except.bind, Except.ok.injEq]
  constructor
  · intro h
    by_cases h0 : n = 0
    · exact .inl h0
    · right
      have hq : (n : ℚ) ≠ 0 := by exact_mod_cast h0
      have hp : ((10 : ℚ) ^ w) ≠ 0 := by positivity
      rw [div_eq_div_iff (by norm_num) hp] at h
      have h2 := mul_left_cancel₀ hq h
      have h3 : (10 : ℕ) ^ w = 10 ^ 3 := by exact_mod_cast (h2.trans (by norm_num : (1000 : ℚ) = 10 ^ 3))
      exact Nat.pow_right_injective (le_refl 2 |>.trans (by norm_num)) h3
  · rintro (rfl | rfl)
    · simp
    · norm_num

theorem C140_fraction_false : ¬ FractionRead := by
  intro h
  have := (C140_fraction_iff_partial 1 5 (by norm_num) (by norm_num)).1 (h 1 5 (by norm_num) (by norm_num))
  omega

/-! ## C141 -/

section
variable {K : Type} [Field K] [LinearOrder K] [IsStrictOrderedRing K]

/-- The heading with the offset of the sensor is the sum up to full turns, between 0 and 360 degrees. -/
theorem C141_heading (heading offset : K) (h0 : 0 ≤ heading) (h1 : heading ≤ 360) (o0 : -360 ≤ offset) (o1 : offset ≤ 360) :
    0 ≤ offsetHeading heading offset ∧ offsetHeading heading offset ≤ 360 ∧
      ∃ k : ℤ, offsetHeading heading offset = heading + offset + 360 * k := by
  simp only [offsetHeading]
  by_cases a : heading + offset > 360
  · rw [if_pos a]
    have b : ¬ heading + offset - 360 < 0 := by linarith
    rw [if_neg b]
    exact ⟨by linarith, by linarith, -1, by push_cast; ring⟩
  · rw [if_neg a]
    by_cases b : heading + offset < 0
    · rw [if_pos b]
      exact ⟨by linarith, by linarith, 1, by push_cast; ring⟩
    · rw [if_neg b]
      exact ⟨by linarith, by linarith, 0, by simp⟩

example : offsetHeading (350 : ℚ) 20 = 10 ∧ offsetHeading (10 : ℚ) (-20) = 350 := by
  norm_num [offsetHeading]

omit [IsStrictOrderedRing K] in
/-- The kept depths: each is a positive measured depth with its time, in the order of the log, and no two in a row are equal. -/
theorem C141_depths_kept (rows : List (K × Option K)) :
    ((ae2000Depths 0 rows).map fun p => (p.1, some p.2)).Sublist rows ∧ (∀ p ∈ ae2000Depths 0 rows, 0 < p.2) ∧
      (ae2000Depths 0 rows).IsChain fun p q => p.2 ≠ q.2 := by
  have key : ∀ (rows : List (K × Option K)) (prev : K),
      ((ae2000Depths prev rows).map fun p => (p.1, some p.2)).Sublist rows ∧ (∀ p ∈ ae2000Depths prev rows, 0 < p.2) ∧
      (ae2000Depths prev rows).IsChain (fun p q => p.2 ≠ q.2) ∧ ∀ p, (ae2000Depths prev rows).head? = some p → p.2 ≠ prev := by
    intro rows
    induction rows with
    | nil => intro prev; simp [ae2000Depths]
    | cons r rows ih =>
      intro prev
      obtain ⟨t, d⟩ := r
      rcases d with _ | d
      · obtain ⟨a, b, c⟩ := ih prev
        exact ⟨a.cons _, b, c⟩
      · simp only [ae2000Depths]
        by_cases h1 : d ≤ 0
        · rw [if_pos h1]
          obtain ⟨a, b, c⟩ := ih prev
          exact ⟨a.cons _, b, c⟩
        · rw [if_neg h1]
          by_cases h2 : d = prev
          · rw [if_pos h2]
            obtain ⟨a, b, c⟩ := ih prev
            exact ⟨a.cons _, b, c⟩
          · rw [if_neg h2]
            obtain ⟨a, b, c, e⟩ := ih d
            refine ⟨a.cons_cons (t, some d), ?_, ?_, ?_⟩
            · intro p hp
              rcases List.mem_cons.mp hp with rfl | hp
              · exact not_le.mp h1
              · exact b p hp
            · rw [List.isChain_cons]
              exact ⟨fun q hq => (e q hq).symm, c⟩
            · intro p hp
              simp only [List.head?_cons, Option.some.injEq] at hp
              subst hp; exact h2
  obtain ⟨a, b, c, -⟩ := key rows 0
  exact ⟨a, b, c⟩

/-- The last kept depth after a part of the log. -/
def lastKept (l : List (K × K)) : K := (l.getLast?.map fun p => p.2).getD 0

omit [IsStrictOrderedRing K] in
/-- Every measured positive depth is that of the last kept record at its place of the log: no value of the log is lost. -/
theorem C141_depths_complete (before after : List (K × Option K)) (t d : K) (hd : 0 < d) :
    ∃ kept later, ae2000Depths 0 (before ++ (t, some d) :: after) = kept ++ later ∧ lastKept kept = d ∧
      ∀ p ∈ later, (p.1, some p.2) ∈ after := by
  have sub : ∀ (rows : List (K × Option K)) (prev : K), ∀ p ∈ ae2000Depths prev rows, (p.1, some p.2) ∈ rows := by
    intro rows
    induction rows with
    | nil => intro prev p hp; simp [ae2000Depths] at hp
    | cons r rows ih =>
      intro prev p hp
      obtain ⟨t, d⟩ := r
      rcases d with _ | d
      · exact List.mem_cons_of_mem _ (ih prev p hp)
      · simp only [ae2000Depths] at hp
        split at hp
        · exact List.mem_cons_of_mem _ (ih prev p hp)
        · split at hp
          · exact List.mem_cons_of_mem _ (ih prev p hp)
          · rcases List.mem_cons.mp hp with rfl | hp
            · exact List.mem_cons_self
            · exact List.mem_cons_of_mem _ (ih d p hp)
  have key : ∀ (before : List (K × Option K)) (prev : K), ∃ kept later, ae2000Depths prev (before ++ (t, some d) :: after) = kept ++ later ∧
      (kept.getLast?.map fun p => p.2).getD prev = d ∧ ∀ p ∈ later, (p.1, some p.2) ∈ after := by
    intro before
    induction before with
    | nil =>
      intro prev
      simp only [List.nil_append, ae2000Depths, if_neg (not_le.mpr hd)]
      by_cases h : d = prev
      · exact ⟨[], _, by rw [if_pos h]; rfl, by simp [h], fun p hp => sub _ _ p hp⟩
      · exact ⟨[(t, d)], _, by rw [if_neg h]; rfl, by simp, fun p hp => sub _ _ p hp⟩
    | cons r before ih =>
      intro prev
      obtain ⟨t', d'⟩ := r
      rcases d' with _ | d'
      · exact ih prev
      · simp only [List.cons_append, ae2000Depths]
        by_cases h1 : d' ≤ 0
        · rw [if_pos h1]; exact ih prev
        · rw [if_neg h1]
          by_cases h2 : d' = prev
          · rw [if_pos h2]; exact ih prev
          · rw [if_neg h2]
            obtain ⟨kept, later, e, hk, hl⟩ := ih d'
            refine ⟨(t', d') :: kept, later, by rw [e]; rfl, ?_, hl⟩
            rcases kept with _ | ⟨k, ks⟩
            · simpa using hk
            · rw [List.getLast?_cons_cons]
              rw [List.getLast?_eq_some_getLast (by simp)] at hk ⊢
              simpa using hk
  exact key before 0

end

/-- Full statement: between two kept records, the depth interpolated at the time of a measurement is the measured one. -/
def DepthFaithful : Prop := ∀ (rows : List (ℚ × Option ℚ)) (a b : ℚ × ℚ) (t d : ℚ), (rows.map fun r => r.1).Pairwise (· < ·) →
  [a, b] <:+: ae2000Depths 0 rows → (t, some d) ∈ rows → 0 < d → a.1 ≤ t → t ≤ b.1 → interpolate t a.1 b.1 a.2 b.2 = d

/-- A vehicle that keeps its depth and then dives is put at the wrong depth, because repeated values are dropped. -/
theorem C141_depth_false : ¬ DepthFaithful := by
  intro h
  have := h [(0, some 10), (10, some 10), (11, some 20)] (0, 10) (11, 20) 10 10 (by norm_num) (by
    norm_num [ae2000Depths]) (by simp) (by norm_num) (by norm_num) (by norm_num)
  norm_num [interpolate] at this

/-! ## C142 -/

private theorem takeWhile_comma (h rest : List Char) (hc : ',' ∉ h) : (h ++ ',' :: rest).takeWhile (fun c => c ≠ ',') = h := by
  induction h with
  | nil => simp
  | cons c h ih =>
    simp only [List.mem_cons, not_or] at hc
    have : decide (c ≠ ',') = true := by simp [Ne.symm hc.1]
    rw [List.cons_append, List.takeWhile_cons, this, if_pos rfl, ih hc.2]

private theorem dropWhile_comma (h rest : List Char) (hc : ',' ∉ h) : (h ++ ',' :: rest).dropWhile (fun c => c ≠ ',') = ',' :: rest := by
  induction h with
  | nil => simp
  | cons c h ih =>
    simp only [List.mem_cons, not_or] at hc
    have : decide (c ≠ ',') = true := by simp [Ne.symm hc.1]
    rw [List.cons_append, List.dropWhile_cons, this, if_pos rfl, ih hc.2]

private theorem digits_no_comma (w n : ℕ) : ',' ∉ padDigits w n := by
  intro h
  have := List.all_eq_true.mp (padDigits_all w n) ',' h
  revert this; decide

/-- A line of the file is read as its own time and height. -/
theorem C142_line (toFloat : List Char → Option ℚ) (tz off factor : ℚ) (c : DateTime) (height rest : List Char) (x : ℚ)
    (hok : c.ok = true) (hus : c.us = 0) (hc : ',' ∉ height) (hx : toFloat height = some x) :
    tideLine toFloat tz off factor (tideText c height rest) = .ok (c.seconds - tz * 3600 + off, x, x * factor) := by
  obtain ⟨f1, f2, f3, f4, f5, f6⟩ := ok_facts _ hok
  have s1 := slice_digits [] (['-'] ++ padDigits 2 c.month ++ ['-'] ++ padDigits 2 c.day ++ ['T'] ++ padDigits 2 c.hour ++ [':']
    ++ padDigits 2 c.minute ++ [':'] ++ padDigits 2 c.second ++ ['Z'] ++ [','] ++ height ++ [','] ++ rest) 4 c.year 0 rfl
  have s2 := slice_digits (padDigits 4 c.year ++ ['-']) (['-'] ++ padDigits 2 c.day ++ ['T'] ++ padDigits 2 c.hour ++ [':']
    ++ padDigits 2 c.minute ++ [':'] ++ padDigits 2 c.second ++ ['Z'] ++ [','] ++ height ++ [','] ++ rest) 2 c.month 5 (by simp [padDigits_length])
  have s3 := slice_digits (padDigits 4 c.year ++ ['-'] ++ padDigits 2 c.month ++ ['-']) (['T'] ++ padDigits 2 c.hour ++ [':']
    ++ padDigits 2 c.minute ++ [':'] ++ padDigits 2 c.second ++ ['Z'] ++ [','] ++ height ++ [','] ++ rest) 2 c.day 8 (by simp [padDigits_length])
  have s4 := slice_digits (padDigits 4 c.year ++ ['-'] ++ padDigits 2 c.month ++ ['-'] ++ padDigits 2 c.day ++ ['T']) ([':']
    ++ padDigits 2 c.minute ++ [':'] ++ padDigits 2 c.second ++ ['Z'] ++ [','] ++ height ++ [','] ++ rest) 2 c.hour 11 (by simp [padDigits_length])
  have s5 := slice_digits (padDigits 4 c.year ++ ['-'] ++ padDigits 2 c.month ++ ['-'] ++ padDigits 2 c.day ++ ['T'] ++ padDigits 2 c.hour ++ [':'])
    ([':'] ++ padDigits 2 c.second ++ ['Z'] ++ [','] ++ height ++ [','] ++ rest) 2 c.minute 14 (by simp [padDigits_length])
  have s6 := slice_digits (padDigits 4 c.year ++ ['-'] ++ padDigits 2 c.month ++ ['-'] ++ padDigits 2 c.day ++ ['T'] ++ padDigits 2 c.hour ++ [':']
    ++ padDigits 2 c.minute ++ [':'])
    (['Z'] ++ [','] ++ height ++ [','] ++ rest) 2 c.second 17 (by simp [padDigits_length])
  have ht : tideHeightText (tideText c height rest) = height := by
    have e : tideText c height rest = (padDigits 4 c.year ++ ['-'] ++ padDigits 2 c.month ++ ['-'] ++ padDigits 2 c.day ++ ['T'] ++ padDigits 2 c.hour
        ++ [':'] ++ padDigits 2 c.minute ++ [':'] ++ padDigits 2 c.second ++ ['Z']) ++ ',' :: (height ++ ',' :: rest) := by
      simp [tideText]
    have hn : ',' ∉ (padDigits 4 c.year ++ ['-'] ++ padDigits 2 c.month ++ ['-'] ++ padDigits 2 c.day ++ ['T'] ++ padDigits 2 c.hour
        ++ [':'] ++ padDigits 2 c.minute ++ [':'] ++ padDigits 2 c.second ++ ['Z']) := by
      simp [digits_no_comma]
    simp only [tideHeightText]
    have hm : ',' ∈ tideText c height rest := by rw [e]; simp
    rw [if_pos hm, e, dropWhile_comma _ _ hn, List.drop_succ_cons, List.drop_zero, if_pos (by simp), takeWhile_comma _ _ hc]
  have hd : dateTimeToEpoch ⟨c.year, c.month, c.day, c.hour, c.minute, c.second, 0⟩ tz = .ok ((c.seconds : ℚ) - tz * 3600) := by
    have he : (⟨c.year, c.month, c.day, c.hour, c.minute, c.second, 0⟩ : DateTime) = c := by rw [← hus]
    rw [he]
    simp [dateTimeToEpoch, hok, hus]
  simp only [List.nil_append, List.append_nil, List.append_assoc, Nat.zero_add, Nat.reduceAdd] at s1 s2 s3 s4 s5 s6
  simp only [tideLine, ht, hx]
  simp only [tideText, List.append_assoc, s1, s2, s3, s4, s5, s6, pyInt_padDigits 4 _ (by norm_num) f1,
    pyInt_padDigits 2 _ (by norm_num) f2, pyInt_padDigits 2 _ (by norm_num) f3, pyInt_padDigits 2 _ (by norm_num) f4,
    pyInt_padDigits 2 _ (by norm_num) f5, pyInt_padDigits 2 _ (by norm_num) f6, bind, Except.bind, hd]

/-- A measurement of the tide. -/
structure TideShot where
  at_ : DateTime
  text : List Char
  more : List Char
  height : ℚ

/-- The date is a date and the text of the height is read as the height. -/
def TideShot.Valid (toFloat : List Char → Option ℚ) (s : TideShot) : Prop :=
  s.at_.ok = true ∧ s.at_.us = 0 ∧ ',' ∉ s.text ∧ toFloat s.text = some s.height

/-- Full statement: a file of five lines of header and any number of measurements gives all the measurements. -/
def TideFileRead : Prop := ∀ (toFloat : List Char → Option ℚ) (tz off factor : ℚ) (header : List (List Char)) (l : List TideShot),
  header.length = 5 → (∀ s ∈ l, s.Valid toFloat) →
  tideFile toFloat tz off factor (header ++ l.map fun s => tideText s.at_ s.text s.more)
    = .ok (l.map fun s => (s.at_.seconds - tz * 3600 + off, s.height, s.height * factor))

/-- All measurements but the first are read, each with its own time and height. -/
theorem C142_tide_file_partial (toFloat : List Char → Option ℚ) (tz off factor : ℚ) (header : List (List Char)) (l : List TideShot)
    (hh : header.length = 5) (hv : ∀ s ∈ l.tail, s.Valid toFloat) :
    tideFile toFloat tz off factor (header ++ l.map fun s => tideText s.at_ s.text s.more)
      = .ok (l.tail.map fun s => (s.at_.seconds - tz * 3600 + off, s.height, s.height * factor)) := by
  have hd : (header ++ l.map fun s => tideText s.at_ s.text s.more).drop 6 = l.tail.map fun s => tideText s.at_ s.text s.more := by
    rw [List.drop_append, List.drop_eq_nil_of_le (by omega), hh, List.nil_append, ← List.map_drop, List.drop_one]
  simp only [tideFile, hd]
  generalize l.tail = m at hv
  induction m with
  | nil => rfl
  | cons s m ih =>
    obtain ⟨a, b, c, d⟩ := hv s (by simp)
    rw [List.map_cons, List.mapM_cons, C142_line toFloat tz off factor s.at_ s.text s.more s.height a b c d,
      ih fun x hx => hv x (List.mem_cons_of_mem _ hx)]
    rfl

/-- The first measurement is lost. -/
theorem C142_tide_file_false : ¬ TideFileRead := by
  intro h
  have h1 := h (fun _ => some 1) 0 0 0 [[], [], [], [], []] [⟨⟨2022, 7, 9, 0, 0, 0, 0⟩, ['1'], [], 1⟩] rfl (by
    intro s hs
    rw [List.mem_singleton.mp hs]
    exact ⟨by decide, rfl, by decide, rfl⟩)
  rw [C142_tide_file_partial _ _ _ _ _ _ rfl (by simp)] at h1
  simp at h1

/-- Full statement: the recorded standard deviation is not negative. -/
def TideStdNonneg : Prop := ∀ (toFloat : List Char → Option ℚ) (tz off factor : ℚ) (line : List Char) (r : ℚ × ℚ × ℚ), 0 ≤ factor →
  tideLine toFloat tz off factor line = .ok r → 0 ≤ r.2.2

/-- At low tide it is negative. -/
theorem C142_std_false : ¬ TideStdNonneg := by
  intro h
  have := h (fun _ => some (-1)) 0 0 1 _ _ (by norm_num)
    (C142_line (fun _ => some (-1)) 0 0 1 ⟨2022, 7, 9, 0, 0, 0, 0⟩ ['x'] [] (-1) (by decide) rfl (by decide) rfl)
  norm_num at this

/-- For heights above the datum it is not negative. -/
theorem C142_std_partial (toFloat : List Char → Option ℚ) (tz off factor : ℚ) (line : List Char) (r : ℚ × ℚ × ℚ) (hf : 0 ≤ factor)
    (h : tideLine toFloat tz off factor line = .ok r) (hr : 0 ≤ r.2.1) : 0 ≤ r.2.2 := by
  have : r.2.2 = r.2.1 * factor := by
    simp only [tideLine, bind, Except.bind] at h
    repeat' split at h
    all_goals first | (cases h; rfl) | cases h
  rw [this]; exact mul_nonneg hr hf

end Oplab.Props
