import Mathlib.Tactic.Linarith
import Mathlib.Tactic.Ring
import Mathlib.Tactic.NormNum
import Mathlib.Tactic.FieldSimp
import Verif.Model.Koyo20
import Verif.Spec.Koyo
import Verif.Spec.Hybis
import Verif.Lemmas.Seek
import Verif.Lemmas.Digits
import Verif.Props.Rotation
import Verif.Props.Parsers

/-! C161-C168: dives of the ROV of 2020 and 2021. -/

namespace Oplab.Props
open Oplab Oplab.Spec

/-! ## C161 times -/

private theorem koy_slice (pre x post : List Char) (a b : Nat) (ha : pre.length = a) (hb : a + x.length = b) :
    slice (pre ++ (x ++ post)) a b = x := by
  subst ha; subst hb
  simp only [slice]
  rw [← List.append_assoc, List.take_append_of_le_length (by simp), List.take_of_length_le (by simp)]
  simp

private theorem koy_ok (c : DateTime) (h : c.ok = true) : c.year < 10000 ∧ c.month < 100 ∧ c.day < 100 ∧ c.hour < 100 ∧ c.minute < 100
    ∧ c.second < 100 := by
  simp only [DateTime.ok, decide_eq_true_eq] at h
  obtain ⟨-, h2, -, h4, -, h6, h7, h8, h9, -⟩ := h
  have : daysInMonth c.year c.month ≤ 31 := by
    unfold daysInMonth; split <;> (try split) <;> omega
  omega

private theorem padDigits_join (a : Nat) : ∀ (b x y : Nat), y < 10 ^ b →
    padDigits (a + b) (x * 10 ^ b + y) = padDigits a x ++ padDigits b y
  | 0, x, y, h => by
    have : y = 0 := by simpa using h
    simp [this, padDigits]
  | b + 1, x, y, h => by
    have hy : y / 10 < 10 ^ b := by rw [Nat.div_lt_iff_lt_mul (by norm_num)]; rw [pow_succ] at h; omega
    have e1 : (x * 10 ^ (b + 1) + y) / 10 = x * 10 ^ b + y / 10 := by
      rw [pow_succ, ← Nat.mul_assoc]; omega
    have e2 : (x * 10 ^ (b + 1) + y) % 10 = y % 10 := by
      rw [pow_succ, ← Nat.mul_assoc]; omega
    rw [← Nat.add_assoc, padDigits, padDigits, e1, e2, padDigits_join a b x (y / 10) hy, List.append_assoc]

/-- C161: dates and times of the cameras and of the compass are read as universal time, with milliseconds. -/
theorem C161_camera_time (c : DateTime) (h : c.ok = true) (ms : Nat) (hms : c.us = ms * 1000) :
    rovTime (compactDate c) (compactTime c) ms = .ok ((c.seconds : ℚ) + (ms : ℚ) / 1000) := by
  obtain ⟨f1, f2, f3, f4, f5, f6⟩ := koy_ok c h
  have e : padDigits 6 (compactTime c) = padDigits 2 c.hour ++ padDigits 2 c.minute ++ padDigits 2 c.second := by
    have h1 := padDigits_join 4 2 (c.hour * 100 + c.minute) c.second (by simpa using f6)
    have h2 := padDigits_join 2 2 c.hour c.minute (by simpa using f5)
    have h3 : compactTime c = (c.hour * 100 + c.minute) * 10 ^ 2 + c.second := by simp only [compactTime]; ring
    rw [h3, h1]
    rw [show (10 : Nat) ^ 2 = 100 by norm_num] at h2
    rw [h2]
  have s1 := koy_slice [] (padDigits 4 c.year) (padDigits 2 c.month ++ padDigits 2 c.day) 0 4 rfl (by simp [padDigits_length])
  have s2 := koy_slice (padDigits 4 c.year) (padDigits 2 c.month) (padDigits 2 c.day) 4 6 (by simp [padDigits_length])
    (by simp [padDigits_length])
  have s3 := koy_slice (padDigits 4 c.year ++ padDigits 2 c.month) (padDigits 2 c.day) [] 6 8 (by simp [padDigits_length])
    (by simp [padDigits_length])
  have s4 := koy_slice [] (padDigits 2 c.hour) (padDigits 2 c.minute ++ padDigits 2 c.second) 0 2 rfl (by simp [padDigits_length])
  have s5 := koy_slice (padDigits 2 c.hour) (padDigits 2 c.minute) (padDigits 2 c.second) 2 4 (by simp [padDigits_length])
    (by simp [padDigits_length])
  have s6 := koy_slice (padDigits 2 c.hour ++ padDigits 2 c.minute) (padDigits 2 c.second) [] 4 6 (by simp [padDigits_length])
    (by simp [padDigits_length])
  simp only [List.nil_append, List.append_nil, List.append_assoc] at s1 s2 s3 s4 s5 s6
  have he : (⟨c.year, c.month, c.day, c.hour, c.minute, c.second, ms * 1000⟩ : DateTime) = c := by rw [← hms]
  simp only [rovTime, e, compactDate, List.append_assoc, s1, s2, s3, s4, s5, s6, pyInt_padDigits 4 _ (by norm_num) f1,
    pyInt_padDigits 2 _ (by norm_num) f2, pyInt_padDigits 2 _ (by norm_num) f3, pyInt_padDigits 2 _ (by norm_num) f4,
    pyInt_padDigits 2 _ (by norm_num) f5, pyInt_padDigits 2 _ (by norm_num) f6, bind, Except.bind, he]
  simp only [dateTimeToEpoch, h, if_true, hms, Except.ok.injEq]
  push_cast
  ring

/-- C161: dates of the ship's log (`YY?MM?DD`, also with a century, quotes or blanks before it, up to 13 characters) and times are
read as universal time in this century. -/
theorem C161_ship_time (c : DateTime) (h : c.ok = true) (hus : c.us = 0) (yy : Nat) (hy : c.year = 2000 + yy) (hy2 : yy < 100)
    (pre : List Char) (hp : pre.length ≤ 5) (a b : Char) :
    shipTime (pre ++ padDigits 2 yy ++ [a] ++ padDigits 2 c.month ++ [b] ++ padDigits 2 c.day) (colonTime c) =
      .ok (c.seconds : ℚ) := by
  obtain ⟨f1, f2, f3, f4, f5, f6⟩ := koy_ok c h
  have hl : (pre ++ padDigits 2 yy ++ [a] ++ padDigits 2 c.month ++ [b] ++ padDigits 2 c.day).length = pre.length + 8 := by
    simp [padDigits_length]
  obtain ⟨p, hpl, hpe⟩ : ∃ p : List Char, p.length = 5 ∧
      List.replicate (13 - (pre.length + 8)) ' ' ++ (pre ++ padDigits 2 yy ++ [a] ++ padDigits 2 c.month ++ [b] ++ padDigits 2 c.day) =
        p ++ (padDigits 2 yy ++ ([a] ++ (padDigits 2 c.month ++ ([b] ++ padDigits 2 c.day)))) :=
    ⟨List.replicate (13 - (pre.length + 8)) ' ' ++ pre, by simp; omega, by simp⟩
  have s1 := koy_slice p (padDigits 2 yy) ([a] ++ (padDigits 2 c.month ++ ([b] ++ padDigits 2 c.day))) 5 7 hpl (by simp [padDigits_length])
  have s2 := koy_slice (p ++ padDigits 2 yy ++ [a]) (padDigits 2 c.month) ([b] ++ padDigits 2 c.day) 8 10 (by simp [padDigits_length, hpl])
    (by simp [padDigits_length])
  have s3 := koy_slice (p ++ padDigits 2 yy ++ [a] ++ padDigits 2 c.month ++ [b]) (padDigits 2 c.day) [] 11 13
    (by simp [padDigits_length, hpl]) (by simp [padDigits_length])
  have s4 := koy_slice [] (padDigits 2 c.hour) ([':'] ++ padDigits 2 c.minute ++ [':'] ++ padDigits 2 c.second) 0 2 rfl
    (by simp [padDigits_length])
  have s5 := koy_slice (padDigits 2 c.hour ++ [':']) (padDigits 2 c.minute) ([':'] ++ padDigits 2 c.second) 3 5
    (by simp [padDigits_length]) (by simp [padDigits_length])
  have s6 := koy_slice (padDigits 2 c.hour ++ [':'] ++ padDigits 2 c.minute ++ [':']) (padDigits 2 c.second) [] 6 8
    (by simp [padDigits_length]) (by simp [padDigits_length])
  simp only [List.nil_append, List.append_nil, List.append_assoc] at s1 s2 s3 s4 s5 s6
  have he : (⟨2000 + yy, c.month, c.day, c.hour, c.minute, c.second, 0⟩ : DateTime) = c := by rw [← hus, ← hy]
  simp only [shipTime, hl, hpe]
  simp only [colonTime, List.append_assoc, s1, s2, s3, s4, s5, s6, pyInt_padDigits 2 _ (by norm_num) (show yy < 10 ^ 2 by simpa using hy2),
    pyInt_padDigits 2 _ (by norm_num) f2, pyInt_padDigits 2 _ (by norm_num) f3, pyInt_padDigits 2 _ (by norm_num) f4,
    pyInt_padDigits 2 _ (by norm_num) f5, pyInt_padDigits 2 _ (by norm_num) f6, bind, Except.bind, he]
  simp [dateTimeToEpoch, h, hus]

example : (⟨2020, 11, 17, 9, 5, 7, 250000⟩ : DateTime).ok = true ∧ (⟨2020, 11, 17, 9, 5, 7, 250000⟩ : DateTime).us = 250 * 1000 ∧
    compactTime ⟨2020, 11, 17, 9, 5, 7, 250000⟩ = 90507 := by decide +kernel

example : "20".toList.length ≤ 5 ∧ "20".toList ++ padDigits 2 20 ++ ['/'] ++ padDigits 2 11 ++ ['/'] ++ padDigits 2 17 = "2020/11/17".toList := by
  decide +kernel

/-! ## C162 position records -/

section Rows
variable {K : Type} [Field K] [LinearOrder K]

/-- What C162 asks for: a log whose times increase is read completely. -/
def C162_full : Prop := ∀ rows : List (ℚ × Nat), rows ≠ [] → rows.Pairwise (fun a b => a.1 < b.1) → shipFile (rows.map some) = .ok rows

/-- C162 fails: the first record of every file is discarded. -/
theorem C162_first_lost_false : ¬ C162_full := by
  intro h
  have := h [(1, 0)] (by simp) (by simp)
  simp [shipFile, laterRows] at this

omit [Field K] in
private theorem later_spec {α : Type} : ∀ (rows : List (Option (K × α))) (current : K),
    (∀ r, r ∈ laterRows current rows ↔ ∃ p q, rows = p ++ some r :: q ∧ current < r.1 ∧ ∀ s, some s ∈ p → s.1 < r.1) ∧
      (laterRows current rows).Pairwise (fun a b => a.1 < b.1) ∧ (laterRows current rows).Sublist (rows.filterMap id) ∧
      ∀ r ∈ laterRows current rows, current < r.1
  | [], current => by simp [laterRows]
  | none :: rows, current => by
    obtain ⟨h1, h2, h3, h4⟩ := later_spec rows current
    rw [laterRows]
    refine ⟨fun r => ?_, h2, by simpa using h3, h4⟩
    rw [h1]
    constructor
    · rintro ⟨p, q, rfl, h5, h6⟩
      exact ⟨none :: p, q, rfl, h5, fun s hs => h6 s (by simpa using hs)⟩
    · rintro ⟨p, q, e, h5, h6⟩
      cases p with
      | nil => simp at e
      | cons x p =>
        simp only [List.cons_append, List.cons.injEq] at e
        exact ⟨p, q, e.2, h5, fun s hs => h6 s (List.mem_cons_of_mem _ hs)⟩
  | some x :: rows, current => by
    rw [laterRows]
    by_cases hx : x.1 > current
    · rw [if_pos hx]
      obtain ⟨h1, h2, h3, h4⟩ := later_spec rows x.1
      refine ⟨fun r => ?_, List.pairwise_cons.2 ⟨h4, h2⟩, by simpa using h3, ?_⟩
      · rw [List.mem_cons, h1]
        constructor
        · rintro (rfl | ⟨p, q, rfl, h5, h6⟩)
          · exact ⟨[], rows, rfl, hx, by simp⟩
          · refine ⟨some x :: p, q, rfl, lt_trans hx h5, fun s hs => ?_⟩
            rcases List.mem_cons.1 hs with e | hs
            · cases e; exact h5
            · exact h6 s hs
        · rintro ⟨p, q, e, h5, h6⟩
          cases p with
          | nil => simp at e; exact Or.inl e.1.symm
          | cons y p =>
            simp only [List.cons_append, List.cons.injEq] at e
            exact Or.inr ⟨p, q, e.2, h6 x (by rw [← e.1]; simp), fun s hs => h6 s (List.mem_cons_of_mem _ hs)⟩
      · intro r hr
        rcases List.mem_cons.1 hr with rfl | hr
        · exact hx
        · exact lt_trans hx (h4 r hr)
    · rw [if_neg hx]
      obtain ⟨h1, h2, h3, h4⟩ := later_spec rows current
      refine ⟨fun r => ?_, h2, (by simpa using h3.cons x), h4⟩
      rw [h1]
      constructor
      · rintro ⟨p, q, rfl, h5, h6⟩
        refine ⟨some x :: p, q, rfl, h5, fun s hs => ?_⟩
        rcases List.mem_cons.1 hs with e | hs
        · cases e; exact lt_of_le_of_lt (not_lt.1 hx) h5
        · exact h6 s hs
      · rintro ⟨p, q, e, h5, h6⟩
        cases p with
        | nil => simp at e; exact absurd h5 (by rw [← e.1]; exact hx)
        | cons y p =>
          simp only [List.cons_append, List.cons.injEq] at e
          exact ⟨p, q, e.2, h5, fun s hs => h6 s (List.mem_cons_of_mem _ hs)⟩

omit [Field K] in
/-- C162 (partial): of a file exactly the records after the first that are later than all records before them are kept, in order, so that
times increase. Missing: the first record of the file. -/
theorem C162_kept_iff_partial {α : Type} (first : K × α) (rest : List (Option (K × α))) :
    ∃ out, shipFile (some first :: rest) = .ok out ∧ out.Pairwise (fun a b => a.1 < b.1) ∧ out.Sublist (rest.filterMap id) ∧
      ∀ r, r ∈ out ↔ ∃ p q, rest = p ++ some r :: q ∧ first.1 < r.1 ∧ ∀ s, some s ∈ p → s.1 < r.1 := by
  have e : laterRows first.1 (some first :: rest) = laterRows first.1 rest := by
    rw [laterRows, if_neg (lt_irrefl _)]
  obtain ⟨h1, h2, h3, -⟩ := later_spec rest first.1
  exact ⟨_, by rw [shipFile, e], h2, h3, h1⟩

omit [Field K] in
/-- C162: a log whose times increase loses its first record and nothing else. -/
theorem C162_increasing {α : Type} (first : K × α) (rest : List (K × α)) (h : (first :: rest).Pairwise fun a b => a.1 < b.1) :
    shipFile ((first :: rest).map some) = .ok rest := by
  have : ∀ (l : List (K × α)) (c : K), (∀ r ∈ l, c < r.1) → l.Pairwise (fun a b => a.1 < b.1) → laterRows c (l.map some) = l := by
    intro l
    induction l with
    | nil => intros; rfl
    | cons x l ih =>
      intro c h1 h2
      rw [List.pairwise_cons] at h2
      rw [List.map_cons, laterRows, if_pos (h1 x (by simp)), ih x.1 h2.1 h2.2]
  rw [List.pairwise_cons] at h
  rw [List.map_cons, shipFile, laterRows, if_neg (lt_irrefl _), this rest first.1 h.1 h.2]

omit [Field K] in
private theorem mapM_shipFile {α : Type} : ∀ (files : List (List (Option (K × α)))) (vs : List (List (K × α))),
    files.mapM shipFile = .ok vs → List.Forall₂ (fun f v => shipFile f = .ok v) files vs
  | [], vs, h => by simp [pure, Except.pure] at h; simp [h]
  | f :: files, vs, h => by
    rw [List.mapM_cons] at h
    cases hf : shipFile f with
    | error e => simp [hf, bind, Except.bind] at h
    | ok v =>
      cases hr : files.mapM shipFile with
      | error e => simp [hf, hr, bind, Except.bind] at h
      | ok ws =>
        simp [hf, hr, bind, Except.bind, pure, Except.pure] at h
        rw [← h]
        exact .cons hf (mapM_shipFile files ws hr)

omit [Field K] in
/-- C162: the records of all files are merged in order of time; none is lost or invented in merging. -/
theorem C162_merged {α : Type} (files : List (List (Option (K × α)))) (out : List (K × α)) (h : shipRecords files = .ok out) :
    out.Pairwise (fun a b => a.1 ≤ b.1) ∧
      ∃ vs, List.Forall₂ (fun f v => shipFile f = .ok v) files vs ∧ out.Perm vs.flatten := by
  rw [shipRecords] at h
  cases hm : files.mapM shipFile with
  | error e => simp [hm, bind, Except.bind] at h
  | ok vs =>
    simp only [hm, bind, Except.bind, Except.ok.injEq] at h
    subst h
    have : Std.Total (fun a b : K × α => a.1 ≤ b.1) := ⟨fun a b => le_total a.1 b.1⟩
    have : IsTrans (K × α) (fun a b : K × α => a.1 ≤ b.1) := ⟨fun a b c h1 h2 => le_trans h1 h2⟩
    exact ⟨List.pairwise_insertionSort _ _, vs, mapM_shipFile files vs hm, List.perm_insertionSort _ _⟩

example : shipFile [some ((10 : ℚ), "a"), some (11, "b"), none, some (5, "c"), some (12, "d")] = .ok [(11, "b"), (12, "d")] := by
  simp [shipFile, laterRows]; norm_num

example : (shipRecords [[some ((10 : ℚ), "a"), some (14, "b")], [some (3, "c"), some (12, "d"), some (13, "e")]]).toOption =
    some [(12, "d"), (13, "e"), (14, "b")] := by decide +kernel

/-! ## C163 position files -/

/-- The file is one of the position logs: a `.csv` file whose name does not end in FIX. -/
def IsPositionLog (stem : List Char) : Prop := stem ≠ [] ∧ ∀ p, stem ≠ p ++ "FIX".toList

/-- What C163 asks for: exactly the position logs are read. -/
def C163_full : Prop := ∀ stem : List Char, positionFile (stem ++ ".csv".toList) = true ↔ IsPositionLog stem

private theorem positionFile_stem (stem : List Char) :
    positionFile (stem ++ ".csv".toList) = (stem.getLast?).any fun c => c ≠ 'F' ∧ c ≠ 'I' ∧ c ≠ 'X' := by
  have hl : (stem ++ ".csv".toList).length - 4 = stem.length := by simp
  rw [positionFile, hl, List.drop_left' rfl, List.take_left' rfl]
  simp

/-- C163 fails: logs whose name ends in one of the letters F, I, X are not read. -/
theorem C163_files_false : ¬ C163_full := by
  intro h
  have := (h "DIVE1F".toList).2 ⟨by simp, fun p e => by
    have := congrArg List.getLast? e
    rw [List.getLast?_append] at this
    simp at this⟩
  revert this
  decide +kernel

/-- C163 (partial): every log whose name does not end in F, I or X is read, and no file whose name ends in FIX. Missing: logs with names ending in F, I
or X. -/
theorem C163_files_partial (stem : List Char) (c : Char) :
    (c ≠ 'F' → c ≠ 'I' → c ≠ 'X' → positionFile (stem ++ [c] ++ ".csv".toList) = true) ∧
      positionFile (stem ++ "FIX".toList ++ ".csv".toList) = false := by
  refine ⟨fun h1 h2 h3 => ?_, ?_⟩
  · rw [positionFile_stem]; simp [h1, h2, h3]
  · rw [positionFile_stem, List.getLast?_append]; simp

example : positionFile "20201117.csv".toList = true ∧ positionFile "20201117_FIX.csv".toList = false := by decide +kernel

/-! ## C164 images -/

omit [Field K] in
private theorem koyoSeek_spec (ts : List K) (q : K) (i : Nat) (hi : i < ts.length) (hl : ∃ t ∈ ts.getLast?, q ≤ t) :
    i ≤ koyoSeek ts q i ∧ koyoSeek ts q i < ts.length ∧ (∀ (k : ℕ) s, i ≤ k → k < koyoSeek ts q i → ts[k]? = some s → s < q) ∧
      ∀ s, ts[koyoSeek ts q i]? = some s → q ≤ s := by
  have h := Seek.seekIdx_spec ts.length (fun m => (ts[m]?).any fun t => t < q) ts.length i (by omega)
  rw [show seekIdx ts.length (fun m => (ts[m]?).any fun t => t < q) ts.length i = koyoSeek ts q i from rfl] at h
  obtain ⟨h1, h2, h3, h4⟩ := h
  have hlt : koyoSeek ts q i < ts.length := by
    by_contra hc
    obtain ⟨t, ht, hq⟩ := hl
    rw [Option.mem_def, List.getLast?_eq_getElem?] at ht
    have := h3 (ts.length - 1) (by omega) (by omega)
    simp only [ht, Option.any_some, decide_eq_true_eq] at this
    exact absurd this (not_lt.2 hq)
  refine ⟨h1, hlt, fun k s ha hb hs => ?_, fun s hs => ?_⟩
  · have := h3 k ha hb
    simpa [hs] using this
  · have := h4 hlt
    simpa [hs] using this

private theorem koyo_value [IsStrictOrderedRing K] (recs : List (K × K)) (f l : K × K) (hf : recs.head? = some f) (hl : recs.getLast? = some l)
    (hfl : f.1 < l.1) (q : K) (hq : f.1 ≤ q) (j : Nat) (b : K × K) (hb : recs[j]? = some b) (hqb : q ≤ b.1)
    (hbefore : ∀ (k : ℕ) s, k < j → recs[k]? = some s → s.1 < q) : ∃ y, koyoValue recs q j = some y ∧ ValueAt recs q y := by
  cases j with
  | zero =>
    have e : b = f := by
      rw [List.head?_eq_getElem?] at hf; rw [hf] at hb; exact (Option.some.inj hb).symm
    subst e
    have hq0 : q = b.1 := le_antisymm hqb hq
    have g : pyGet recs (((0 : Nat) : Int) - 1) = .ok l := by
      simpa using Seek.pyGet_last recs l hl
    refine ⟨interpolate q l.1 b.1 l.2 b.2, by simp only [koyoValue, g, hb], Or.inr ⟨b, hb, hq0.symm, ?_⟩⟩
    have hne : ¬ b.1 = l.1 := ne_of_lt hfl
    have hd : b.1 - l.1 ≠ 0 := sub_ne_zero.2 hne
    rw [interpolate, if_neg hne, hq0]
    field_simp
    ring
  | succ k =>
    have hk : k < recs.length := by have := (List.getElem?_eq_some_iff.1 hb).1; omega
    have ha : recs[k]? = some recs[k] := List.getElem?_eq_getElem hk
    generalize recs[k] = a at ha
    have haq := hbefore k a (by omega) ha
    have g : pyGet recs (((k + 1 : Nat) : Int) - 1) = .ok a := by
      have : ((k + 1 : Nat) : Int) - 1 = (k : Int) := by omega
      rw [this]; exact Seek.pyGet_nat recs k a ha
    refine ⟨interpolate q a.1 b.1 a.2 b.2, by simp only [koyoValue, g, hb], Or.inl ⟨k, a, b, ha, hb, haq, hqb, ?_⟩⟩
    exact Seek.interp_onLine q a.1 b.1 a.2 b.2 (lt_of_lt_of_le haq hqb)

theorem koyo_loop [IsStrictOrderedRing K] (recs : List (K × K)) (f l : K × K) (hf : recs.head? = some f) (hl : recs.getLast? = some l)
    (hfl : f.1 < l.1) : ∀ (qs : List K) (i : Nat), qs.Pairwise (· ≤ ·) → i < recs.length →
      (∀ q ∈ qs, ∀ (k : ℕ) s, k < i → recs[k]? = some s → s.1 < q) →
      List.Forall₂ (fun q o => (q < f.1 ∨ l.1 < q → o = none) ∧
        (f.1 ≤ q → q ≤ l.1 → ∃ j y, o = some j ∧ koyoValue recs q j = some y ∧ ValueAt recs q y)) qs
        (koyoLoop (recs.map Prod.fst) f.1 l.1 i qs)
  | [], _, _, _, _ => by simp [koyoLoop]
  | q :: qs, i, hs, hi, hb => by
    rw [List.pairwise_cons] at hs
    rw [koyoLoop]
    by_cases h1 : q > l.1
    · rw [if_pos h1]
      refine .cons ⟨fun _ => rfl, fun _ h => absurd h (not_le.2 h1)⟩ ?_
      have : ∀ xs : List K, (∀ x ∈ xs, q ≤ x) → List.Forall₂ (fun q o => (q < f.1 ∨ l.1 < q → o = none) ∧
          (f.1 ≤ q → q ≤ l.1 → ∃ j y, o = some j ∧ koyoValue recs q j = some y ∧ ValueAt recs q y)) xs (xs.map fun _ => (none : Option Nat)) := by
        intro xs
        induction xs with
        | nil => intro _; exact .nil
        | cons x xs ih =>
          intro h
          exact .cons ⟨fun _ => rfl, fun _ h' => absurd h' (not_le.2 (lt_of_lt_of_le h1 (h x (by simp))))⟩
            (ih fun y hy => h y (List.mem_cons_of_mem _ hy))
      exact this qs hs.1
    · rw [if_neg h1]
      by_cases h2 : q < f.1
      · rw [if_pos h2]
        exact .cons ⟨fun _ => rfl, fun h => absurd h (not_le.2 h2)⟩
          (koyo_loop recs f l hf hl hfl qs i hs.2 hi fun x hx => hb x (List.mem_cons_of_mem _ hx))
      · rw [if_neg h2]
        have hle : ∃ t ∈ (recs.map Prod.fst).getLast?, q ≤ t := ⟨l.1, by simp [List.getLast?_map, hl], not_lt.1 h1⟩
        obtain ⟨s1, s2, s3, s4⟩ := koyoSeek_spec (recs.map Prod.fst) q i (by simpa using hi) hle
        generalize koyoSeek (recs.map Prod.fst) q i = j at s1 s2 s3 s4
        rw [List.length_map] at s2
        have before : ∀ (k : ℕ) s, k < j → recs[k]? = some s → s.1 < q := by
          intro k s hk he
          rcases Nat.lt_or_ge k i with h | h
          · exact hb q (by simp) k s h he
          · exact s3 k s.1 h hk (by simp [he])
        have hbj : recs[j]? = some recs[j] := List.getElem?_eq_getElem s2
        refine .cons ⟨fun h => ?_, fun ha hc => ?_⟩ (koyo_loop recs f l hf hl hfl qs j hs.2 s2 fun x hx k s hk he =>
          lt_of_lt_of_le (before k s hk he) (hs.1 x hx))
        · rcases h with h | h
          · exact absurd h h2
          · exact absurd h h1
        · obtain ⟨y, e1, e2⟩ := koyo_value recs f l hf hl hfl q ha j recs[j] hbj (s4 _ (by simp [hbj])) before
          exact ⟨j, y, rfl, e1, e2⟩

/-- C164 (partial): for images in order of time, an image taken while the log runs gets the value between the two records around it, and
all others get none. Missing: headings, see `C164_heading_false`. -/
theorem C164_values_partial [IsStrictOrderedRing K] (recs : List (K × K)) (f l : K × K) (hf : recs.head? = some f) (hl : recs.getLast? = some l)
    (hfl : f.1 < l.1) (qs : List K) (hs : qs.Pairwise (· ≤ ·)) :
    ∃ vs, koyoImages recs qs = .ok vs ∧ List.Forall₂ (fun q v => (q < f.1 ∨ l.1 < q → v = none) ∧
      (f.1 ≤ q → q ≤ l.1 → ∃ y, v = some y ∧ ValueAt recs q y)) qs vs := by
  have hpos : 0 < recs.length := by
    cases recs with
    | nil => simp at hf
    | cons a r => simp
  have h := koyo_loop recs f l hf hl hfl qs 0 hs hpos (by intro _ _ k s hk; omega)
  refine ⟨(qs.zip (koyoLoop (recs.map Prod.fst) f.1 l.1 0 qs)).map fun p => p.2.bind (koyoValue recs p.1), by simp only [koyoImages, hf, hl], ?_⟩
  rw [List.forall₂_iff_zip] at h ⊢
  refine ⟨by simp [h.1], fun {q v} hz => ?_⟩
  rw [List.zip_map_right, List.mem_map] at hz
  obtain ⟨⟨q', ⟨q'', o⟩⟩, hm, he⟩ := hz
  simp only [Prod.map, id_eq, Prod.mk.injEq] at he
  have : q'' = q' ∧ (q', o) ∈ qs.zip (koyoLoop (recs.map Prod.fst) f.1 l.1 0 qs) := by
    have key : ∀ (xs : List K) (os : List (Option Nat)), (q', (q'', o)) ∈ xs.zip (xs.zip os) → q'' = q' ∧ (q', o) ∈ xs.zip os := by
      intro xs
      induction xs with
      | nil => simp
      | cons x xs ih =>
        intro os
        cases os with
        | nil => simp
        | cons p os =>
          simp only [List.zip_cons_cons, List.mem_cons, Prod.mk.injEq]
          rintro (⟨rfl, rfl, rfl⟩ | h)
          · exact ⟨rfl, Or.inl ⟨rfl, rfl⟩⟩
          · exact ⟨(ih os h).1, Or.inr (ih os h).2⟩
    exact key _ _ hm
  obtain ⟨rfl, hm'⟩ := this
  obtain ⟨rfl, rfl⟩ := he
  obtain ⟨h1, h2⟩ := h.2 hm'
  refine ⟨fun hc => by simp [h1 hc], fun ha hc => ?_⟩
  obtain ⟨j, y, rfl, e1, e2⟩ := h2 ha hc
  exact ⟨y, by simp [e1], e2⟩

/-- C164 fails for headings: half way between 359 and 1 degrees the image gets 180 degrees. -/
theorem C164_heading_false : (koyoImages [((0 : ℚ), 359), (2, 1)] [1]).toOption = some [some 180] := by decide +kernel

omit [Field K] [LinearOrder K] in
/-- C164: exactly the images with both a position and a heading are kept, in order, with their values. -/
theorem C164_kept {α : Type} (images : List (α × Option K × Option K)) :
    (∀ a lat h, (a, lat, h) ∈ koyoKept images ↔ (a, some lat, some h) ∈ images) ∧
      ((koyoKept images).map Prod.fst).Sublist (images.map Prod.fst) := by
  constructor
  · intro a lat h
    rw [koyoKept, List.mem_filterMap]
    constructor
    · rintro ⟨⟨b, x, y⟩, hm, e⟩
      cases x <;> cases y <;> simp at e
      obtain ⟨rfl, rfl, rfl⟩ := e
      exact hm
    · intro hm
      exact ⟨_, hm, by simp⟩
  · induction images with
    | nil => simp [koyoKept]
    | cons i images ih =>
      obtain ⟨b, x, y⟩ := i
      rw [koyoKept] at ih ⊢
      cases x <;> cases y <;> simp only [List.filterMap_cons, Option.bind_none, Option.bind_some, Option.map_none, Option.map_some, List.map_cons]
      · exact ih.cons _
      · exact ih.cons _
      · exact ih.cons _
      · exact ih.cons_cons _

example : (koyoImages [((0 : ℚ), 4), (2, 8), (3, 8), (5, 0)] [-1, 0, 1, 2, 4, 5, 6]).toOption =
    some [none, some 4, some 6, some 8, some 4, some 0, none] := by decide +kernel

/-! ## C165 outputs -/

/-- What C165 asks for: the outputs of the cameras are written whenever there are camera images with a pose. -/
def C165_full : Prop := ∀ laser camera laserKept cameraKept : Nat, laserKept ≤ laser → cameraKept ≤ camera → 0 < cameraKept →
  koyoFinish laser camera laserKept cameraKept = .ok ()

/-- C165 fails: without laser images with a pose nothing is written. -/
theorem C165_no_laser_false : ¬ C165_full := by
  intro h
  have := h 0 1 0 1 (by omega) (by omega) (by omega)
  simp [koyoFinish, progressAfter, bind, Except.bind] at this

/-- C165 (partial): the outputs are written exactly when there are laser images with a pose and camera images with a pose.
Missing: dives in which one kind has none. -/
theorem C165_written_iff_partial (laser camera laserKept cameraKept : Nat) (h1 : laserKept ≤ laser) (h2 : cameraKept ≤ camera) :
    koyoFinish laser camera laserKept cameraKept = .ok () ↔ 0 < laserKept ∧ 0 < cameraKept := by
  simp only [koyoFinish, progressAfter, bind, Except.bind]
  by_cases a : laser = 0
  · simp [a]; omega
  · by_cases b : camera = 0
    · simp [a, b]; omega
    · by_cases c : laserKept = 0
      · simp [a, b, c]
      · by_cases d : cameraKept = 0
        · simp [a, b, c, d]
        · simp [a, b, c, d]; omega

private theorem padDigits_inj : ∀ (w a b : Nat), a < 10 ^ w → b < 10 ^ w → padDigits w a = padDigits w b → a = b
  | 0, a, b, ha, hb, _ => by simp at ha hb; omega
  | w + 1, a, b, ha, hb, h => by
    have h1 := pyInt_padDigits (w + 1) a (by omega) ha
    have h2 := pyInt_padDigits (w + 1) b (by omega) hb
    rw [h, h2] at h1
    exact (Except.ok.inj h1).symm

/-- C165: different images have different paths, for indices of up to seven digits. -/
theorem C165_paths_distinct (a b : Nat) (ha : a < 10 ^ 7) (hb : b < 10 ^ 7) :
    (laserImagePath a = laserImagePath b → a = b) ∧ (cameraImagePath a = cameraImagePath b → a = b) := by
  constructor
  · intro h
    simp only [laserImagePath, List.append_assoc] at h
    have hl : ∀ n, (slice (padDigits 7 n) 1 4).length = 3 := by
      intro n; simp [slice, padDigits_length]
    have h1 := List.append_cancel_left h
    have h2 := List.append_inj_right h1 (by rw [hl, hl])
    have h3 := List.append_cancel_left h2
    exact padDigits_inj 7 a b ha hb (List.append_cancel_right h3)
  · intro h
    simp only [cameraImagePath, List.append_assoc] at h
    exact padDigits_inj 7 a b ha hb (List.append_cancel_right (List.append_cancel_left h))

/-- C165: the laser images are looked for in folders of a thousand. -/
theorem C165_laser_folder (index : Nat) (h : index < 10 ^ 6) :
    laserImagePath index = ['/'] ++ padDigits 3 (index / 1000) ++ "/image".toList ++ padDigits 7 index ++ ".tif".toList := by
  have e : padDigits 7 index = ['0'] ++ padDigits 3 (index / 1000) ++ padDigits 3 (index % 1000) := by
    have h1 := padDigits_join 4 3 (index / 1000) (index % 1000) (by omega)
    have h2 := padDigits_join 1 3 0 (index / 1000) (by omega)
    rw [show index / 1000 * 10 ^ 3 + index % 1000 = index by omega] at h1
    rw [show 0 * 10 ^ 3 + index / 1000 = index / 1000 by omega] at h2
    rw [h1, h2]
    rfl
  have s : slice (padDigits 7 index) 1 4 = padDigits 3 (index / 1000) := by
    rw [e, List.append_assoc]
    exact koy_slice ['0'] _ _ 1 4 rfl (by simp [padDigits_length])
  rw [laserImagePath, s]

example : laserImagePath 12345 = "/012/image0012345.tif".toList ∧ cameraImagePath 12345 = "/0012345.raw".toList := by decide +kernel

end Rows

/-! ## C166 lever arms -/

/-- C166: the pose of a camera is that of the dvl moved by the lever arm, turned by the attitude; the altitude goes down by what the depth
goes up, and the attitude stays. -/
theorem C166_moved (target depthSensor dvl : V3 ℝ) (p : RovPose) :
    let q := addLeverArms target depthSensor dvl p
    let arm := bodyToInertial p.roll p.pitch p.heading (armBetween target dvl)
    q.northing - p.northing = arm.x ∧ q.easting - p.easting = arm.y ∧ p.altitude - q.altitude = arm.z ∧
      q.depth - p.depth = (bodyToInertial p.roll p.pitch p.heading (armBetween target depthSensor)).z ∧
      q.roll = p.roll ∧ q.pitch = p.pitch ∧ q.heading = p.heading := by
  simp only [addLeverArms]
  refine ⟨?_, ?_, ?_, ?_, trivial, trivial, trivial⟩ <;> ring

/-- C166: depth of the sea floor: the sum of depth and altitude is the same for every camera of the vehicle. -/
theorem C166_seafloor (a b depthSensor dvl : V3 ℝ) (p : RovPose) :
    (addLeverArms a depthSensor dvl p).depth + (addLeverArms a depthSensor dvl p).altitude =
      (addLeverArms b depthSensor dvl p).depth + (addLeverArms b depthSensor dvl p).altitude := by
  simp only [addLeverArms, bodyToInertial, armBetween]
  ring

/-- C166: two cameras are as far apart in the output as on the vehicle. -/
theorem C166_rigid (a b depthSensor dvl : V3 ℝ) (p : RovPose) :
    let qa := addLeverArms a depthSensor dvl p
    let qb := addLeverArms b depthSensor dvl p
    (qa.northing - qb.northing) ^ 2 + (qa.easting - qb.easting) ^ 2 + (qa.depth - qb.depth) ^ 2 =
      (a.x - b.x) ^ 2 + (a.y - b.y) ^ 2 + (a.z - b.z) ^ 2 := by
  intro qa qb
  have hx : qa.northing - qb.northing = (bodyToInertial p.roll p.pitch p.heading (armBetween a b)).x := by
    simp only [qa, qb, addLeverArms, bodyToInertial, armBetween]; ring
  have hy : qa.easting - qb.easting = (bodyToInertial p.roll p.pitch p.heading (armBetween a b)).y := by
    simp only [qa, qb, addLeverArms, bodyToInertial, armBetween]; ring
  have hz : qa.depth - qb.depth = (bodyToInertial p.roll p.pitch p.heading (armBetween a b)).z := by
    simp only [qa, qb, addLeverArms, bodyToInertial, armBetween]; ring
  have h := C01_preserves_dot p.roll p.pitch p.heading (armBetween a b) (armBetween a b)
  rw [hx, hy, hz]
  simp only [Spec.dot, armBetween] at h ⊢
  linear_combination h

/-- C166: the laser images are given at the dvl: their position and altitude stay, their depth becomes that of the dvl. -/
theorem C166_laser_at_dvl (depthSensor dvl : V3 ℝ) (p : RovPose) :
    let q := addLeverArms dvl depthSensor dvl p
    q.northing = p.northing ∧ q.easting = p.easting ∧ q.altitude = p.altitude := by
  simp only [addLeverArms, bodyToInertial, armBetween]
  refine ⟨?_, ?_, ?_⟩ <;> ring

/-- C166: on a level vehicle heading north, a camera `(1, 2, 3)` from the dvl is 1 m north, 2 m east and 3 m below it. -/
example : (addLeverArms ⟨1, 2, 3⟩ ⟨0, 0, 0⟩ ⟨0, 0, 0⟩ ⟨10, 20, 30, 5, 0, 0, 0⟩).northing = 11 ∧
    (addLeverArms ⟨1, 2, 3⟩ ⟨0, 0, 0⟩ ⟨0, 0, 0⟩ ⟨10, 20, 30, 5, 0, 0, 0⟩).depth = 33 ∧
    (addLeverArms ⟨1, 2, 3⟩ ⟨0, 0, 0⟩ ⟨0, 0, 0⟩ ⟨10, 20, 30, 5, 0, 0, 0⟩).altitude = 2 := by
  simp only [addLeverArms, armBetween, C01_identity]
  norm_num

/-! ## C167 records of 2021 -/

/-- What C167 asks for: when no two rows have the same time, every row with values gives a record. -/
def C167_full : Prop := ∀ rows : List (ℚ × Option Nat), (∀ r ∈ rows, 0 < r.1) → (rows.map Prod.fst).Nodup →
  koyo21Records rows = .ok (rows.filterMap fun r => r.2.map fun v => (r.1, v))

/-- C167 fails: a row that is earlier than the one before it replaces it. -/
theorem C167_out_of_order_false : ¬ C167_full := by
  intro h
  have := congrArg Except.toOption (h [(8, some 0), (10, some 1), (5, some 2)] (by decide +kernel) (by decide +kernel))
  revert this
  decide +kernel

/-- C167 (partial): of rows in order of time, exactly the last row with values of each time gives a record, in order of time.
Missing: rows that are not in order. -/
theorem C167_in_order_partial {K α : Type} [Field K] [LinearOrder K] [IsStrictOrderedRing K] (rows : List (K × Option α)) (hp : ∀ r ∈ rows, 0 < r.1)
    (hs : rows.Pairwise fun a b => a.1 ≤ b.1) :
    ∃ out, koyo21Records rows = .ok out ∧ out.Pairwise (fun a b => a.1 < b.1) ∧
      (∀ t v, (t, v) ∈ out ↔ ∃ p q, rows = p ++ (t, some v) :: q ∧ ∀ r ∈ q, r.2 ≠ none → r.1 ≠ t) ∧
      ∀ t v, (t, some v) ∈ rows → ∃ w, (t, w) ∈ out := by
  have hmem : ∀ (l : List (K × Option α)) t v, (t, v) ∈ l.filterMap (fun r => r.2.map fun v => (r.1, v)) ↔ (t, some v) ∈ l := by
    intro l t v
    rw [List.mem_filterMap]
    constructor
    · rintro ⟨⟨a, o⟩, hm, e⟩
      cases o with
      | none => simp at e
      | some x => simp at e; obtain ⟨rfl, rfl⟩ := e; exact hm
    · intro hm; exact ⟨_, hm, rfl⟩
  have hsplit : ∀ (l : List (K × Option α)) t v p q, l.filterMap (fun r => r.2.map fun v => (r.1, v)) = p ++ (t, v) :: q →
      ∃ p' q', l = p' ++ (t, some v) :: q' ∧ q'.filterMap (fun r => r.2.map fun v => (r.1, v)) = q := by
    intro l
    induction l with
    | nil => intro t v p q h; simp at h
    | cons x l ih =>
      intro t v p q h
      obtain ⟨a, o⟩ := x
      cases o with
      | none =>
        simp only [List.filterMap_cons, Option.map_none] at h
        obtain ⟨p', q', rfl, e⟩ := ih t v p q h
        exact ⟨(a, none) :: p', q', rfl, e⟩
      | some y =>
        simp only [List.filterMap_cons, Option.map_some] at h
        cases p with
        | nil =>
          simp only [List.nil_append, List.cons.injEq, Prod.mk.injEq] at h
          obtain ⟨⟨rfl, rfl⟩, e⟩ := h
          exact ⟨[], l, rfl, e⟩
        | cons z p =>
          simp only [List.cons_append, List.cons.injEq] at h
          obtain ⟨p', q', rfl, e⟩ := ih t v p q h.2
          exact ⟨(a, some y) :: p', q', rfl, e⟩
  obtain ⟨out, h1, h2, h3, h4⟩ := C23_last_of_each_time (rows.filterMap fun r => r.2.map fun v => (r.1, v))
    (by rintro ⟨t, v⟩ hr; exact hp _ ((hmem rows t v).1 hr))
    (by
      rw [List.pairwise_filterMap]
      refine hs.imp ?_
      rintro ⟨a, x⟩ ⟨b, y⟩ hab c hc d hd
      cases x <;> cases y <;> simp at hc hd
      rw [← hc, ← hd]; exact hab)
  refine ⟨out, h1, h2, fun t v => ?_, fun t v hm => ?_⟩
  · rw [h3]
    constructor
    · rintro ⟨p, q, e, hq⟩
      obtain ⟨p', q', rfl, rfl⟩ := hsplit rows t v p q e
      refine ⟨p', q', rfl, ?_⟩
      rintro ⟨a, o⟩ hr ho
      cases o with
      | none => exact absurd rfl ho
      | some y => exact hq (a, y) ((hmem q' a y).2 hr)
    · rintro ⟨p, q, rfl, hq⟩
      refine ⟨p.filterMap fun r => r.2.map fun v => (r.1, v), q.filterMap fun r => r.2.map fun v => (r.1, v), by simp, ?_⟩
      rintro ⟨a, y⟩ hr
      exact hq (a, some y) ((hmem q a y).1 hr) (by simp)
  · obtain ⟨⟨a, w⟩, hz, e⟩ := h4 (t, v) ((hmem rows t v).2 hm)
    simp only at e
    exact ⟨w, by rw [← e]; exact hz⟩

/-- C167: a log whose first row with values has no positive time stops the parser. -/
theorem C167_bad_first_time {K α : Type} [Field K] [LinearOrder K] (t : K) (v : α) (rows : List (K × Option α)) (h : t ≤ 0) :
    koyo21Records ((t, some v) :: rows) = .error .indexError := by
  simp [koyo21Records, dedupe, not_lt.2 h]

example : (koyo21Records [((3 : ℚ), some 'a'), (4, none), (4, some 'b'), (4, some 'c'), (6, none)]).toOption = some [(3, 'a'), (4, 'c')] := by
  decide +kernel

end Oplab.Props
