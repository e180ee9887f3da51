import Verif.Model.Sonardyne
import Verif.Lemmas.Digits

/-! Lemmas about splitting and slicing texts, and about the digits of dates. -/

namespace Oplab.Props
open Oplab

theorem splitSep_ne (sep : Char → Bool) : ∀ l, splitAtSep sep l ≠ []
  | [] => by simp [splitAtSep]
  | c :: cs => by
    rw [splitAtSep]; split <;> simp

theorem splitSep_append (sep : Char → Bool) (c : Char) (hc : sep c = true) (rest : List Char) :
    ∀ f, splitAtSep sep (f ++ c :: rest) = splitAtSep sep f ++ splitAtSep sep rest
  | [] => by simp [splitAtSep, hc]
  | d :: f => by
    have ih := splitSep_append sep c hc rest f
    rw [List.cons_append, splitAtSep, splitAtSep, ih]
    by_cases h : sep d = true
    · rw [if_pos h, if_pos h]; rfl
    · rw [if_neg h, if_neg h]
      obtain ⟨a, as, e⟩ := List.exists_cons_of_ne_nil (splitSep_ne sep f)
      rw [e]; rfl

theorem splitSep_none (sep : Char → Bool) : ∀ f, (∀ c ∈ f, sep c = false) → splitAtSep sep f = [f]
  | [], _ => rfl
  | d :: f, h => by
    have ih := splitSep_none sep f fun c hc => h c (List.mem_cons_of_mem _ hc)
    have hd : ¬ sep d = true := by rw [h d (by simp)]; simp
    rw [splitAtSep, if_neg hd, ih]; rfl

/-- Digits do not contain a separator that is not a digit. -/
theorem digits_noSep (sep : Char → Bool) (hs : ∀ c, sep c = true → c.isDigit = false) (w n : ℕ) :
    ∀ c ∈ padDigits w n, sep c = false := by
  intro c hc
  have := List.all_eq_true.mp (padDigits_all w n) c hc
  by_contra hn
  rw [Bool.not_eq_false] at hn
  rw [hs c hn] at this
  cases this

theorem pyGet_of_getElem? {α : Type} (l : List α) (i : Nat) (a : α) (h : l[i]? = some a) : pyGet l (i : Int) = .ok a := by
  unfold pyGet
  have : ¬ ((i : Int) < 0) := by omega
  simp only [this, if_false, Int.toNat_natCast, h]

theorem validDate_digits (c : DateTime) (h : c.ok = true) : c.year < 10 ^ 4 ∧ c.month < 10 ^ 2 ∧ c.day < 10 ^ 2 ∧ c.hour < 10 ^ 2 ∧
    c.minute < 10 ^ 2 ∧ c.second < 10 ^ 2 := by
  simp only [DateTime.ok, decide_eq_true_eq] at h
  obtain ⟨-, h2, -, h4, -, h6, h7, h8, h9, -⟩ := h
  have : daysInMonth c.year c.month ≤ 31 := by
    unfold daysInMonth; split <;> (try split) <;> omega
  omega

/-- A part of a text between its prefix and its rest. -/
theorem slice_between (pre mid post : List Char) (a b : Nat) (ha : pre.length = a) (hb : a + mid.length = b) :
    slice (pre ++ (mid ++ post)) a b = mid := by
  subst ha hb
  rw [slice, ← List.append_assoc, List.take_left' (by simp), List.drop_left]

/-- A text that neither starts nor ends with a blank. -/
theorem stripBlanks_id (s : List Char) (h1 : ∀ c ∈ s.head?, isBlank c = false) (h2 : ∀ c ∈ s.getLast?, isBlank c = false) :
    stripBlanks s = s := by
  have e1 : s.dropWhile isBlank = s := by
    cases s with
    | nil => rfl
    | cons c s => rw [List.dropWhile_cons_of_neg]; simpa using h1 c (by simp)
  unfold stripBlanks
  rw [e1]
  have e2 : s.reverse.dropWhile isBlank = s.reverse := by
    rw [← List.head?_reverse] at h2
    cases hr : s.reverse with
    | nil => rfl
    | cons c l => rw [List.dropWhile_cons_of_neg]; simpa using h2 c (by simp [hr])
  rw [e2, List.reverse_reverse]

/-- A line break at the end is removed. -/
theorem stripBlanks_line (s : List Char) (hs : s ≠ []) (h1 : ∀ c ∈ s.head?, isBlank c = false)
    (h2 : ∀ c ∈ s.getLast?, isBlank c = false) : stripBlanks (s ++ ['\n']) = s := by
  have := stripBlanks_id s h1 h2
  obtain ⟨c, t, rfl⟩ := List.exists_cons_of_ne_nil hs
  have hc : ¬ isBlank c = true := by simp [h1 c (by simp)]
  unfold stripBlanks at this ⊢
  rw [List.cons_append, List.dropWhile_cons_of_neg hc]
  rw [List.dropWhile_cons_of_neg hc] at this
  rw [← List.cons_append, List.reverse_append, List.reverse_singleton, List.singleton_append,
    List.dropWhile_cons_of_pos (by decide)]
  exact this

end Oplab.Props
