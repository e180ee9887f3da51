import Verif.Spec.Commands
import Mathlib.Tactic.SplitIfs
import Mathlib.Logic.Basic

/-!
# C214: the commands
-/

namespace Oplab.Props
open Oplab Oplab.Spec

variable {C : Type}

/-- C214: auv_cal runs the command it is asked for. -/
theorem C214_cal : RunsWhatIsAsked calMain := by
  intro parse prog words args c hne h
  obtain ⟨a, h1, h2, _⟩ := h
  unfold calMain
  unfold askedFor at h1 hne
  rw [if_neg, h1]
  · simp only [callFunc, h2]
  · rintro ⟨q1, q2⟩
    rw [Option.isNone_iff_eq_none] at q2
    subst q2
    have : words = [] := by simpa using q1
    subst this
    exact hne rfl

/-- C214 for auv_nav on the command line. -/
theorem C214_nav_partial (parse : List (List Char) → Res (ParsedArgs C)) (prog : List Char) (words : List (List Char)) (hw : words ≠ []) :
    navMain parse (prog :: words) none = match parse words with
      | .ok a => callFunc a
      | .error e => .failed e := by
  unfold navMain
  rw [if_neg]
  · rfl
  · simp [hw]

/-- C214: auv_nav called with arguments does not look at them: it runs what is on the command line. -/
theorem C214_nav_ignores (parse : List (List Char) → Res (ParsedArgs C)) (prog : List Char) (words l l' : List (List Char)) :
    navMain parse (prog :: words) (some l) = navMain parse (prog :: words) (some l') := rfl

/-- C214: without any words all three programs print their help. -/
theorem C214_bare (parse : List (List Char) → Res (ParsedArgs C)) (prog : List Char) :
    navMain parse [prog] none = .help ∧ calMain parse [prog] none = .help ∧ correctMain parse [prog] none = .help := by
  simp [navMain, calMain, correctMain]

private def echoParse (l : List (List Char)) : Res (ParsedArgs Nat) := .ok ⟨some l.length, []⟩

/-- C214 is false of auv_nav called with arguments. -/
theorem C214_nav_false : ¬ RunsWhatIsAsked navMain := by
  intro h
  have h1 := h echoParse [] [] (some [['p']]) 1 (by decide) ⟨_, rfl, rfl, rfl⟩
  have h2 : navMain echoParse [[]] (some [['p']]) = .ran 0 := rfl
  rw [h2] at h1
  cases h1

private def suffixList : List Char :=
  ['a', 'b', 'c', 'd', 'e', 'f', 'g', 'h', 'i', 'j', 'k', 'l', 'm', 'n', 'o', 'p', 'q', 'r', 's', 't',
    'u', 'v', 'w', 'x', 'y', 'z', 'A', 'B', 'C', 'D', 'E', 'F', 'G', 'H', 'I', 'J', 'K', 'L', 'M', 'N',
    'O', 'P', 'Q', 'R', 'S', 'T', 'U', 'V', 'W', 'X', 'Y', 'Z', '0', '1', '2', '3', '4', '5', '6', '7', '8', '9', '-', '_']

private theorem suffix_iff (c : Char) : suffixChar c = true ↔ c ∈ "abcdefghijklmnopqrstuvwxyzABCDEFGHIJKLMNOPQRSTUVWXYZ0123456789-_".toList := by
  have hl : "abcdefghijklmnopqrstuvwxyzABCDEFGHIJKLMNOPQRSTUVWXYZ0123456789-_".toList = suffixList := by decide +kernel
  rw [hl]
  constructor
  · intro h
    have hn : c.toNat < 123 := by
      simp only [suffixChar, Bool.or_eq_true, Bool.and_eq_true, decide_eq_true_eq, beq_iff_eq, Char.le_def, UInt32.le_iff_toNat_le] at h
      rcases h with (((h | h) | rfl) | rfl) | h
      · exact Nat.lt_succ_of_le h.2
      · exact Nat.lt_of_le_of_lt (Nat.le_trans h.2 (by decide)) (by decide : 100 < 123)
      · decide
      · decide
      · exact Nat.lt_of_le_of_lt (Nat.le_trans h.2 (by decide)) (by decide : 100 < 123)
    have key : ∀ n < 123, suffixChar (Char.ofNat n) = true → Char.ofNat n ∈ suffixList := by decide +kernel
    have := key c.toNat hn
    rw [Char.ofNat_toNat] at this
    exact this h
  · intro h
    have key : ∀ d ∈ suffixList, suffixChar d = true := by decide +kernel
    exact key c h

/-- C214 for correct_images on the command line with a subcommand: it runs the command exactly if the suffix is a good one. -/
theorem C214_correct_partial (parse : List (List Char) → Res (ParsedArgs C)) (prog : List Char) (words : List (List Char)) (hw : 2 ≤ words.length)
    (args : Option (List (List Char))) (a : ParsedArgs C) (c : C) (ha : parse words = .ok a) (hc : a.func = some c) :
    (correctMain parse (prog :: words) args = .ran c ↔ GoodSuffix a.suffix) ∧
    (¬ GoodSuffix a.suffix → correctMain parse (prog :: words) args = .badSuffix) := by
  have e : correctMain parse (prog :: words) args = if a.suffix.all suffixChar then .ran c else .badSuffix := by
    unfold correctMain
    rw [if_neg, if_neg, List.tail_cons, ha]
    · simp only [hc]
    · rintro ⟨q, -⟩
      rw [List.length_cons] at q
      omega
    · rintro ⟨q, -⟩
      rw [List.length_cons] at q
      omega
  have hs : a.suffix.all suffixChar = true ↔ GoodSuffix a.suffix := by
    unfold GoodSuffix
    rw [List.all_eq_true]
    exact forall₂_congr fun c _ => suffix_iff c
  rw [e]
  constructor
  · rw [← hs]
    by_cases q : a.suffix.all suffixChar = true
    · simp [q]
    · simp [q]
  · intro q
    rw [← hs] at q
    rw [if_neg q]

/-- C214 for correct_images with a single word: it is the path of a dive to correct, unless it is -h. -/
theorem C214_correct_single (parse : List (List Char) → Res (ParsedArgs C)) (prog p : List Char) (hp : p ≠ ['-', 'h'])
    (args : Option (List (List Char))) (a : ParsedArgs C) (c : C) (ha : parse ["correct".toList, p] = .ok a) (hc : a.func = some c) :
    correctMain parse [prog, p] args = .ran c := by
  unfold correctMain
  rw [if_neg (by simp), if_pos (by simp [hp])]
  simp only [List.getElem?_cons_succ, List.getElem?_cons_zero, Option.getD_some, ha, hc]

/-- C214: correct_images never runs a command with a bad suffix, if that of a path alone is empty. -/
theorem C214_suffix (parse : List (List Char) → Res (ParsedArgs C)) (hd : ∀ p a, parse ["correct".toList, p] = .ok a → a.suffix = [])
    (argv : List (List Char)) (args : Option (List (List Char))) (c : C) (h : correctMain parse argv args = .ran c) :
    ∃ l a, parse l = .ok a ∧ a.func = some c ∧ GoodSuffix a.suffix := by
  unfold correctMain at h
  split_ifs at h with h1 h2
  · cases hp : parse ["correct".toList, (argv[1]?).getD []] with
    | error e => rw [hp] at h; cases h
    | ok a =>
      rw [hp] at h
      cases hf : a.func with
      | none => simp [hf] at h
      | some d =>
        simp only [hf, MainResult.ran.injEq] at h
        subst h
        refine ⟨_, a, hp, hf, ?_⟩
        rw [hd _ _ hp]
        intro q hq
        cases hq
  · cases hp : parse argv.tail with
    | error e => rw [hp] at h; cases h
    | ok a =>
      rw [hp] at h
      cases hf : a.func with
      | none => simp [hf] at h
      | some d =>
        simp only [hf] at h
        split_ifs at h with hs
        simp only [MainResult.ran.injEq] at h
        subst h
        refine ⟨_, a, hp, hf, ?_⟩
        rw [List.all_eq_true] at hs
        exact fun q hq => (suffix_iff q).mp (hs q hq)

/-- C214 is false of correct_images called with arguments, and of the word parse alone. -/
theorem C214_correct_false : ¬ RunsWhatIsAsked correctMain := by
  intro h
  have h1 := h echoParse [] [] (some [['p']]) 1 (by decide) ⟨_, rfl, rfl, rfl⟩
  have h2 : correctMain echoParse [[]] (some [['p']]) = .ran 0 := rfl
  rw [h2] at h1
  cases h1

/-- The hypotheses are met. -/
example : GoodSuffix "dive_2-b".toList := by unfold GoodSuffix; decide +kernel
example : ¬ GoodSuffix "a b".toList := by unfold GoodSuffix; decide +kernel

end Oplab.Props
