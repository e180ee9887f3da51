import Mathlib.Tactic.Linarith
import Mathlib.Tactic.NormNum
import Mathlib.Tactic.Ring
import Mathlib.Tactic.FieldSimp
import Verif.Lemmas.Split
import Verif.Spec.CalText

/-! C223: a calibration that is written to its file and read back is the one that was computed, to six decimals. -/

namespace Oplab.Props
open Oplab Oplab.Spec

/-! ## Numbers -/

private theorem fold_pad : ∀ w n acc, n < 10 ^ w →
    (padDigits w n).foldl (fun n c => n * 10 + (c.toNat - 48)) acc = acc * 10 ^ w + n
  | 0, n, acc, h => by simp at h; subst h; simp [padDigits]
  | w + 1, n, acc, h => by
    simp only [padDigits, List.foldl_append, List.foldl_cons, List.foldl_nil]
    rw [fold_pad w (n / 10) acc (by rw [Nat.div_lt_iff_lt_mul (by omega)]; rw [Nat.pow_succ] at h; exact h)]
    rw [(digitChar_facts (n % 10) (Nat.mod_lt _ (by omega))).2, Nat.pow_succ]
    have : 48 + n % 10 - 48 = n % 10 := by omega
    rw [this]
    have := Nat.div_add_mod n 10
    nlinarith

private theorem dec_facts (n : ℕ) : digitsValue (decDigits n) = n ∧ (decDigits n).all Char.isDigit = true ∧ decDigits n ≠ [] := by
  induction n using Nat.strong_induction_on with
  | _ n ih =>
    rw [decDigits]
    split
    · next h =>
      refine ⟨?_, ?_, by simp⟩
      · simp [digitsValue, (digitChar_facts n h).2]
      · simp [(digitChar_facts n h).1]
    · next h =>
      obtain ⟨h1, h2, h3⟩ := ih (n / 10) (by omega)
      have hd := digitChar_facts (n % 10) (Nat.mod_lt _ (by omega))
      refine ⟨?_, ?_, by simp⟩
      · unfold digitsValue at h1 ⊢
        rw [List.foldl_append, h1]
        simp only [List.foldl_cons, List.foldl_nil, hd.2]
        omega
      · simp only [List.all_append, h2, List.all_cons, hd.1, List.all_nil, Bool.and_self]

/-- The number that is printed. -/
private def r6 (q : ℚ) : ℚ := (if q < 0 then -1 else 1) * ((roundEven (|q| * 10 ^ 6) : ℚ) / 10 ^ 6)

private theorem roundEven_near (q : ℚ) (hq : 0 ≤ q) : |(roundEven q : ℚ) - q| ≤ 1 / 2 := by
  have h1 := Nat.floor_le hq
  have h2 := Nat.lt_floor_add_one q
  unfold roundEven
  rw [abs_le]
  dsimp only
  split_ifs <;> push_cast <;> constructor <;> linarith

private theorem r6_spec (q : ℚ) : SixDecimals q (r6 q) := by
  have h := roundEven_near (|q| * 10 ^ 6) (by positivity)
  rw [abs_le] at h
  constructor
  · unfold r6
    rw [abs_le]
    split_ifs with hn
    · rw [abs_of_neg hn] at h ⊢
      constructor <;> linarith [h.1, h.2]
    · rw [abs_of_nonneg (by linarith)] at h ⊢
      constructor <;> linarith [h.1, h.2]
  · unfold r6
    refine ⟨(if q < 0 then -1 else 1) * (roundEven (|q| * 10 ^ 6) : ℤ), ?_⟩
    split_ifs <;> push_cast <;> ring

/-- A number with six decimals is printed as it is. -/
private theorem six_unique {x y : ℚ} (hx : ∃ k : ℤ, x = k / 10 ^ 6) (h : SixDecimals x y) : y = x := by
  obtain ⟨k, rfl⟩ := hx
  obtain ⟨h1, j, rfl⟩ := h
  have : |((j - k : ℤ) : ℚ)| < 1 := by
    have e : ((j : ℚ) / 10 ^ 6 - k / 10 ^ 6) = ((j - k : ℤ) : ℚ) / 10 ^ 6 := by push_cast; ring
    rw [e, abs_div, abs_of_pos (by positivity : (0 : ℚ) < 10 ^ 6), div_le_iff₀ (by positivity)] at h1
    linarith
  have h0 : j - k = 0 := by
    have : |j - k| < 1 := by exact_mod_cast this
    rwa [Int.abs_lt_one_iff] at this
  have : j = k := by omega
  rw [this]

private theorem digit_ne {l : Text} (h : l.all Char.isDigit = true) (d : Char) (hd : d.isDigit = false) : d ∉ l := fun hm => by
  have := List.all_eq_true.mp h d hm
  rw [hd] at this; cases this

private theorem takeWhile_to {p : Char → Bool} : ∀ (a : Text) (d : Char) (b : Text), (∀ c ∈ a, p c = true) → p d = false →
    (a ++ d :: b).takeWhile p = a ∧ (a ++ d :: b).dropWhile p = d :: b
  | [], d, b, _, hd => by simp [hd]
  | c :: a, d, b, h, hd => by
    have ih := takeWhile_to a d b (fun x hx => h x (List.mem_cons_of_mem _ hx)) hd
    simp [h c (by simp), ih.1, ih.2]

private theorem takeWhile_all' {p : Char → Bool} : ∀ (a : Text), (∀ c ∈ a, p c = true) →
    a.takeWhile p = a ∧ a.dropWhile p = []
  | [], _ => by simp
  | c :: a, h => by
    have ih := takeWhile_all' a fun x hx => h x (List.mem_cons_of_mem _ hx)
    simp [h c (by simp), ih.1, ih.2]

private theorem isDigit_notBlank {c : Char} (h : c.isDigit = true) : isBlank c = false := by
  by_contra hn
  rw [Bool.not_eq_false] at hn
  simp only [isBlank, decide_eq_true_eq] at hn
  rcases hn with rfl | rfl | rfl | rfl <;> revert h <;> decide

/-- Text that starts and ends with something that is not blank, between blanks. -/
private theorem strip_pad (n : ℕ) (s : Text) (h1 : ∀ c ∈ s.head?, isBlank c = false) (h2 : ∀ c ∈ s.getLast?, isBlank c = false) :
    stripBlanks (List.replicate n ' ' ++ s) = s := by
  have : (List.replicate n ' ' ++ s).dropWhile isBlank = s.dropWhile isBlank := by
    induction n with
    | zero => simp
    | succ n ih =>
      rw [List.replicate_succ, List.cons_append, List.dropWhile_cons_of_pos (by decide), ih]
  have e := stripBlanks_id s h1 h2
  unfold stripBlanks at e ⊢
  rw [this, e]

private theorem readNat_dec (n : ℕ) : readNumber (decDigits n) = some (n : ℚ) := by
  obtain ⟨h1, h2, h3⟩ := dec_facts n
  have hb : ∀ c ∈ decDigits n, isBlank c = false := fun c hc => isDigit_notBlank (List.all_eq_true.mp h2 c hc)
  have hs : stripBlanks (decDigits n) = decDigits n := stripBlanks_id _
    (fun c hc => hb c (List.mem_of_mem_head? hc)) (fun c hc => hb c (List.mem_of_mem_getLast? hc))
  have hm : (decDigits n).head? ≠ some '-' := fun he => digit_ne h2 '-' (by decide) (List.mem_of_mem_head? he)
  have ht := takeWhile_all' (p := (· ≠ '.')) (decDigits n) (fun c hc => by
    simp only [decide_eq_true_eq]; rintro rfl; exact digit_ne h2 _ (by decide) hc)
  simp only [readNumber, hs, if_neg hm, ht.1, ht.2]
  simp [h3, h2, h1]

private theorem fixed6_parts (q : ℚ) : ∃ a b : Text, ∃ m : ℕ, fixed6 q = (if q < 0 then ['-'] else []) ++ a ++ '.' :: b ∧
    a ≠ [] ∧ a.all Char.isDigit = true ∧ b.all Char.isDigit = true ∧ b.length = 6 ∧ digitsValue (a ++ b) = m ∧
    r6 q = (if q < 0 then -1 else 1) * ((m : ℚ) / 10 ^ 6) := by
  refine ⟨_, _, roundEven (|q| * 10 ^ 6), rfl, (dec_facts _).2.2, (dec_facts _).2.1, padDigits_all _ _, padDigits_length _ _, ?_, rfl⟩
  have h1 := (dec_facts (roundEven (|q| * 10 ^ 6) / 10 ^ 6)).1
  unfold digitsValue at h1 ⊢
  rw [List.foldl_append, h1, fold_pad _ _ _ (Nat.mod_lt _ (by norm_num))]
  have := Nat.div_add_mod (roundEven (|q| * 10 ^ 6)) (10 ^ 6)
  omega

private theorem readNumber_fixed (n : ℕ) (q : ℚ) : readNumber (List.replicate n ' ' ++ fixed6 q) = some (r6 q) := by
  obtain ⟨a, b, m, hf, ha, had, hbd, hbl, hv, hr⟩ := fixed6_parts q
  have hb0 : b ≠ [] := by rintro rfl; simp at hbl
  obtain ⟨a0, a', rfl⟩ := List.exists_cons_of_ne_nil ha
  have ha0 : a0.isDigit = true := List.all_eq_true.mp had a0 (by simp)
  have hlast : ∀ c ∈ (fixed6 q).getLast?, isBlank c = false := by
    intro c hc
    rw [hf, List.getLast?_append, List.getLast?_cons] at hc
    simp only [Option.some_or, Option.mem_def, Option.some.injEq] at hc
    have : c ∈ b := by
      obtain ⟨x, hx⟩ := Option.ne_none_iff_exists'.mp (fun h => hb0 (List.getLast?_eq_none_iff.mp h))
      rw [hx] at hc
      simp only [Option.getD_some] at hc
      subst hc; exact List.mem_of_mem_getLast? hx
    exact isDigit_notBlank (List.all_eq_true.mp hbd c this)
  have hhead : ∀ c ∈ (fixed6 q).head?, isBlank c = false := by
    intro c hc
    rw [hf] at hc
    split_ifs at hc
    · simp at hc; subst hc; decide
    · simp at hc; subst hc; exact isDigit_notBlank ha0
  have hs := strip_pad n (fixed6 q) hhead hlast
  have hsp := takeWhile_to (p := (· ≠ '.')) (a0 :: a') '.' b (fun c hc => by
    simp only [decide_eq_true_eq]; rintro rfl; exact digit_ne had _ (by decide) hc) (by simp)
  have hm : a0 ≠ '-' := by rintro rfl; revert ha0; decide
  unfold readNumber
  rw [hs, hf, hr]
  split_ifs with hn
  · simp only [List.cons_append, List.nil_append, List.head?_cons, if_true, List.drop_succ_cons, List.drop_zero]
    rw [show (a0 :: (a' ++ '.' :: b)) = (a0 :: a') ++ '.' :: b from rfl, hsp.1, hsp.2]
    simp only [List.drop_succ_cons, List.drop_zero, had, hbd, hv, hbl]
    simp
  · have hh : ((a0 :: a') ++ '.' :: b).head? ≠ some '-' := by simp [hm]
    simp only [List.nil_append, if_neg hh]
    rw [hsp.1, hsp.2]
    simp only [List.drop_succ_cons, List.drop_zero, had, hbd, hv, hbl]
    simp

/-- The characters of a list of numbers. -/
private def numChar (c : Char) : Bool := c.isDigit || c = '.' || c = '-' || c = ' '

private theorem fixed8_chars (q : ℚ) : ∀ c ∈ fixed8 q, numChar c = true := by
  intro c hc
  obtain ⟨a, b, m, hf, -, had, hbd, -⟩ := fixed6_parts q
  simp only [fixed8, hf, List.mem_append, List.mem_cons] at hc
  unfold numChar
  rcases hc with hc | (hc | hc) | hc | hc
  · rw [List.eq_of_mem_replicate hc]; rfl
  · split_ifs at hc
    · simp at hc; subst hc; rfl
    · cases hc
  · simp [List.all_eq_true.mp had c hc]
  · subst hc; rfl
  · simp [List.all_eq_true.mp hbd c hc]

private theorem numbers_split : ∀ (l : List ℚ) (n : ℕ), l ≠ [] →
    allSome readNumber (splitAtSep (· = ',') (List.replicate n ' ' ++ joinNumbers l)) = some (l.map r6)
  | [], _, h => absurd rfl h
  | [q], n, _ => by
    have hno : ∀ c ∈ List.replicate n ' ' ++ joinNumbers [q], (decide (c = ',')) = false := by
      intro c hc
      rw [List.mem_append] at hc
      rcases hc with hc | hc
      · rw [List.eq_of_mem_replicate hc]; rfl
      · have := fixed8_chars q c hc
        by_contra hn
        simp at hn; subst hn; revert this; decide
    rw [splitSep_none _ _ hno]
    have : readNumber (List.replicate n ' ' ++ joinNumbers [q]) = some (r6 q) := by
      simp only [joinNumbers, fixed8]
      rw [← List.append_assoc, List.replicate_append_replicate]
      exact readNumber_fixed _ q
    simp [allSome, this]
  | q :: q' :: l, n, _ => by
    have ih := numbers_split (q' :: l) 1 (by simp)
    have hno : ∀ c ∈ List.replicate n ' ' ++ fixed8 q, (decide (c = ',')) = false := by
      intro c hc
      rw [List.mem_append] at hc
      rcases hc with hc | hc
      · rw [List.eq_of_mem_replicate hc]; rfl
      · have := fixed8_chars q c hc
        by_contra hn
        simp at hn; subst hn; revert this; decide
    have e : joinNumbers (q :: q' :: l) = fixed8 q ++ ',' :: ' ' :: joinNumbers (q' :: l) := rfl
    rw [e, ← List.append_assoc, splitSep_append _ _ (by simp), splitSep_none _ _ hno]
    have : readNumber (List.replicate n ' ' ++ fixed8 q) = some (r6 q) := by
      rw [fixed8, ← List.append_assoc, List.replicate_append_replicate]
      exact readNumber_fixed _ q
    simp only [List.singleton_append, allSome, this]
    rw [show (' ' :: joinNumbers (q' :: l)) = List.replicate 1 ' ' ++ joinNumbers (q' :: l) from rfl, ih]
    rfl

private theorem readNumbers_join (l : List ℚ) (h : l ≠ []) : readNumbers ('[' :: (joinNumbers l ++ [']'])) = some (l.map r6) := by
  have := numbers_split l 0 h
  simp only [List.replicate_zero, List.nil_append] at this
  unfold readNumbers
  rw [if_pos ⟨rfl, by rw [List.getLast?_cons, List.getLast?_append]; simp⟩]
  simp only [List.drop_succ_cons, List.drop_zero, List.dropLast_concat, this]

private theorem join_chars : ∀ l : List ℚ, ∀ c ∈ joinNumbers l, (numChar c || c = ',') = true
  | [], c, h => by simp [joinNumbers] at h
  | [q], c, h => by simp [fixed8_chars q c h]
  | q :: q' :: l, c, h => by
    have e : joinNumbers (q :: q' :: l) = fixed8 q ++ ',' :: ' ' :: joinNumbers (q' :: l) := rfl
    rw [e] at h
    simp only [List.mem_append, List.mem_cons] at h
    rcases h with h | h | h | h
    · simp [fixed8_chars q c h]
    · simp [h]
    · subst h; rfl
    · exact join_chars (q' :: l) c h

/-! ## Lines -/

/-- A key that can be found again. -/
private def plainKey (k : String) : Bool :=
  k.toList.all (fun c => c ≠ ':' && c ≠ '\n') && match k.toList with | [] => false | c :: _ => c ≠ ' '

private theorem key_facts {k : String} (h : plainKey k = true) (n : ℕ) (rest : Text) :
    calIndent (List.replicate n ' ' ++ k.toList ++ ':' :: rest) = n ∧
    calKey (List.replicate n ' ' ++ k.toList ++ ':' :: rest) = k.toList ∧
    calValue (List.replicate n ' ' ++ k.toList ++ ':' :: rest) = stripBlanks rest := by
  unfold plainKey at h
  cases hk : k.toList with
  | nil => rw [hk] at h; simp at h
  | cons c cs =>
    rw [hk] at h
    simp only [Bool.and_eq_true, List.all_eq_true] at h
    obtain ⟨hall, hc⟩ := h
    have hc' : c ≠ ' ' := by simpa using hc
    have hcol : ∀ x ∈ c :: cs, x ≠ ':' := fun x hx => by
      have := hall x hx
      simp only [decide_eq_true_eq] at this; exact this.1
    have e1 := takeWhile_to (p := (· = ' ')) (List.replicate n ' ') c (cs ++ ':' :: rest)
      (fun x hx => by simp [List.eq_of_mem_replicate hx]) (by simp [hc'])
    have e2 := takeWhile_to (p := (· ≠ ':')) (c :: cs) ':' rest (fun x hx => by simpa using hcol x hx) (by simp)
    have e3 := takeWhile_to (p := (· ≠ ':')) (List.replicate n ' ' ++ c :: cs) ':' rest (fun x hx => by
      rw [List.mem_append] at hx
      rcases hx with hx | hx
      · simp [List.eq_of_mem_replicate hx]
      · simpa using hcol x hx) (by simp)
    have el : List.replicate n ' ' ++ c :: cs ++ ':' :: rest = List.replicate n ' ' ++ c :: (cs ++ ':' :: rest) := by simp
    refine ⟨?_, ?_, ?_⟩
    · rw [el, calIndent, e1.1, List.length_replicate]
    · rw [el, calKey, e1.2]; exact e2.1
    · rw [calValue, e3.2]; rfl

private theorem line_facts {k : String} (h : plainKey k = true) (n : ℕ) (v : Text) :
    calIndent (calLine n k v) = n ∧ calKey (calLine n k v) = k.toList ∧ calValue (calLine n k v) = stripBlanks (' ' :: v) :=
  key_facts h n (' ' :: v)

private theorem head_facts {k : String} (h : plainKey k = true) :
    calIndent (calHead k) = 0 ∧ calKey (calHead k) = k.toList := by
  have := key_facts h 0 []
  exact ⟨this.1, this.2.1⟩

private theorem line_value {k : String} (h : plainKey k = true) (n : ℕ) (v : Text) (h1 : ∀ c ∈ v.head?, isBlank c = false)
    (h2 : ∀ c ∈ v.getLast?, isBlank c = false) : calValue (calLine n k v) = v := by
  rw [(line_facts h n v).2.2]
  exact strip_pad 1 v h1 h2

/-- The lines that follow do not belong to a block at this indentation. -/
private def Stops (n : ℕ) (rest : List Text) : Prop := ∀ l ∈ rest.head?, calIndent l ≤ n

private theorem getNode_skip (n : ℕ) (k : String) : ∀ (A rest : List Text),
    (∀ l ∈ A, calIndent l = n → calKey l ≠ k.toList) → getNode n k (A ++ rest) = getNode n k rest
  | [], _, _ => rfl
  | l :: A, rest, h => by
    have : ¬ (calIndent l = n ∧ calKey l = k.toList) := fun hh => h l (by simp) hh.1 hh.2
    rw [List.cons_append, getNode, if_neg this]
    exact getNode_skip n k A rest fun x hx => h x (List.mem_cons_of_mem _ hx)

private theorem takeWhile_block (n : ℕ) : ∀ (A rest : List Text), (∀ l ∈ A, n < calIndent l) → Stops n rest →
    (A ++ rest).takeWhile (fun x => n < calIndent x) = A
  | [], [], _, _ => rfl
  | [], l :: rest, _, h => by
    have := h l (by simp)
    simp [List.takeWhile_cons]; omega
  | l :: A, rest, h, hr => by
    rw [List.cons_append, List.takeWhile_cons]
    simp only [h l (by simp), decide_true, if_true]
    rw [takeWhile_block n A rest (fun x hx => h x (List.mem_cons_of_mem _ hx)) hr]

private theorem getNode_hit {n : ℕ} {k : String} (l : Text) (A rest : List Text) (hi : calIndent l = n) (hk : calKey l = k.toList)
    (hA : ∀ x ∈ A, n < calIndent x) (hr : Stops n rest) : getNode n k (l :: (A ++ rest)) = some (calValue l, A) := by
  rw [getNode, if_pos ⟨hi, hk⟩, takeWhile_block n A rest hA hr]

private theorem dec_ends (n : ℕ) : (∀ c ∈ (decDigits n).head?, isBlank c = false) ∧ ∀ c ∈ (decDigits n).getLast?, isBlank c = false := by
  have hb : ∀ c ∈ decDigits n, isBlank c = false := fun c hc => isDigit_notBlank (List.all_eq_true.mp (dec_facts n).2.1 c hc)
  exact ⟨fun c hc => hb c (List.mem_of_mem_head? hc), fun c hc => hb c (List.mem_of_mem_getLast? hc)⟩

private theorem matrix_indent {k : String} (h : plainKey k = true) (n r c : ℕ) (d : List ℚ) :
    ∀ l ∈ calMatrix n k r c d, (calIndent l = n ∧ calKey l = k.toList) ∨ calIndent l = n + 2 := by
  intro l hl
  simp only [calMatrix, List.mem_cons, List.not_mem_nil, or_false] at hl
  rcases hl with rfl | rfl | rfl | rfl | rfl
  · exact Or.inl ⟨(line_facts h n _).1, (line_facts h n _).2.1⟩
  all_goals right
  · exact (line_facts (k := "rows") (by decide) _ _).1
  · exact (line_facts (k := "cols") (by decide) _ _).1
  · exact (line_facts (k := "dt") (by decide) _ _).1
  · exact (line_facts (k := "data") (by decide) _ _).1

private theorem matrix_skip {k k' : String} (h : plainKey k' = true) (hk : k'.toList ≠ k.toList) (n r c : ℕ) (d : List ℚ)
    (rest : List Text) : getNode n k (calMatrix n k' r c d ++ rest) = getNode n k rest :=
  getNode_skip n k _ rest fun l hl hi => by
    rcases matrix_indent h n r c d l hl with h1 | h1
    · rw [h1.2]; exact hk
    · omega

private theorem line_skip {k k' : String} (h : plainKey k' = true) (hk : k'.toList ≠ k.toList) (n : ℕ) (v : Text) (rest : List Text) :
    getNode n k (calLine n k' v :: rest) = getNode n k rest :=
  getNode_skip n k [_] rest fun l hl _ => by
    simp at hl; subst hl
    rw [(line_facts h n v).2.1]; exact hk

private theorem nodeNat_line {k : String} (h : plainKey k = true) (n m : ℕ) (rest : List Text) :
    nodeNat (getNode n k (calLine n k (decDigits m) :: rest)) = some m := by
  rw [getNode, if_pos ⟨(line_facts h n _).1, (line_facts h n _).2.1⟩]
  simp only [nodeNat, Option.bind_some, line_value h n _ (dec_ends m).1 (dec_ends m).2, readNat_dec, Option.map_some,
    Nat.floor_natCast]

private theorem nodeMat_tag (n : ℕ) (v : Text) (A : List Text) (hv : v = "!!opencv-matrix".toList) : nodeMat n (some (v, A)) =
    (nodeNat (getNode n "rows" A)).bind fun r => (nodeNat (getNode n "cols" A)).bind fun c =>
      (getNode n "data" A).bind fun w => (readNumbers w.1).bind fun d => if d.length = r * c then some ⟨r, c, d⟩ else none := by
  unfold nodeMat
  rw [Option.bind_some]
  exact if_pos hv

private theorem nodeMat_matrix {k : String} (h : plainKey k = true) (n r c : ℕ) (d : List ℚ) (rest : List Text)
    (hr : Stops n rest) (hd : d.length = r * c) (hne : d ≠ []) :
    nodeMat (n + 2) (getNode n k (calMatrix n k r c d ++ rest)) = some ⟨r, c, d.map r6⟩ := by
  have e : calMatrix n k r c d ++ rest = calLine n k "!!opencv-matrix".toList ::
      ([calLine (n + 2) "rows" (decDigits r), calLine (n + 2) "cols" (decDigits c),
        calLine (n + 2) "dt" "d".toList, calLine (n + 2) "data" ('[' :: (joinNumbers d ++ [']']))] ++ rest) := rfl
  rw [e, getNode_hit _ _ rest (line_facts h n _).1 (line_facts h n _).2.1 ?_ hr]
  · rw [line_value h n _ (by decide) (by decide)]
    rw [nodeMat_tag (n + 2) _ _ rfl, nodeNat_line (by decide), line_skip (by decide) (by decide), nodeNat_line (by decide),
      line_skip (by decide) (by decide), line_skip (by decide) (by decide), line_skip (by decide) (by decide), getNode,
      if_pos ⟨(line_facts (by decide) _ _).1, (line_facts (by decide) _ _).2.1⟩]
    simp only [Option.bind_some]
    rw [line_value (by decide) _ _ (by simp [isBlank]) (by
      intro x hx
      rw [List.getLast?_cons, List.getLast?_append] at hx
      simp at hx; subst hx; decide), readNumbers_join d hne]
    simp [hd]
  · intro l hl
    simp only [List.mem_cons, List.not_mem_nil, or_false] at hl
    rcases hl with rfl | rfl | rfl | rfl
    · rw [(line_facts (k := "rows") (by decide) _ _).1]; omega
    · rw [(line_facts (k := "cols") (by decide) _ _).1]; omega
    · rw [(line_facts (k := "dt") (by decide) _ _).1]; omega
    · rw [(line_facts (k := "data") (by decide) _ _).1]; omega

/-! ## Cameras -/

private theorem name_value (n : ℕ) (name : Text) (hn : PlainText name) (rest : List Text) :
    ∃ A, getNode n "camera_name" (calLine n "camera_name" name :: rest) = some (name, A) := by
  rw [getNode, if_pos ⟨(line_facts (by decide) n _).1, (line_facts (by decide) n _).2.1⟩,
    line_value (by decide) n _ hn.2.1 hn.2.2]
  exact ⟨_, rfl⟩

private theorem stops_line (n m : ℕ) (h : m ≤ n) (k : String) (hk : plainKey k = true) (v : Text) (rest : List Text) :
    Stops n (calLine m k v :: rest) := by
  intro l hl
  simp at hl; subst hl
  rw [(line_facts hk m v).1]; exact h

private theorem stops_matrix (n : ℕ) (k : String) (hk : plainKey k = true) (r c : ℕ) (d : List ℚ) (rest : List Text) :
    Stops n (calMatrix n k r c d ++ rest) := stops_line n n le_rfl k hk _ _

/-- The lines of a camera. -/
private def camLines (n : ℕ) (c : CalCamera) (k d r p : List ℚ) : List Text :=
  [calLine n "image_width" (decDigits c.width), calLine n "image_height" (decDigits c.height), calLine n "camera_name" c.name] ++
    calMatrix n "camera_matrix" 3 3 k ++
    [calLine n "distortion_model" (if c.d.data.length > 5 then "rational_polynomial".toList else "plumb_bob".toList)] ++
    calMatrix n "distortion_coefficients" 1 5 d ++ calMatrix n "rectification_matrix" 3 3 r ++ calMatrix n "projection_matrix" 3 4 p

private theorem camLines_eq (n : ℕ) (c : CalCamera) (d : List ℚ) (hk : c.K.data.length = 9) (hr : c.R.data.length = 9)
    (hp : c.P.data.length = 12) : calCameraLines n c d = .ok (camLines n c c.K.data d c.R.data c.P.data) := by
  simp only [calCameraLines, NpMat.flat, if_pos hk, if_pos hr, if_pos hp, bind, Except.bind]
  rfl

private theorem len_ne {l : List ℚ} {n : ℕ} (h : l.length = n + 1) : l ≠ [] := by rintro rfl; simp at h

private theorem read_camLines (n : ℕ) (c : CalCamera) (k d r p : List ℚ) (hn : PlainText c.name) (hk : k.length = 9)
    (hd : d.length = 5) (hr : r.length = 9) (hp : p.length = 12) (rest : List Text) (hrest : Stops n rest) :
    cameraFromNode n (camLines n c k d r p ++ rest) =
      some ⟨c.width, c.height, c.name, ⟨3, 3, k.map r6⟩, ⟨1, 5, d.map r6⟩, ⟨3, 3, r.map r6⟩, ⟨3, 4, p.map r6⟩⟩ := by
  have e : camLines n c k d r p ++ rest = calLine n "image_width" (decDigits c.width) ::
      calLine n "image_height" (decDigits c.height) :: calLine n "camera_name" c.name ::
      (calMatrix n "camera_matrix" 3 3 k ++
        (calLine n "distortion_model" (if c.d.data.length > 5 then "rational_polynomial".toList else "plumb_bob".toList) ::
          (calMatrix n "distortion_coefficients" 1 5 d ++ (calMatrix n "rectification_matrix" 3 3 r ++
            (calMatrix n "projection_matrix" 3 4 p ++ rest))))) := by
    simp only [camLines, List.append_assoc, List.cons_append, List.nil_append]
  generalize (if c.d.data.length > 5 then "rational_polynomial".toList else "plumb_bob".toList) = model at e
  rw [e]
  unfold cameraFromNode
  obtain ⟨A, hA⟩ := name_value n c.name hn (calMatrix n "camera_matrix" 3 3 k ++
        (calLine n "distortion_model" model ::
          (calMatrix n "distortion_coefficients" 1 5 d ++ (calMatrix n "rectification_matrix" 3 3 r ++
            (calMatrix n "projection_matrix" 3 4 p ++ rest)))))
  have s1 : ∀ (key : String) (X : List Text), "image_width".toList ≠ key.toList →
      getNode n key (calLine n "image_width" (decDigits c.width) :: X) = getNode n key X :=
    fun key X h => line_skip (by decide) h _ _ _
  have s2 : ∀ (key : String) (X : List Text), "image_height".toList ≠ key.toList →
      getNode n key (calLine n "image_height" (decDigits c.height) :: X) = getNode n key X :=
    fun key X h => line_skip (by decide) h _ _ _
  have s3 : ∀ (key : String) (X : List Text), "camera_name".toList ≠ key.toList →
      getNode n key (calLine n "camera_name" c.name :: X) = getNode n key X :=
    fun key X h => line_skip (by decide) h _ _ _
  have s4 : ∀ (key : String) (X : List Text), "camera_matrix".toList ≠ key.toList →
      getNode n key (calMatrix n "camera_matrix" 3 3 k ++ X) = getNode n key X :=
    fun key X h => matrix_skip (by decide) h _ _ _ _ _
  have s5 : ∀ (key : String) (X : List Text), "distortion_model".toList ≠ key.toList →
      getNode n key (calLine n "distortion_model" model :: X) = getNode n key X :=
    fun key X h => line_skip (by decide) h _ _ _
  have s6 : ∀ (key : String) (X : List Text), "distortion_coefficients".toList ≠ key.toList →
      getNode n key (calMatrix n "distortion_coefficients" 1 5 d ++ X) = getNode n key X :=
    fun key X h => matrix_skip (by decide) h _ _ _ _ _
  have s7 : ∀ (key : String) (X : List Text), "rectification_matrix".toList ≠ key.toList →
      getNode n key (calMatrix n "rectification_matrix" 3 3 r ++ X) = getNode n key X :=
    fun key X h => matrix_skip (by decide) h _ _ _ _ _
  rw [s1 "camera_name" _ (by decide), s2 "camera_name" _ (by decide), hA, Option.bind_some]
  rw [nodeNat_line (by decide), Option.bind_some]
  rw [s1 "image_height" _ (by decide), nodeNat_line (by decide), Option.bind_some]
  rw [s1 "camera_matrix" _ (by decide), s2 "camera_matrix" _ (by decide), s3 "camera_matrix" _ (by decide),
    nodeMat_matrix (by decide) n 3 3 k _ (stops_line n n le_rfl _ (by decide) _ _) hk (len_ne hk), Option.bind_some]
  rw [s1 "distortion_coefficients" _ (by decide), s2 "distortion_coefficients" _ (by decide),
    s3 "distortion_coefficients" _ (by decide), s4 "distortion_coefficients" _ (by decide),
    s5 "distortion_coefficients" _ (by decide),
    nodeMat_matrix (by decide) n 1 5 d _ (stops_matrix n _ (by decide) _ _ _ _) hd (len_ne hd), Option.bind_some]
  rw [s1 "rectification_matrix" _ (by decide), s2 "rectification_matrix" _ (by decide),
    s3 "rectification_matrix" _ (by decide), s4 "rectification_matrix" _ (by decide),
    s5 "rectification_matrix" _ (by decide), s6 "rectification_matrix" _ (by decide),
    nodeMat_matrix (by decide) n 3 3 r _ (stops_matrix n _ (by decide) _ _ _ _) hr (len_ne hr), Option.bind_some]
  rw [s1 "projection_matrix" _ (by decide), s2 "projection_matrix" _ (by decide),
    s3 "projection_matrix" _ (by decide), s4 "projection_matrix" _ (by decide),
    s5 "projection_matrix" _ (by decide), s6 "projection_matrix" _ (by decide), s7 "projection_matrix" _ (by decide),
    nodeMat_matrix (by decide) n 3 4 p _ hrest hp (len_ne hp)]
  rfl

private theorem kept (l : List ℚ) : List.Forall₂ SixDecimals l (l.map r6) := by
  induction l with
  | nil => exact .nil
  | cons x l ih => exact .cons (r6_spec x) ih

/-! ## No line break inside a line -/

private theorem dec_noBreak (n : ℕ) : '\n' ∉ decDigits n := digit_ne (dec_facts n).2.1 _ (by decide)

private theorem line_noBreak {k : String} (hk : plainKey k = true) (n : ℕ) (v : Text) (hv : '\n' ∉ v) : '\n' ∉ calLine n k v := by
  unfold plainKey at hk
  simp only [Bool.and_eq_true, List.all_eq_true] at hk
  intro h
  simp only [calLine, List.mem_append, List.mem_cons] at h
  rcases h with (h | h) | h | h | h
  · have := List.eq_of_mem_replicate h; revert this; decide
  · have := hk.1 _ h; revert this; decide
  · revert h; decide
  · revert h; decide
  · exact hv h

private theorem matrix_noBreak {k : String} (hk : plainKey k = true) (n r c : ℕ) (d : List ℚ) :
    ∀ l ∈ calMatrix n k r c d, '\n' ∉ l := by
  intro l hl
  simp only [calMatrix, List.mem_cons, List.not_mem_nil, or_false] at hl
  rcases hl with rfl | rfl | rfl | rfl | rfl
  · exact line_noBreak hk _ _ (by decide)
  · exact line_noBreak (by decide) _ _ (dec_noBreak _)
  · exact line_noBreak (by decide) _ _ (dec_noBreak _)
  · exact line_noBreak (by decide) _ _ (by decide)
  · refine line_noBreak (by decide) _ _ ?_
    intro h
    simp only [List.mem_cons, List.mem_append, List.not_mem_nil, or_false] at h
    rcases h with h | h | h
    · revert h; decide
    · have := join_chars d _ h; revert this; decide
    · revert h; decide

private theorem cam_noBreak (n : ℕ) (c : CalCamera) (k d r p : List ℚ) (hn : PlainText c.name) :
    ∀ l ∈ camLines n c k d r p, '\n' ∉ l := by
  intro l hl
  simp only [camLines, List.mem_append, List.mem_cons, List.not_mem_nil, or_false] at hl
  rcases hl with (((((rfl | rfl | rfl) | hl) | rfl) | hl) | hl) | hl
  · exact line_noBreak (by decide) _ _ (dec_noBreak _)
  · exact line_noBreak (by decide) _ _ (dec_noBreak _)
  · exact line_noBreak (by decide) _ _ hn.1
  · exact matrix_noBreak (by decide) _ _ _ _ _ hl
  · refine line_noBreak (by decide) _ _ ?_
    split_ifs <;> decide
  · exact matrix_noBreak (by decide) _ _ _ _ _ hl
  · exact matrix_noBreak (by decide) _ _ _ _ _ hl
  · exact matrix_noBreak (by decide) _ _ _ _ _ hl

private theorem about_noBreak (a : CalAbout) (ha : OneLineEach a) : ∀ l ∈ calAboutLines a, '\n' ∉ l := by
  obtain ⟨h1, h2, h3, h4, h5, h6⟩ := ha
  have q : ∀ t : Text, '\n' ∉ t → '\n' ∉ '"' :: (t ++ ['"', ' ']) := by
    intro t ht h
    simp only [List.mem_cons, List.mem_append, List.not_mem_nil, or_false] at h
    rcases h with h | h | h | h
    · revert h; decide
    · exact ht h
    · revert h; decide
    · revert h; decide
  intro l hl
  simp only [calAboutLines, List.mem_cons, List.not_mem_nil, or_false] at hl
  rcases hl with rfl | rfl | rfl | rfl | rfl | rfl
  · exact line_noBreak (by decide) _ _ (q _ h1)
  · exact line_noBreak (by decide) _ _ (q _ h2)
  · exact line_noBreak (by decide) _ _ (q _ h3)
  · exact line_noBreak (by decide) _ _ (q _ h4)
  · exact line_noBreak (by decide) _ _ h5
  · exact line_noBreak (by decide) _ _ h6

private theorem split_lines : ∀ ls : List Text, (∀ l ∈ ls, '\n' ∉ l) → splitAtSep (· = '\n') (joinCalLines ls) = ls ++ [[]]
  | [], _ => rfl
  | l :: ls, h => by
    have ih := split_lines ls fun x hx => h x (List.mem_cons_of_mem _ hx)
    have e : joinCalLines (l :: ls) = l ++ '\n' :: joinCalLines ls := by simp [joinCalLines]
    rw [e, splitSep_append _ _ (by simp), ih, splitSep_none _ _ (fun c hc => by
      simp only [decide_eq_false_iff_not]; rintro rfl; exact h l (by simp) hc)]
    rfl

private theorem range_all (f : ℕ → Res ℚ) (l : List ℚ) : (∀ (i : ℕ) x, l[i]? = some x → f i = .ok x) → rangeRes f l.length = .ok l := by
  induction l using List.reverseRecOn with
  | nil => intro _; rfl
  | append_singleton l x ih =>
    intro h
    have h1 := ih fun i y hy => h i y (by
      rw [List.getElem?_append_left]; exact hy
      exact (List.getElem?_eq_some_iff.mp hy).1)
    have h2 := h l.length x (by simp)
    simp [rangeRes, h1, h2, bind, Except.bind]

private theorem range_some (f : ℕ → Res ℚ) (n : ℕ) (h : ∀ i < n, ∃ x, f i = .ok x) :
    ∃ l, rangeRes f n = .ok l ∧ l.length = n := by
  induction n with
  | zero => exact ⟨[], rfl, rfl⟩
  | succ n ih =>
    obtain ⟨l, hl, hn⟩ := ih fun i hi => h i (by omega)
    obtain ⟨x, hx⟩ := h n (by omega)
    exact ⟨l ++ [x], by simp [rangeRes, hl, hx, bind, Except.bind], by simp [hn]⟩

private theorem yaml_skip (key : String) (X : List Text) (h : "%YAML".toList ≠ key.toList) :
    getNode 0 key ("%YAML:1.0".toList :: X) = getNode 0 key X :=
  getNode_skip 0 key ["%YAML:1.0".toList] X (fun l hl _ => by
    simp only [List.mem_singleton] at hl; subst hl
    rw [show calKey "%YAML:1.0".toList = "%YAML".toList by decide]; exact h)

/-- The lines of the relative pose. -/
private def extLines (r t f e : List ℚ) : List Text :=
  calMatrix 2 "rotation_matrix" 3 3 r ++ calMatrix 2 "translation_vector" 3 1 t ++ calMatrix 2 "fundamental_matrix" 3 3 f ++
    calMatrix 2 "essential_matrix" 3 3 e

private theorem read_extLines (r t f e : List ℚ) (hr : r.length = 9) (ht : t.length = 3) (hf : f.length = 9) (he : e.length = 9) :
    extrinsicsFromNode (extLines r t f e) =
      some ⟨⟨3, 3, r.map r6⟩, ⟨3, 1, t.map r6⟩, ⟨3, 3, f.map r6⟩, ⟨3, 3, e.map r6⟩⟩ := by
  have e1 : extLines r t f e = calMatrix 2 "rotation_matrix" 3 3 r ++ (calMatrix 2 "translation_vector" 3 1 t ++
      (calMatrix 2 "fundamental_matrix" 3 3 f ++ (calMatrix 2 "essential_matrix" 3 3 e ++ []))) := by
    simp only [extLines, List.append_assoc, List.append_nil]
  rw [e1]
  have s1 : ∀ (key : String) (X : List Text), "rotation_matrix".toList ≠ key.toList →
      getNode 2 key (calMatrix 2 "rotation_matrix" 3 3 r ++ X) = getNode 2 key X :=
    fun key X h => matrix_skip (by decide) h _ _ _ _ _
  have s2 : ∀ (key : String) (X : List Text), "translation_vector".toList ≠ key.toList →
      getNode 2 key (calMatrix 2 "translation_vector" 3 1 t ++ X) = getNode 2 key X :=
    fun key X h => matrix_skip (by decide) h _ _ _ _ _
  have s3 : ∀ (key : String) (X : List Text), "fundamental_matrix".toList ≠ key.toList →
      getNode 2 key (calMatrix 2 "fundamental_matrix" 3 3 f ++ X) = getNode 2 key X :=
    fun key X h => matrix_skip (by decide) h _ _ _ _ _
  unfold extrinsicsFromNode
  rw [nodeMat_matrix (by decide) 2 3 3 r _ (stops_matrix 2 _ (by decide) _ _ _ _) hr (len_ne hr), Option.bind_some,
    s1 "translation_vector" _ (by decide),
    nodeMat_matrix (by decide) 2 3 1 t _ (stops_matrix 2 _ (by decide) _ _ _ _) ht (len_ne ht), Option.bind_some,
    s1 "fundamental_matrix" _ (by decide), s2 "fundamental_matrix" _ (by decide),
    nodeMat_matrix (by decide) 2 3 3 f _ (stops_matrix 2 _ (by decide) _ _ _ _) hf (len_ne hf), Option.bind_some,
    s1 "essential_matrix" _ (by decide), s2 "essential_matrix" _ (by decide), s3 "essential_matrix" _ (by decide),
    nodeMat_matrix (by decide) 2 3 3 e _ (by intro l hl; simp at hl) he (len_ne he)]
  rfl

private theorem matrix_deep {k : String} (h : plainKey k = true) (r c : ℕ) (d : List ℚ) :
    ∀ l ∈ calMatrix 2 k r c d, 0 < calIndent l := by
  intro l hl
  rcases matrix_indent h 2 r c d l hl with h1 | h1 <;> omega

private theorem cam_deep (c : CalCamera) (k d r p : List ℚ) : ∀ l ∈ camLines 2 c k d r p, 0 < calIndent l := by
  intro l hl
  simp only [camLines, List.mem_append, List.mem_cons, List.not_mem_nil, or_false] at hl
  rcases hl with (((((rfl | rfl | rfl) | hl) | rfl) | hl) | hl) | hl
  · rw [(line_facts (by decide) _ _).1]; omega
  · rw [(line_facts (by decide) _ _).1]; omega
  · rw [(line_facts (by decide) _ _).1]; omega
  · exact matrix_deep (by decide) _ _ _ _ hl
  · rw [(line_facts (by decide) _ _).1]; omega
  · exact matrix_deep (by decide) _ _ _ _ hl
  · exact matrix_deep (by decide) _ _ _ _ hl
  · exact matrix_deep (by decide) _ _ _ _ hl

private theorem ext_deep (r t f e : List ℚ) : ∀ l ∈ extLines r t f e, 0 < calIndent l := by
  intro l hl
  simp only [extLines, List.mem_append] at hl
  rcases hl with ((hl | hl) | hl) | hl
  all_goals exact matrix_deep (by decide) _ _ _ _ hl

private theorem ext_noBreak (r t f e : List ℚ) : ∀ l ∈ extLines r t f e, '\n' ∉ l := by
  intro l hl
  simp only [extLines, List.mem_append] at hl
  rcases hl with ((hl | hl) | hl) | hl
  all_goals exact matrix_noBreak (by decide) _ _ _ _ _ hl

private theorem stops_head (k : String) (hk : plainKey k = true) (rest : List Text) : Stops 0 (calHead k :: rest) := by
  intro l hl
  simp at hl; subst hl
  rw [(head_facts hk).1]

private theorem block_skip {k k' : String} (h : plainKey k' = true) (hk : k'.toList ≠ k.toList) (A rest : List Text)
    (hA : ∀ l ∈ A, 0 < calIndent l) : getNode 0 k (calHead k' :: (A ++ rest)) = getNode 0 k rest := by
  rw [← List.cons_append]
  refine getNode_skip 0 k _ rest fun l hl hi => ?_
  rw [List.mem_cons] at hl
  rcases hl with rfl | hl
  · rw [(head_facts h).2]; exact hk
  · have := hA l hl; omega

private theorem range_row (m : NpMat) (n : ℕ) (hm : HasShape m 1 n) : rangeRes (fun i => m.at 0 i) m.cols = .ok m.data := by
  obtain ⟨h1, h2, h3⟩ := hm
  have : m.cols = m.data.length := by rw [h2, h3]; omega
  rw [this]
  apply range_all
  intro i x hx
  have hi := (List.getElem?_eq_some_iff.mp hx).1
  simp only [NpMat.at, Nat.zero_mul, Nat.zero_add, hx]
  rw [if_pos ⟨by omega, by omega⟩]

/-! ## The theorems -/

/-- C223: the file of a monocular calibration is written, can be read, and gives the camera that was calibrated, to six decimals. -/
theorem C223_mono (c : CalCamera) (stdev : NpMat) (a : CalAbout) (hc : MonoShape c) (hs : stdev.data.length = stdev.rows * stdev.cols)
    (hs9 : 9 ≤ stdev.rows) (hs1 : 1 ≤ stdev.cols) (ha : OneLineEach a) :
    ∃ t c', monoYaml c stdev a = .ok t ∧ readMono t = some c' ∧ CameraKept c c' := by
  obtain ⟨⟨-, -, hK⟩, ⟨hd1, hd2, hd⟩, ⟨-, -, hR⟩, ⟨-, -, hP⟩, hname⟩ := hc
  have ed : rangeRes (fun i => c.d.at i 0) c.d.rows = .ok c.d.data := by
    have : c.d.rows = c.d.data.length := by rw [hd, hd1]
    rw [this]
    apply range_all
    intro i x hx
    have hi := (List.getElem?_eq_some_iff.mp hx).1
    simp only [NpMat.at, hd2, Nat.mul_one, Nat.add_zero, hx]
    rw [if_pos ⟨by omega, by omega⟩]
  obtain ⟨s, es, hs'⟩ := range_some (fun i => stdev.at i 0) 9 (fun i hi => by
    have hlt : i * stdev.cols + 0 < stdev.data.length := by
      rw [hs]; nlinarith
    exact ⟨stdev.data[i * stdev.cols + 0], by
      simp only [NpMat.at, List.getElem?_eq_getElem hlt]
      rw [if_pos ⟨by omega, by omega⟩]⟩)
  have hY : ∀ x ∈ ["%YAML:1.0".toList] ++ camLines 0 c c.K.data c.d.data c.R.data c.P.data ++
      calMatrix 0 "stdev_intrinsics" 1 9 s ++ calAboutLines a, '\n' ∉ x := by
    intro x hx
    simp only [List.mem_append, List.mem_singleton] at hx
    rcases hx with ((rfl | hx) | hx) | hx
    · decide
    · exact cam_noBreak _ _ _ _ _ _ hname _ hx
    · exact matrix_noBreak (by decide) _ _ _ _ _ hx
    · exact about_noBreak a ha _ hx
  refine ⟨joinCalLines (["%YAML:1.0".toList] ++ camLines 0 c c.K.data c.d.data c.R.data c.P.data ++
      calMatrix 0 "stdev_intrinsics" 1 9 s ++ calAboutLines a),
    ⟨c.width, c.height, c.name, ⟨3, 3, c.K.data.map r6⟩, ⟨1, 5, c.d.data.map r6⟩, ⟨3, 3, c.R.data.map r6⟩,
    ⟨3, 4, c.P.data.map r6⟩⟩, ?_, ?_, ⟨rfl, rfl, rfl, ⟨rfl, rfl, kept _⟩, ⟨rfl, rfl, kept _⟩, ⟨rfl, rfl, kept _⟩, ⟨rfl, rfl, kept _⟩⟩⟩
  · simp only [monoYaml, ed, camLines_eq 0 c _ hK hR hP, es, bind, Except.bind]
  · rw [readMono, split_lines _ hY]
    have e : ["%YAML:1.0".toList] ++ camLines 0 c c.K.data c.d.data c.R.data c.P.data ++
      calMatrix 0 "stdev_intrinsics" 1 9 s ++ calAboutLines a ++ [[]] = "%YAML:1.0".toList ::
      (camLines 0 c c.K.data c.d.data c.R.data c.P.data ++ (calMatrix 0 "stdev_intrinsics" 1 9 s ++ (calAboutLines a ++ [[]]))) := by
      simp only [List.append_assoc, List.cons_append, List.nil_append]
    rw [e]
    have h0 := yaml_skip
    have := read_camLines 0 c c.K.data c.d.data c.R.data c.P.data hname hK hd hR hP
      (calMatrix 0 "stdev_intrinsics" 1 9 s ++ (calAboutLines a ++ [[]])) (stops_matrix 0 _ (by decide) _ _ _ _)
    rw [← this]
    unfold cameraFromNode
    rw [h0 "camera_name" _ (by decide), h0 "image_width" _ (by decide), h0 "image_height" _ (by decide),
      h0 "camera_matrix" _ (by decide), h0 "distortion_coefficients" _ (by decide), h0 "rectification_matrix" _ (by decide),
      h0 "projection_matrix" _ (by decide)]

/-- C223: the file of a stereo calibration is written, can be read, and gives both cameras and their relative pose, to six decimals. -/
theorem C223_stereo (l r : CalCamera) (x : CalExtrinsics) (a : CalAbout) (hl : StereoShape l) (hr : StereoShape r)
    (hx : ExtrinsicsShape x) (ha : OneLineEach a) :
    ∃ t l' r' x', stereoYaml l r x a = .ok t ∧ readStereo t = some (l', r', x') ∧ CameraKept l l' ∧ CameraKept r r' ∧
      ExtrinsicsKept x x' := by
  obtain ⟨⟨-, -, lK⟩, ld, ⟨-, -, lR⟩, ⟨-, -, lP⟩, lname⟩ := hl
  obtain ⟨⟨-, -, rK⟩, rd, ⟨-, -, rR⟩, ⟨-, -, rP⟩, rname⟩ := hr
  obtain ⟨⟨-, -, xR⟩, ⟨-, -, xT⟩, ⟨-, -, xF⟩, ⟨-, -, xE⟩⟩ := hx
  have eld := range_row l.d 5 ld
  have erd := range_row r.d 5 rd
  let L := camLines 2 l l.K.data l.d.data l.R.data l.P.data
  let R := camLines 2 r r.K.data r.d.data r.R.data r.P.data
  let X := extLines x.R.data x.T.data x.F.data x.E.data
  have hext : calExtrinsicsLines x = .ok X := by
    simp only [calExtrinsicsLines, NpMat.flat, if_pos xR, if_pos xT, if_pos xF, if_pos xE, bind, Except.bind]
    rfl
  have hY : ∀ y ∈ ["%YAML:1.0".toList, calHead "left"] ++ L ++ [calHead "right"] ++ R ++ [calHead "extrinsics"] ++ X ++
      calAboutLines a, '\n' ∉ y := by
    intro y hy
    simp only [List.mem_append, List.mem_cons, List.not_mem_nil, or_false] at hy
    rcases hy with ((((((rfl | rfl) | hy) | rfl) | hy) | rfl) | hy) | hy
    · decide
    · decide
    · exact cam_noBreak _ _ _ _ _ _ lname _ hy
    · decide
    · exact cam_noBreak _ _ _ _ _ _ rname _ hy
    · decide
    · exact ext_noBreak _ _ _ _ _ hy
    · exact about_noBreak a ha _ hy
  refine ⟨joinCalLines (["%YAML:1.0".toList, calHead "left"] ++ L ++ [calHead "right"] ++ R ++ [calHead "extrinsics"] ++ X ++
      calAboutLines a),
    ⟨l.width, l.height, l.name, ⟨3, 3, l.K.data.map r6⟩, ⟨1, 5, l.d.data.map r6⟩, ⟨3, 3, l.R.data.map r6⟩, ⟨3, 4, l.P.data.map r6⟩⟩,
    ⟨r.width, r.height, r.name, ⟨3, 3, r.K.data.map r6⟩, ⟨1, 5, r.d.data.map r6⟩, ⟨3, 3, r.R.data.map r6⟩, ⟨3, 4, r.P.data.map r6⟩⟩,
    ⟨⟨3, 3, x.R.data.map r6⟩, ⟨3, 1, x.T.data.map r6⟩, ⟨3, 3, x.F.data.map r6⟩, ⟨3, 3, x.E.data.map r6⟩⟩, ?_, ?_,
    ⟨rfl, rfl, rfl, ⟨rfl, rfl, kept _⟩, ⟨rfl, rfl, kept _⟩, ⟨rfl, rfl, kept _⟩, ⟨rfl, rfl, kept _⟩⟩,
    ⟨rfl, rfl, rfl, ⟨rfl, rfl, kept _⟩, ⟨rfl, rfl, kept _⟩, ⟨rfl, rfl, kept _⟩, ⟨rfl, rfl, kept _⟩⟩,
    ⟨⟨rfl, rfl, kept _⟩, ⟨rfl, rfl, kept _⟩, ⟨rfl, rfl, kept _⟩, ⟨rfl, rfl, kept _⟩⟩⟩
  · simp only [stereoYaml, eld, erd, camLines_eq 2 l _ lK lR lP, camLines_eq 2 r _ rK rR rP, hext, bind, Except.bind]
    rfl
  · unfold readStereo
    rw [split_lines _ hY]
    have e : ["%YAML:1.0".toList, calHead "left"] ++ L ++ [calHead "right"] ++ R ++ [calHead "extrinsics"] ++ X ++
        calAboutLines a ++ [[]] = "%YAML:1.0".toList :: calHead "left" :: (L ++ (calHead "right" :: (R ++
          (calHead "extrinsics" :: (X ++ (calAboutLines a ++ [[]])))))) := by
      simp only [List.append_assoc, List.cons_append, List.nil_append]
    rw [e]
    have rl := read_camLines 2 l l.K.data l.d.data l.R.data l.P.data lname lK ld.2.2 lR lP [] (by intro y hy; simp at hy)
    have rr := read_camLines 2 r r.K.data r.d.data r.R.data r.P.data rname rK rd.2.2 rR rP [] (by intro y hy; simp at hy)
    have rx := read_extLines _ _ _ _ xR xT xF xE
    rw [List.append_nil] at rl rr
    have dl : ∀ y ∈ L, 0 < calIndent y := cam_deep _ _ _ _ _
    have dr : ∀ y ∈ R, 0 < calIndent y := cam_deep _ _ _ _ _
    have dx : ∀ y ∈ X, 0 < calIndent y := ext_deep _ _ _ _
    have ha0 : Stops 0 (calAboutLines a ++ [[]]) := stops_line 0 0 le_rfl "date" (by decide) _ _
    dsimp only
    rw [yaml_skip "left" _ (by decide),
      getNode_hit _ L _ (head_facts (by decide)).1 (head_facts (by decide)).2 dl (stops_head "right" (by decide) _), Option.bind_some,
      rl, Option.bind_some, yaml_skip "right" _ (by decide), block_skip (by decide) (by decide) L _ dl,
      getNode_hit _ R _ (head_facts (by decide)).1 (head_facts (by decide)).2 dr (stops_head "extrinsics" (by decide) _),
      Option.bind_some, rr, Option.bind_some, yaml_skip "extrinsics" _ (by decide), block_skip (by decide) (by decide) L _ dl,
      block_skip (by decide) (by decide) R _ dr,
      getNode_hit _ X _ (head_facts (by decide)).1 (head_facts (by decide)).2 dx ha0,
      Option.bind_some, rx]
    rfl

private theorem same_of_six {rows cols : ℕ} {m m' m'' : NpMat} (h : MatKept rows cols m m') (h' : MatKept rows cols m' m'') :
    m'' = m' := by
  obtain ⟨h1, h2, h3⟩ := h
  obtain ⟨h1', h2', h3'⟩ := h'
  have : m''.data = m'.data := by
    have hall : ∀ y ∈ m'.data, ∃ k : ℤ, y = k / 10 ^ 6 := by
      clear h3'
      generalize m.data = u at h3
      generalize m'.data = v at h3
      induction h3 with
      | nil => simp
      | cons hxy _ ih =>
        intro y hy
        rcases List.mem_cons.mp hy with rfl | hy
        · exact hxy.2
        · exact ih y hy
    generalize m'.data = v at h3' hall
    generalize m''.data = w at h3'
    induction h3' with
    | nil => rfl
    | cons hxy _ ih =>
      rw [six_unique (hall _ (by simp)) hxy, ih fun y hy => hall y (List.mem_cons_of_mem _ hy)]
  cases m'; cases m''; simp_all

/-- A line `key: value` at the left margin. -/
def marginLine (key : String) (value : Text) : Text := key.toList ++ [':', ' '] ++ value ++ ['\n']

/-- What is said about a calibration at the end of its file: when, by whom, where and with what it was made, the number of images and the
error. -/
def aboutText (a : CalAbout) : Text :=
  marginLine "date" (['"'] ++ a.date ++ ['"', ' ']) ++ marginLine "user" (['"'] ++ a.user ++ ['"', ' ']) ++
    marginLine "host" (['"'] ++ a.host ++ ['"', ' ']) ++ marginLine "version" (['"'] ++ a.version ++ ['"', ' ']) ++
    marginLine "number_of_images" a.images ++ marginLine "avg_reprojection_error" a.error

private theorem margin_line (key : String) (value : Text) : calLine 0 key value ++ ['\n'] = marginLine key value := by
  simp [calLine, marginLine]

private theorem about_text (a : CalAbout) : joinCalLines (calAboutLines a) = aboutText a := by
  simp only [joinCalLines, calAboutLines, aboutText, List.flatMap_cons, List.flatMap_nil, margin_line, List.append_nil, List.append_assoc,
    List.cons_append, List.nil_append]

/-- C223: every calibration file ends with what is said about it. -/
theorem C223_about (c r : CalCamera) (stdev : NpMat) (x : CalExtrinsics) (a : CalAbout) (t : Text)
    (h : monoYaml c stdev a = .ok t ∨ stereoYaml c r x a = .ok t) : aboutText a <:+ t := by
  have e : ∀ ls, joinCalLines (ls ++ calAboutLines a) = joinCalLines ls ++ aboutText a := by
    intro ls
    rw [← about_text, joinCalLines, joinCalLines, joinCalLines, List.flatMap_append]
  rcases h with h | h
  · simp only [monoYaml, bind, Except.bind] at h
    repeat' split at h
    all_goals first
      | cases h; done
      | (rw [Except.ok.injEq, e] at h; exact ⟨_, h⟩)
  · simp only [stereoYaml, bind, Except.bind] at h
    repeat' split at h
    all_goals first
      | cases h; done
      | (rw [Except.ok.injEq, e] at h; exact ⟨_, h⟩)

/-- C223: what the stereo file says about the lens of each camera is exactly what its own file says, because the stereo calibration keeps
the intrinsics that it reads: they are rounded once, not twice. -/
theorem C223_intrinsics_once (c c' : CalCamera) (R P : NpMat) (hc : CameraKept c c') (hn : PlainText c.name) (hR : HasShape R 3 3)
    (hP : HasShape P 3 4) (hk : c.K.data.length = 9) (hd : c.d.data.length = 5) (r : CalCamera) (x : CalExtrinsics) (a : CalAbout)
    (hr : StereoShape r) (hx : ExtrinsicsShape x) (ha : OneLineEach a) :
    (∃ t l' r' x', stereoYaml { c' with R := R, P := P } r x a = .ok t ∧ readStereo t = some (l', r', x') ∧
      l'.K = c'.K ∧ l'.d = c'.d ∧ l'.name = c'.name ∧ l'.width = c'.width ∧ l'.height = c'.height) ∧
    ∃ t l' r' x', stereoYaml r { c' with R := R, P := P } x a = .ok t ∧ readStereo t = some (l', r', x') ∧
      r'.K = c'.K ∧ r'.d = c'.d ∧ r'.name = c'.name ∧ r'.width = c'.width ∧ r'.height = c'.height := by
  have hs : StereoShape { c' with R := R, P := P } :=
    ⟨⟨hc.K.1, hc.K.2.1, by rw [← hc.K.2.2.length_eq, hk]⟩, ⟨hc.d.1, hc.d.2.1, by rw [← hc.d.2.2.length_eq, hd]⟩, hR, hP,
      by rw [hc.name]; exact hn⟩
  constructor
  · obtain ⟨t, l', r', x', h1, h2, h3, -, -⟩ := C223_stereo _ r x a hs hr hx ha
    exact ⟨t, l', r', x', h1, h2, same_of_six hc.K h3.K, same_of_six hc.d h3.d, h3.name, h3.width, h3.height⟩
  · obtain ⟨t, l', r', x', h1, h2, -, h3, -⟩ := C223_stereo r _ x a hr hs hx ha
    exact ⟨t, l', r', x', h1, h2, same_of_six hc.K h3.K, same_of_six hc.d h3.d, h3.name, h3.width, h3.height⟩

/-! ## What does not survive -/

/-- A relative pose whose fundamental matrix is not zero is read with a fundamental matrix that is not zero. -/
def FundamentalSurvives : Prop :=
  ∀ (l r : CalCamera) (x : CalExtrinsics) (a : CalAbout) (t : Text) (l' r' : CalCamera) (x' : CalExtrinsics),
    StereoShape l → StereoShape r → ExtrinsicsShape x → OneLineEach a → stereoYaml l r x a = .ok t →
      readStereo t = some (l', r', x') → (∃ y ∈ x.F.data, y ≠ 0) → ∃ y ∈ x'.F.data, y ≠ 0

private def exCam : CalCamera :=
  ⟨1280, 1024, "LM165".toList, ⟨3, 3, [1500, 0, 640, 0, 1500, 512, 0, 0, 1]⟩, ⟨1, 5, [1 / 7, -1 / 30, 0, 1 / 1000, 0]⟩,
    ⟨3, 3, [1, 0, 0, 0, 1, 0, 0, 0, 1]⟩, ⟨3, 4, [1500, 0, 640, 0, 0, 1500, 512, 0, 0, 0, 1, 0]⟩⟩

private def exExt : CalExtrinsics :=
  ⟨⟨3, 3, [1, 0, 0, 0, 1, 0, 0, 0, 1]⟩, ⟨3, 1, [-1 / 3, 0, 0]⟩, ⟨3, 3, [0, 0, 0, 0, 0, 1 / 4000000, 0, -1 / 4000000, 0]⟩,
    ⟨3, 3, [0, 0, 0, 0, 0, 1 / 3, 0, -1 / 3, 0]⟩⟩

private def exAbout : CalAbout := ⟨"2026-11-16".toList, "me".toList, "here".toList, "1.0".toList, "20".toList, "0.25".toList⟩

private theorem exCam_shape : StereoShape exCam :=
  ⟨⟨rfl, rfl, rfl⟩, ⟨rfl, rfl, rfl⟩, ⟨rfl, rfl, rfl⟩, ⟨rfl, rfl, rfl⟩, ⟨by decide, by decide, by decide⟩⟩

private theorem exExt_shape : ExtrinsicsShape exExt := ⟨⟨rfl, rfl, rfl⟩, ⟨rfl, rfl, rfl⟩, ⟨rfl, rfl, rfl⟩, ⟨rfl, rfl, rfl⟩⟩

private theorem exAbout_one : OneLineEach exAbout := ⟨by decide, by decide, by decide, by decide, by decide, by decide⟩

/-- C223: the fundamental matrix of a stereo pair with images of a thousand pixels has entries below the sixth decimal; the one that is read
from the file can be zero, and says nothing about which points match. -/
theorem C223_fundamental_false : ¬ FundamentalSurvives := by
  intro h
  obtain ⟨t, l', r', x', h1, h2, -, -, h3⟩ := C223_stereo exCam exCam exExt exAbout exCam_shape exCam_shape exExt_shape exAbout_one
  obtain ⟨y, hy, hy0⟩ := h _ _ _ _ t l' r' x' exCam_shape exCam_shape exExt_shape exAbout_one h1 h2
    ⟨1 / 4000000, by simp [exExt], by norm_num⟩
  have hz : ∀ z ∈ x'.F.data, z = 0 := by
    have hF := h3.F.2.2
    have key : ∀ u v : ℚ, SixDecimals u v → |u| ≤ 1 / 4000000 → v = 0 := by
      rintro u v ⟨hn, k, rfl⟩ hu
      apply six_unique (x := 0) ⟨0, by simp⟩
      refine ⟨?_, k, rfl⟩
      by_contra hc
      push Not at hc
      have hk : k ≠ 0 := by rintro rfl; norm_num at hc
      have : (1 : ℚ) ≤ |(k : ℚ)| := by exact_mod_cast Int.one_le_abs hk
      have h6 : (1 : ℚ) / 10 ^ 6 ≤ |(k : ℚ) / 10 ^ 6| := by
        rw [abs_div, abs_of_pos (by positivity : (0 : ℚ) < 10 ^ 6)]
        exact div_le_div_of_nonneg_right this (by positivity)
      have := abs_sub_abs_le_abs_sub ((k : ℚ) / 10 ^ 6) u
      linarith
    have hsmall : ∀ u ∈ exExt.F.data, |u| ≤ 1 / 4000000 := by
      intro u hu
      simp only [exExt, List.mem_cons, List.not_mem_nil, or_false] at hu
      rcases hu with rfl | rfl | rfl | rfl | rfl | rfl | rfl | rfl | rfl <;> norm_num [abs_le]
    generalize exExt.F.data = u at hF hsmall
    generalize x'.F.data = v at hF
    clear h2 h3 hy hy0
    induction hF with
    | nil => simp
    | cons huv _ ih =>
      intro z hz
      rcases List.mem_cons.mp hz with rfl | hz
      · exact key _ _ huv (hsmall _ (by simp))
      · exact ih (fun a ha => hsmall a (List.mem_cons_of_mem _ ha)) z hz
  exact hy0 (hz y hy)

/-! ## Examples -/

/-- The hypotheses of `C223_mono` hold for a camera with a column of coefficients. -/
example : MonoShape { exCam with d := ⟨5, 1, exCam.d.data⟩ } ∧ OneLineEach exAbout :=
  ⟨⟨⟨rfl, rfl, rfl⟩, ⟨rfl, rfl, rfl⟩, ⟨rfl, rfl, rfl⟩, ⟨rfl, rfl, rfl⟩, ⟨by decide, by decide, by decide⟩⟩, exAbout_one⟩

/-- A number as it is printed: rounded, with its sign. -/
example : fixed8 (-1 / 30) = "-0.033333".toList ∧ fixed8 (1500 + 1 / 7) = "1500.142857".toList := by
  constructor <;> decide +kernel

/-- C223: a number has at least eight characters, and more only if its digits need them. -/
theorem C223_width (q : ℚ) : (fixed8 q).length = max 8 (fixed6 q).length := by
  simp only [fixed8, List.length_append, List.length_replicate]
  omega

/-! ## C242: cameras written by the camera models -/

private theorem read_file (c : CalCamera) (k d r p : List ℚ) (hn : PlainText c.name) (hk : k.length = 9) (hd : d.length = 5) (hr : r.length = 9)
    (hp : p.length = 12) (rest : List Text) (hs : Stops 0 rest) :
    cameraFromNode 0 ("%YAML:1.0".toList :: (camLines 0 c k d r p ++ rest)) =
      some ⟨c.width, c.height, c.name, ⟨3, 3, k.map r6⟩, ⟨1, 5, d.map r6⟩, ⟨3, 3, r.map r6⟩, ⟨3, 4, p.map r6⟩⟩ := by
  rw [← read_camLines 0 c k d r p hn hk hd hr hp rest hs]
  have h0 := yaml_skip
  unfold cameraFromNode
  rw [h0 "camera_name" _ (by decide), h0 "image_width" _ (by decide), h0 "image_height" _ (by decide),
    h0 "camera_matrix" _ (by decide), h0 "distortion_coefficients" _ (by decide), h0 "rectification_matrix" _ (by decide),
    h0 "projection_matrix" _ (by decide)]

private theorem meta_noBreak (a : CalAbout) (ha : OneLineEach a) : ∀ l ∈ metadataLines a, '\n' ∉ l := fun l hl =>
  about_noBreak a ha l (by
    simp only [metadataLines, calAboutLines, List.mem_cons, List.not_mem_nil, or_false] at hl ⊢
    tauto)

private theorem optional_noBreak (k : String) (hk : plainKey k = true) (v : Option Text) (hv : ∀ t ∈ v, '\n' ∉ t) :
    ∀ l ∈ optionalLine k v, '\n' ∉ l := by
  intro l hl
  cases v with
  | none => cases hl
  | some t =>
    simp only [optionalLine, List.mem_singleton] at hl
    subst hl
    exact line_noBreak hk _ _ (hv t rfl)

private theorem range_column (m : NpMat) (n : ℕ) (hm : HasShape m n 1) : rangeRes (fun i => m.at i 0) m.rows = .ok m.data := by
  obtain ⟨h1, h2, h3⟩ := hm
  have : m.rows = m.data.length := by rw [h1, h3]; omega
  rw [this]
  apply range_all
  intro i x hx
  have hi := (List.getElem?_eq_some_iff.mp hx).1
  simp only [NpMat.at, h2, Nat.mul_one, Nat.add_zero, hx]
  rw [if_pos ⟨by omega, by omega⟩]

/-- C242: a camera with its distortion coefficients in a column is written by `MonoCamera.to_str` so that it can be read, to six decimals. -/
theorem C242_column_partial (c : CalCamera) (a : CalAbout) (images error : Option Text) (hc : MonoShape c) (ha : OneLineEach a)
    (hi : ∀ t ∈ images, '\n' ∉ t) (he : ∀ t ∈ error, '\n' ∉ t) :
    ∃ t c', monoToStr c a images error = .ok t ∧ readMono t = some c' ∧ CameraKept c c' := by
  obtain ⟨⟨-, -, hK⟩, hd, ⟨-, -, hR⟩, ⟨-, -, hP⟩, hname⟩ := hc
  have ed := range_column c.d 5 hd
  let rest := metadataLines a ++ optionalLine "number_of_images" images ++ optionalLine "avg_reprojection_error" error
  have hY : ∀ x ∈ ["%YAML:1.0".toList] ++ camLines 0 c c.K.data c.d.data c.R.data c.P.data ++ rest, '\n' ∉ x := by
    intro x hx
    simp only [rest, List.mem_append, List.mem_singleton] at hx
    rcases hx with (rfl | hx) | (hx | hx) | hx
    · decide
    · exact cam_noBreak _ _ _ _ _ _ hname _ hx
    · exact meta_noBreak a ha _ hx
    · exact optional_noBreak _ (by decide) _ hi _ hx
    · exact optional_noBreak _ (by decide) _ he _ hx
  refine ⟨joinCalLines (["%YAML:1.0".toList] ++ camLines 0 c c.K.data c.d.data c.R.data c.P.data ++ rest),
    ⟨c.width, c.height, c.name, ⟨3, 3, c.K.data.map r6⟩, ⟨1, 5, c.d.data.map r6⟩, ⟨3, 3, c.R.data.map r6⟩,
    ⟨3, 4, c.P.data.map r6⟩⟩, ?_, ?_, ⟨rfl, rfl, rfl, ⟨rfl, rfl, kept _⟩, ⟨rfl, rfl, kept _⟩, ⟨rfl, rfl, kept _⟩, ⟨rfl, rfl, kept _⟩⟩⟩
  · simp only [monoToStr, toStrLines, ed, camLines_eq 0 c _ hK hR hP, bind, Except.bind, rest, List.append_assoc]
  · rw [readMono, split_lines _ hY]
    have e : ["%YAML:1.0".toList] ++ camLines 0 c c.K.data c.d.data c.R.data c.P.data ++ rest ++ [[]] =
        "%YAML:1.0".toList :: (camLines 0 c c.K.data c.d.data c.R.data c.P.data ++ (rest ++ [[]])) := by
      simp only [List.append_assoc, List.cons_append, List.nil_append]
    rw [e]
    exact read_file c _ _ _ _ hname hK hd.2.2 hR hP _ (stops_line 0 0 le_rfl "date" (by decide) _ _)

example : MonoShape { exCam with d := ⟨5, 1, exCam.d.data⟩ } ∧ OneLineEach exAbout :=
  ⟨⟨⟨rfl, rfl, rfl⟩, ⟨rfl, rfl, rfl⟩, ⟨rfl, rfl, rfl⟩, ⟨rfl, rfl, rfl⟩, ⟨by decide, by decide, by decide⟩⟩, exAbout_one⟩

/-- C242 in full: a camera that is read from a calibration file can be written with `to_str` and read again. -/
def ReadCamerasCanBeWritten : Prop :=
  ∀ (t : Text) (c : CalCamera) (a : CalAbout), readMono t = some c → PlainText c.name → OneLineEach a →
    ∃ t' c', monoToStr c a none none = .ok t' ∧ readMono t' = some c'

private theorem nodeMat_short {k : String} (h : plainKey k = true) (n r c : ℕ) (d : List ℚ) (rest : List Text)
    (hr : Stops n rest) (hd : d.length ≠ r * c) (hne : d ≠ []) :
    nodeMat (n + 2) (getNode n k (calMatrix n k r c d ++ rest)) = none := by
  have e : calMatrix n k r c d ++ rest = calLine n k "!!opencv-matrix".toList ::
      ([calLine (n + 2) "rows" (decDigits r), calLine (n + 2) "cols" (decDigits c),
        calLine (n + 2) "dt" "d".toList, calLine (n + 2) "data" ('[' :: (joinNumbers d ++ [']']))] ++ rest) := rfl
  rw [e, getNode_hit _ _ rest (line_facts h n _).1 (line_facts h n _).2.1 ?_ hr]
  · rw [line_value h n _ (by decide) (by decide)]
    rw [nodeMat_tag (n + 2) _ _ rfl, nodeNat_line (by decide), line_skip (by decide) (by decide), nodeNat_line (by decide),
      line_skip (by decide) (by decide), line_skip (by decide) (by decide), line_skip (by decide) (by decide), getNode,
      if_pos ⟨(line_facts (by decide) _ _).1, (line_facts (by decide) _ _).2.1⟩]
    simp only [Option.bind_some]
    rw [line_value (by decide) _ _ (by simp [isBlank]) (by
      intro x hx
      rw [List.getLast?_cons, List.getLast?_append] at hx
      simp at hx; subst hx; decide), readNumbers_join d hne]
    simp [hd]
  · intro l hl
    simp only [List.mem_cons, List.not_mem_nil, or_false] at hl
    rcases hl with rfl | rfl | rfl | rfl
    · rw [(line_facts (k := "rows") (by decide) _ _).1]; omega
    · rw [(line_facts (k := "cols") (by decide) _ _).1]; omega
    · rw [(line_facts (k := "dt") (by decide) _ _).1]; omega
    · rw [(line_facts (k := "data") (by decide) _ _).1]; omega

/-- C242: a camera whose distortion coefficients are in a row, as every camera that is read from a file of auv_cal has them (`C223_mono`), is
written with the first coefficient only, and what is written cannot be read. -/
theorem C242_row_unreadable (c : CalCamera) (a : CalAbout) (images error : Option Text) (hc : StereoShape c) (ha : OneLineEach a)
    (hi : ∀ t ∈ images, '\n' ∉ t) (he : ∀ t ∈ error, '\n' ∉ t) :
    ∃ t, monoToStr c a images error = .ok t ∧ readMono t = none := by
  obtain ⟨⟨-, -, hK⟩, ⟨hd1, hd2, hd3⟩, ⟨-, -, hR⟩, ⟨-, -, hP⟩, hname⟩ := hc
  obtain ⟨d, ds, hdd⟩ := List.exists_cons_of_ne_nil (len_ne hd3)
  have ed : rangeRes (fun i => c.d.at i 0) c.d.rows = .ok [d] := by
    rw [hd1]
    simp [rangeRes, NpMat.at, hd1, hd2, hdd, bind, Except.bind]
  let rest := metadataLines a ++ optionalLine "number_of_images" images ++ optionalLine "avg_reprojection_error" error
  have hY : ∀ x ∈ ["%YAML:1.0".toList] ++ camLines 0 c c.K.data [d] c.R.data c.P.data ++ rest, '\n' ∉ x := by
    intro x hx
    simp only [rest, List.mem_append, List.mem_singleton] at hx
    rcases hx with (rfl | hx) | (hx | hx) | hx
    · decide
    · exact cam_noBreak _ _ _ _ _ _ hname _ hx
    · exact meta_noBreak a ha _ hx
    · exact optional_noBreak _ (by decide) _ hi _ hx
    · exact optional_noBreak _ (by decide) _ he _ hx
  refine ⟨joinCalLines (["%YAML:1.0".toList] ++ camLines 0 c c.K.data [d] c.R.data c.P.data ++ rest), ?_, ?_⟩
  · simp only [monoToStr, toStrLines, ed, camLines_eq 0 c _ hK hR hP, bind, Except.bind, rest, List.append_assoc]
  · rw [readMono, split_lines _ hY]
    have hn : nodeMat (0 + 2) (getNode 0 "distortion_coefficients" (["%YAML:1.0".toList] ++ camLines 0 c c.K.data [d] c.R.data c.P.data ++ rest ++ [[]])) =
        none := by
      have e : ["%YAML:1.0".toList] ++ camLines 0 c c.K.data [d] c.R.data c.P.data ++ rest ++ [[]] = "%YAML:1.0".toList ::
          calLine 0 "image_width" (decDigits c.width) ::
          calLine 0 "image_height" (decDigits c.height) :: calLine 0 "camera_name" c.name ::
          (calMatrix 0 "camera_matrix" 3 3 c.K.data ++
            (calLine 0 "distortion_model" (if c.d.data.length > 5 then "rational_polynomial".toList else "plumb_bob".toList) ::
              (calMatrix 0 "distortion_coefficients" 1 5 [d] ++ (calMatrix 0 "rectification_matrix" 3 3 c.R.data ++
                (calMatrix 0 "projection_matrix" 3 4 c.P.data ++ (rest ++ [[]])))))) := by
        simp only [camLines, List.append_assoc, List.cons_append, List.nil_append]
      rw [e, yaml_skip _ _ (by decide), line_skip (by decide) (by decide), line_skip (by decide) (by decide), line_skip (by decide) (by decide),
        matrix_skip (by decide) (by decide), line_skip (by decide) (by decide)]
      exact nodeMat_short (by decide) 0 1 5 [d] _ (stops_matrix 0 _ (by decide) _ _ _ _) (by simp) (by simp)
    unfold cameraFromNode
    simp only [hn, Option.bind_eq_none_iff, Option.bind_none, implies_true]

/-- C242: the cameras that are read from the files of auv_cal cannot be written back. -/
theorem C242_rewrite_false : ¬ ReadCamerasCanBeWritten := by
  intro h
  obtain ⟨t, c', h1, h2, h3⟩ := C223_mono { exCam with d := ⟨5, 1, exCam.d.data⟩ } ⟨9, 1, [0, 0, 0, 0, 0, 0, 0, 0, 0]⟩ exAbout
    ⟨⟨rfl, rfl, rfl⟩, ⟨rfl, rfl, rfl⟩, ⟨rfl, rfl, rfl⟩, ⟨rfl, rfl, rfl⟩, ⟨by decide, by decide, by decide⟩⟩ rfl (by decide) (by decide) exAbout_one
  have hn : PlainText c'.name := by rw [h3.name]; exact ⟨by decide, by decide, by decide⟩
  have hs : StereoShape c' :=
    ⟨⟨h3.K.1, h3.K.2.1, by rw [← h3.K.2.2.length_eq]; rfl⟩, ⟨h3.d.1, h3.d.2.1, by rw [← h3.d.2.2.length_eq]; rfl⟩,
      ⟨h3.R.1, h3.R.2.1, by rw [← h3.R.2.2.length_eq]; rfl⟩, ⟨h3.P.1, h3.P.2.1, by rw [← h3.P.2.2.length_eq]; rfl⟩, hn⟩
  obtain ⟨t', c'', g1, g2⟩ := h t c' exAbout h2 hn exAbout_one
  obtain ⟨t'', k1, k2⟩ := C242_row_unreadable c' exAbout none none hs exAbout_one (by simp) (by simp)
  rw [k1] at g1
  cases g1
  rw [k2] at g2
  cases g2

private theorem getNode_absent (n : ℕ) (k : String) (ls : List Text) (h : ∀ l ∈ ls, calIndent l = n → calKey l ≠ k.toList) :
    getNode n k ls = none := by
  have := getNode_skip n k ls [] h
  rw [List.append_nil] at this
  exact this

private theorem getNode_sub (n : ℕ) (k : String) : ∀ (ls : List Text) (v : Text) (B : List Text), getNode n k ls = some (v, B) → ∀ l ∈ B, l ∈ ls
  | [], _, _, h => by cases h
  | l :: ls, v, B, h => by
    rw [getNode] at h
    split_ifs at h
    · cases h
      intro x hx
      exact List.mem_cons_of_mem _ ((List.takeWhile_sublist _).subset hx)
    · intro x hx
      exact List.mem_cons_of_mem _ (getNode_sub n k ls v B h x hx)

private theorem plain_lines (r c : ℕ) (d : List ℚ) : ∀ l ∈ plainMatrix r c d, calIndent l = 4 ∧ '\n' ∉ l := by
  intro l hl
  simp only [plainMatrix, List.mem_cons, List.not_mem_nil, or_false] at hl
  rcases hl with rfl | rfl | rfl
  · exact ⟨(line_facts (by decide) _ _).1, line_noBreak (by decide) _ _ (dec_noBreak _)⟩
  · exact ⟨(line_facts (by decide) _ _).1, line_noBreak (by decide) _ _ (dec_noBreak _)⟩
  · refine ⟨(line_facts (by decide) _ _).1, matrix_noBreak (k := "data") (by decide) 2 0 0 d _ ?_⟩
    simp [calMatrix]

private theorem cam_keys (c : CalCamera) (k d r p : List ℚ) : ∀ l ∈ camLines 2 c k d r p, calIndent l = 2 → calKey l ≠ "rotation_matrix".toList := by
  intro l hl h2
  have hm : ∀ {key : String} (hk : plainKey key = true) (r c : ℕ) (d : List ℚ), key.toList ≠ "rotation_matrix".toList →
      l ∈ calMatrix 2 key r c d → calKey l ≠ "rotation_matrix".toList := by
    intro key hk r c d hne hl
    rcases matrix_indent hk 2 r c d l hl with h1 | h1
    · rw [h1.2]; exact hne
    · omega
  simp only [camLines, List.mem_append, List.mem_cons, List.not_mem_nil, or_false] at hl
  rcases hl with (((((rfl | rfl | rfl) | hl) | rfl) | hl) | hl) | hl
  · rw [(line_facts (by decide) _ _).2.1]; decide
  · rw [(line_facts (by decide) _ _).2.1]; decide
  · rw [(line_facts (by decide) _ _).2.1]; decide
  · exact hm (by decide) _ _ _ (by decide) hl
  · rw [(line_facts (by decide) _ _).2.1]; decide
  · exact hm (by decide) _ _ _ (by decide) hl
  · exact hm (by decide) _ _ _ (by decide) hl
  · exact hm (by decide) _ _ _ (by decide) hl

private theorem flat_ok {m : NpMat} {n : ℕ} {l : List ℚ} (h : m.flat n = .ok l) : m.data.length = n ∧ l = m.data := by
  unfold NpMat.flat at h
  split_ifs at h with hl
  cases h
  exact ⟨hl, rfl⟩

private theorem toStr_lines {n : ℕ} {c : CalCamera} {ls : List Text} (h : toStrLines n c = .ok ls) :
    ∃ d, ls = camLines n c c.K.data d c.R.data c.P.data := by
  simp only [toStrLines, bind, Except.bind] at h
  cases hd : rangeRes (fun i => c.d.at i 0) c.d.rows with
  | error e => rw [hd] at h; cases h
  | ok d =>
    rw [hd] at h
    dsimp only at h
    refine ⟨d, ?_⟩
    cases hk : c.K.flat 9 with
    | error e => simp only [calCameraLines, hk, bind, Except.bind] at h; cases h
    | ok k =>
      cases hr : c.R.flat 9 with
      | error e => simp only [calCameraLines, hk, hr, bind, Except.bind] at h; cases h
      | ok r =>
        cases hp : c.P.flat 12 with
        | error e => simp only [calCameraLines, hk, hr, hp, bind, Except.bind] at h; cases h
        | ok p =>
          rw [camLines_eq n c d (flat_ok hk).1 (flat_ok hr).1 (flat_ok hp).1] at h
          cases h
          rfl

/-- C242 in full: a stereo camera that is written with `StereoCamera.to_str` can be read. -/
def StereoCanBeWritten : Prop :=
  ∀ (l r : CalCamera) (x : CalExtrinsics) (a : CalAbout) (t : Text), PlainText l.name → PlainText r.name → OneLineEach a →
    stereoToStr l r x a = .ok t → (readStereo t).isSome = true

/-- C242: no stereo camera that is written with `StereoCamera.to_str` can be read: the line `extrinsics:` runs into the next. -/
theorem C242_stereo_unreadable (l r : CalCamera) (x : CalExtrinsics) (a : CalAbout) (t : Text) (hl : PlainText l.name) (hr : PlainText r.name)
    (ha : OneLineEach a) (h : stereoToStr l r x a = .ok t) : readStereo t = none := by
  simp only [stereoToStr, bind, Except.bind] at h
  cases hL : toStrLines 2 l with
  | error e => rw [hL] at h; cases h
  | ok L =>
  cases hR : toStrLines 2 r with
  | error e => rw [hL, hR] at h; cases h
  | ok R =>
  cases hX : toStrExtrinsics x with
  | error e => rw [hL, hR, hX] at h; cases h
  | ok X =>
  rw [hL, hR, hX] at h
  dsimp only at h
  obtain ⟨dl, rfl⟩ := toStr_lines hL
  obtain ⟨dr, rfl⟩ := toStr_lines hR
  have hx : ∀ y ∈ X, '\n' ∉ y ∧ (calIndent y = 2 → calKey y ≠ "rotation_matrix".toList) := by
    intro y hy
    simp only [toStrExtrinsics, bind, Except.bind] at hX
    repeat' split at hX
    all_goals first | (cases hX; done) | skip
    cases hX
    simp only [List.mem_append, List.mem_singleton] at hy
    rcases hy with ((((((rfl | hy) | rfl) | hy) | rfl) | hy) | rfl) | hy
    · exact ⟨by decide, by decide⟩
    · exact ⟨(plain_lines _ _ _ _ hy).2, fun h => by rw [(plain_lines _ _ _ _ hy).1] at h; omega⟩
    · exact ⟨by decide, by decide⟩
    · exact ⟨(plain_lines _ _ _ _ hy).2, fun h => by rw [(plain_lines _ _ _ _ hy).1] at h; omega⟩
    · exact ⟨by decide, by decide⟩
    · exact ⟨(plain_lines _ _ _ _ hy).2, fun h => by rw [(plain_lines _ _ _ _ hy).1] at h; omega⟩
    · exact ⟨by decide, by decide⟩
    · exact ⟨(plain_lines _ _ _ _ hy).2, fun h => by rw [(plain_lines _ _ _ _ hy).1] at h; omega⟩
  cases h
  have hall : ∀ y ∈ ["%YAML:1.0".toList, calHead "left"] ++ camLines 2 l l.K.data dl l.R.data l.P.data ++ [calHead "right"] ++
      camLines 2 r r.K.data dr r.R.data r.P.data ++ X ++ metadataLines a,
      '\n' ∉ y ∧ (calIndent y = 2 → calKey y ≠ "rotation_matrix".toList) := by
    intro y hy
    simp only [List.mem_append, List.mem_cons, List.not_mem_nil, or_false] at hy
    rcases hy with (((((rfl | rfl) | hy) | rfl) | hy) | hy) | hy
    · exact ⟨by decide, by decide⟩
    · exact ⟨by decide, by decide⟩
    · exact ⟨cam_noBreak _ _ _ _ _ _ hl _ hy, cam_keys _ _ _ _ _ _ hy⟩
    · exact ⟨by decide, by decide⟩
    · exact ⟨cam_noBreak _ _ _ _ _ _ hr _ hy, cam_keys _ _ _ _ _ _ hy⟩
    · exact hx y hy
    · refine ⟨meta_noBreak a ha y hy, fun h => ?_⟩
      simp only [metadataLines, List.mem_cons, List.not_mem_nil, or_false] at hy
      rcases hy with rfl | rfl | rfl | rfl <;> (rw [(line_facts (by decide) _ _).1] at h; omega)
  unfold readStereo
  rw [split_lines _ fun y hy => (hall y hy).1]
  dsimp only
  have hno : ∀ (v : Text) (B : List Text), getNode 0 "extrinsics" (["%YAML:1.0".toList, calHead "left"] ++
      camLines 2 l l.K.data dl l.R.data l.P.data ++ [calHead "right"] ++
      camLines 2 r r.K.data dr r.R.data r.P.data ++ X ++ metadataLines a ++ [[]]) = some (v, B) → extrinsicsFromNode B = none := by
    intro v B hB
    have : getNode 2 "rotation_matrix" B = none := getNode_absent 2 _ B fun y hy h2 => by
      have hm := getNode_sub _ _ _ _ _ hB y hy
      rw [List.mem_append] at hm
      rcases hm with hm | hm
      · exact (hall y hm).2 h2
      · simp only [List.mem_singleton] at hm
        subst hm
        cases h2
    unfold extrinsicsFromNode
    rw [this]
    rfl
  simp only [Option.bind_eq_none_iff, Option.map_eq_none_iff]
  rintro ⟨v1, B1⟩ - c1 - ⟨v2, B2⟩ - c2 - ⟨v3, B3⟩ h3
  exact hno v3 B3 h3

/-- C242: stereo cameras cannot be written with `to_str`. -/
theorem C242_stereo_false : ¬ StereoCanBeWritten := by
  intro h
  have hok : ∃ t, stereoToStr exCam exCam exExt exAbout = .ok t := by
    simp only [stereoToStr, toStrLines, toStrExtrinsics, calCameraLines, exCam, exExt, rangeRes, NpMat.at, NpMat.flat, bind, Except.bind]
    exact ⟨_, rfl⟩
  obtain ⟨t, ht⟩ := hok
  have hn : PlainText exCam.name := exCam_shape.name
  have := h exCam exCam exExt exAbout t hn hn exAbout_one ht
  rw [C242_stereo_unreadable exCam exCam exExt exAbout t hn hn exAbout_one ht] at this
  cases this

end Oplab.Props
