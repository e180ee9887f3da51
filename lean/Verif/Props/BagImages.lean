import Verif.Spec.BagImages
import Verif.Props.SensorFrom

/-! # C245: images extracted from ROS bags -/

namespace Oplab.Props
open Oplab Oplab.Spec

private theorem char_facts : ∀ d, d < 10 → (Char.ofNat (48 + d)).isDigit = true ∧ (Char.ofNat (48 + d)).toNat = 48 + d := by
  decide

private theorem dec_facts (n : ℕ) : digitsValue (decDigits n) = n ∧ (decDigits n).all Char.isDigit = true ∧ decDigits n ≠ [] := by
  induction n using Nat.strong_induction_on with
  | _ n ih =>
    rw [decDigits]
    split
    · next h =>
      refine ⟨?_, ?_, by simp⟩
      · simp [digitsValue, (char_facts n h).2]
      · simp [(char_facts n h).1]
    · next h =>
      obtain ⟨h1, h2, h3⟩ := ih (n / 10) (by omega)
      have hd := char_facts (n % 10) (Nat.mod_lt _ (by omega))
      refine ⟨?_, ?_, by simp⟩
      · unfold digitsValue at h1 ⊢
        rw [List.foldl_append, h1]
        simp only [List.foldl_cons, List.foldl_nil, hd.2]
        omega
      · simp only [List.all_append, h2, List.all_cons, hd.1, List.all_nil, Bool.and_self]

private theorem dec_length : ∀ k n, 10 ^ k ≤ n → k + 1 ≤ (decDigits n).length
  | 0, n, _ => by
    have := (dec_facts n).2.2
    have := List.length_pos_iff.mpr this
    omega
  | k + 1, n, h => by
    have h10 : ¬ n < 10 := by
      have : 10 ^ 1 ≤ 10 ^ (k + 1) := Nat.pow_le_pow_right (by omega) (by omega)
      omega
    rw [decDigits, if_neg h10, List.length_append]
    have := dec_length k (n / 10) (by rw [Nat.le_div_iff_mul_le (by omega)]; rw [Nat.pow_succ] at h; exact h)
    simp only [List.length_cons, List.length_nil]
    omega

private theorem frame_eq : "frame".toList = ['f', 'r', 'a', 'm', 'e'] := by decide
private theorem dot_eq : ".".toList = ['.'] := by decide
private theorem png_eq : ".png".toList = ['.', 'p', 'n', 'g'] := by decide

private theorem name_eq (ns : ℕ) : extractName ns = ['f', 'r', 'a', 'm', 'e'] ++ (decDigits ns).take ((decDigits ns).length - 9) ++ ['.'] ++
    (decDigits ns).drop ((decDigits ns).length - 9) ++ ['.', 'p', 'n', 'g'] := by
  unfold extractName
  rw [frame_eq, dot_eq, png_eq]

private theorem digit_ne {l : Text} (h : l.all Char.isDigit = true) (c : Char) (hc : c.isDigit = false) : c ∉ l := by
  intro hm
  rw [List.all_eq_true] at h
  rw [h c hm] at hc
  cases hc

private theorem name_chars (ns : ℕ) (c : Char) (hc : c.isDigit = false) (h : c ∉ ['f', 'r', 'a', 'm', 'e', '.', 'p', 'n', 'g']) : c ∉ extractName ns := by
  have hd := digit_ne (dec_facts ns).2.1 c hc
  rw [name_eq]
  simp only [List.mem_append]
  rintro ((((h1 | h1) | h1) | h1) | h1)
  · exact h (by fin_cases h1 <;> decide)
  · exact hd (List.mem_of_mem_take h1)
  · exact h (by fin_cases h1; decide)
  · exact hd (List.mem_of_mem_drop h1)
  · exact h (by fin_cases h1 <;> decide)

private theorem name_kept (ns : ℕ) : ¬ (".txt".toList <:+: extractName ns) ∧ ¬ ("._".toList <:+: extractName ns) := by
  constructor
  · intro h
    exact name_chars ns 't' (by decide) (by decide) (h.subset (by decide))
  · intro h
    exact name_chars ns '_' (by decide) (by decide) (h.subset (by decide))

private theorem name_inj {a b : ℕ} (h : extractName a = extractName b) : a = b := by
  have key : ∀ n, (extractName n).filter Char.isDigit = decDigits n := by
    intro n
    have hd := (dec_facts n).2.1
    rw [List.all_eq_true] at hd
    rw [name_eq]
    simp only [List.filter_append]
    have e1 : (['f', 'r', 'a', 'm', 'e'] : Text).filter Char.isDigit = [] := by decide
    have e2 : (['.'] : Text).filter Char.isDigit = [] := by decide
    have e3 : (['.', 'p', 'n', 'g'] : Text).filter Char.isDigit = [] := by decide
    rw [e1, e2, e3, List.nil_append, List.append_nil, List.append_nil, ← List.filter_append, List.take_append_drop, List.filter_eq_self.mpr hd]
  have := congrArg digitsValue (key a ▸ key b ▸ congrArg (List.filter Char.isDigit) h)
  rwa [(dec_facts a).1, (dec_facts b).1] at this

private theorem time_value (ns : ℕ) (h : 10 ^ 8 ≤ ns) : extractedTime (extractName ns) = some (((ns / 10 : ℕ) : ℚ) / 10 ^ 8) := by
  have hlen := dec_length 8 ns h
  have h10 : ¬ ns < 10 := by omega
  have hs : decDigits ns = decDigits (ns / 10) ++ [Char.ofNat (48 + ns % 10)] := by rw [decDigits, if_neg h10]
  have hf := dec_facts (ns / 10)
  generalize hd : Char.ofNat (48 + ns % 10) = d at hs
  generalize hp : decDigits (ns / 10) = p at hs hf
  have hpl : 8 ≤ p.length := by rw [hs] at hlen; simp at hlen; omega
  -- the parts before and after the point
  have e1 : (decDigits ns).take ((decDigits ns).length - 9) = p.take (p.length - 8) := by
    rw [hs, List.length_append, List.length_singleton, show p.length + 1 - 9 = p.length - 8 by omega, List.take_append_of_le_length (by omega)]
  have e2 : (decDigits ns).drop ((decDigits ns).length - 9) = p.drop (p.length - 8) ++ [d] := by
    rw [hs, List.length_append, List.length_singleton, show p.length + 1 - 9 = p.length - 8 by omega, List.drop_append_of_le_length (by omega)]
  have ename : extractName ns = ['f', 'r', 'a', 'm', 'e'] ++ (p.take (p.length - 8) ++ '.' :: p.drop (p.length - 8)) ++ [d, '.', 'p', 'n', 'g'] := by
    rw [name_eq, e1, e2]
    simp
  have ecut : ((extractName ns).take ((extractName ns).length - 5)).drop 5 = p.take (p.length - 8) ++ '.' :: p.drop (p.length - 8) := by
    rw [ename]
    generalize p.take (p.length - 8) ++ '.' :: p.drop (p.length - 8) = q
    have : (['f', 'r', 'a', 'm', 'e'] ++ q ++ [d, '.', 'p', 'n', 'g']).length - 5 = (['f', 'r', 'a', 'm', 'e'] ++ q).length := by simp
    rw [this, List.take_left]
    rfl
  rw [extractedTime, ecut]
  have hall := hf.2.1
  have hnd : ∀ c ∈ p.take (p.length - 8), (c ≠ '.') := by
    intro c hc e
    subst e
    exact digit_ne hall '.' (by decide) (List.mem_of_mem_take hc)
  have t1 : (p.take (p.length - 8) ++ '.' :: p.drop (p.length - 8)).takeWhile (· ≠ '.') = p.take (p.length - 8) := by
    rw [List.takeWhile_append_of_pos (by simpa using hnd)]
    simp
  have t2 : ((p.take (p.length - 8) ++ '.' :: p.drop (p.length - 8)).dropWhile (· ≠ '.')).drop 1 = p.drop (p.length - 8) := by
    rw [List.dropWhile_append_of_pos (by simpa using hnd)]
    simp
  simp only [readDecimal, t1, t2, List.take_append_drop]
  rw [if_pos ⟨hf.2.2, hall⟩, hf.1]
  have : (p.drop (p.length - 8)).length = 8 := by rw [List.length_drop]; omega
  rw [this]

private theorem near (ns : ℕ) : StampTime ns (((ns / 10 : ℕ) : ℚ) / 10 ^ 8) := by
  have h := Nat.div_add_mod ns 10
  have hm := Nat.mod_lt ns (show 10 > 0 by omega)
  have h' : (10 : ℚ) * ((ns / 10 : ℕ) : ℚ) + ((ns % 10 : ℕ) : ℚ) = ns := by exact_mod_cast h
  have hm' : ((ns % 10 : ℕ) : ℚ) ≤ 9 := by exact_mod_cast Nat.lt_succ_iff.mp hm
  have h0 : (0 : ℚ) ≤ ((ns % 10 : ℕ) : ℚ) := by positivity
  constructor
  · rw [← h']; linarith
  · rw [← h']; linarith

/-- C245: an image with a stamp of at least a tenth of a second is read with its time, cut to 10 nanoseconds. -/
theorem C245_time_partial (ns : ℕ) (h : 10 ^ 8 ≤ ns) : ∃ t, extractedTime (extractName ns) = some t ∧ StampTime ns t :=
  ⟨_, time_value ns h, near ns⟩

example : extractedTime (extractName 1631723390279656559) = some 1631723390.27965655 := by
  rw [time_value _ (by norm_num)]
  norm_num

/-- C245 is false for the first tenth of a second, as in simulations that start at zero: 0.05 s is read as 0.5 s. -/
theorem C245_time_false : ¬ StampsKept := by
  intro h
  obtain ⟨t, h1, h2, h3⟩ := h 50000000
  have e : extractName 50000000 = "frame.50000000.png".toList := by rw [name_eq]; decide +kernel
  have : extractedTime (extractName 50000000) = some (1 / 2) := by rw [e]; decide +kernel
  rw [this] at h1
  cases h1
  norm_num at h2

/-- C245 is false: two images less than 10 nanoseconds apart are read with the same time. -/
theorem C245_order_false : ¬ OrderKept := by
  intro h
  obtain ⟨s, t, h1, h2, h3⟩ := h 1000000001 1000000009 (by norm_num) (by norm_num) (by norm_num)
  rw [time_value _ (by norm_num)] at h1 h2
  cases h1
  cases h2
  norm_num at h3

variable {I : Type}

private theorem bag_apply : ∀ (ms : List (ℕ × I)) (fs : Text → Option I) (n : Text),
    (extractBag fs ms n = fs n ∧ ∀ m ∈ ms, extractName m.1 ≠ n) ∨ ∃ m ∈ ms, extractName m.1 = n ∧ extractBag fs ms n = some m.2
  | [], _, _ => Or.inl ⟨rfl, by simp⟩
  | m :: ms, fs, n => by
    rcases bag_apply ms (fun n => if n = extractName m.1 then some m.2 else fs n) n with ⟨h1, h2⟩ | ⟨x, hx, h1, h2⟩
    · by_cases hn : n = extractName m.1
      · exact Or.inr ⟨m, List.mem_cons_self, hn.symm, by rw [extractBag, h1, if_pos hn]⟩
      · refine Or.inl ⟨by rw [extractBag, h1, if_neg hn], ?_⟩
        intro y hy
        rcases List.mem_cons.mp hy with rfl | hy
        · exact fun e => hn e.symm
        · exact h2 y hy
    · exact Or.inr ⟨x, List.mem_cons_of_mem _ hx, h1, by rw [extractBag]; exact h2⟩

private theorem run_apply : ∀ (bags : List (List (ℕ × I))) (fs : Text → Option I) (n : Text),
    (extractRun fs bags n = fs n ∧ ∀ b ∈ bags, ∀ m ∈ b, extractName m.1 ≠ n) ∨
      ∃ b ∈ bags, ∃ m ∈ b, extractName m.1 = n ∧ extractRun fs bags n = some m.2
  | [], _, _ => Or.inl ⟨rfl, by simp⟩
  | b :: bs, fs, n => by
    rcases run_apply bs (extractBag fs b) n with ⟨h1, h2⟩ | ⟨c, hc, m, hm, h1, h2⟩
    · rcases bag_apply b fs n with ⟨h3, h4⟩ | ⟨m, hm, h3, h4⟩
      · refine Or.inl ⟨by show extractRun (extractBag fs b) bs n = _; rw [h1, h3], ?_⟩
        intro c hc
        rcases List.mem_cons.mp hc with rfl | hc
        · exact h4
        · exact h2 c hc
      · exact Or.inr ⟨b, List.mem_cons_self, m, hm, h3, by show extractRun (extractBag fs b) bs n = _; rw [h1, h4]⟩
    · exact Or.inr ⟨c, List.mem_cons_of_mem _ hc, m, hm, h1, h2⟩

/-- C245 (partial): if no two images of the bags have the same stamp, each of them is in the folder after the extraction, and nothing else that
was not there before. -/
theorem C245_images_partial (fs : Text → Option I) (bags : List (List (ℕ × I)))
    (hd : ∀ b ∈ bags, ∀ m ∈ b, ∀ c ∈ bags, ∀ k ∈ c, m.1 = k.1 → m = k) :
    (∀ b ∈ bags, ∀ m ∈ b, extractRun fs bags (extractName m.1) = some m.2) ∧
      ∀ n, (∀ b ∈ bags, ∀ m ∈ b, extractName m.1 ≠ n) → extractRun fs bags n = fs n := by
  constructor
  · intro b hb m hm
    rcases run_apply bags fs (extractName m.1) with ⟨-, h⟩ | ⟨c, hc, k, hk, h1, h2⟩
    · exact absurd rfl (h b hb m hm)
    · have := hd b hb m hm c hc k hk (name_inj h1).symm
      rw [h2, this]
  · intro n hn
    rcases run_apply bags fs n with ⟨h, -⟩ | ⟨c, hc, k, hk, h1, h2⟩
    · exact h
    · exact absurd h1 (hn c hc k hk)

example : ∀ b ∈ [[(1000000000, 'a')], [(2000000000, 'b')]], ∀ m ∈ b, ∀ c ∈ [[(1000000000, 'a')], [(2000000000, 'b')]], ∀ k ∈ c, m.1 = k.1 → m = k := by
  decide

/-- C245 is false: of two images with the same stamp, as from the two cameras of a stereo pair, one is lost. -/
theorem C245_images_false : ¬ ImagesKept := by
  intro h
  obtain ⟨n, hn⟩ := h [[(1000000000, 1)], [(1000000000, 2)]] _ List.mem_cons_self (1000000000, 1) List.mem_cons_self
  simp only [extractRun, List.foldl_cons, List.foldl_nil, extractBag, noFiles] at hn
  split_ifs at hn
  cases hn

private theorem all_read : ∀ l : List Text, (∀ n ∈ l, extractedTime n ≠ none) → ∃ r, allSome extractedTime l = some r
  | [], _ => ⟨[], rfl⟩
  | n :: l, h => by
    obtain ⟨r, hr⟩ := all_read l fun x hx => h x (List.mem_cons_of_mem _ hx)
    obtain ⟨t, ht⟩ := Option.ne_none_iff_exists'.mp (h n List.mem_cons_self)
    exact ⟨t :: r, by rw [allSome, ht, hr]; rfl⟩

private theorem first_none : ∀ l : List ℚ, firstMin l = none → l = []
  | [], _ => rfl
  | x :: xs, h => by
    unfold firstMin at h
    cases hr : firstMin xs with
    | none => simp [hr] at h
    | some p =>
      obtain ⟨y, j⟩ := p
      simp only [hr] at h
      split at h <;> cases h

private theorem first_nonneg : ∀ (l : List ℚ) (d : ℚ) (k : ℕ), (∀ x ∈ l, 0 ≤ x) → firstMin l = some (d, k) → 0 ≤ d
  | [], _, _, _, h => by simp [firstMin] at h
  | x :: xs, d, k, hl, h => by
    unfold firstMin at h
    cases hr : firstMin xs with
    | none =>
      rw [hr] at h
      cases h
      exact hl x List.mem_cons_self
    | some p =>
      obtain ⟨y, j⟩ := p
      simp only [hr] at h
      split at h
      · cases h
        exact hl x List.mem_cons_self
      · cases h
        exact first_nonneg xs d j (fun z hz => hl z (List.mem_cons_of_mem _ hz)) hr

private theorem first_zero (time : List Char → ℚ) (f : List Char) : ∀ files : List (List Char), (∃ g ∈ files, time g = time f) →
    ∃ k g, firstMin (files.map fun g => |time f - time g|) = some (0, k) ∧ files[k]? = some g ∧ files.find? (fun g => time g = time f) = some g
  | [], h => by simp at h
  | x :: xs, h => by
    by_cases hx : time x = time f
    · refine ⟨0, x, ?_, rfl, by rw [List.find?_cons_of_pos (by simpa using hx)]⟩
      have h0 : |time f - time x| = 0 := by rw [hx]; simp
      rw [List.map_cons, h0]
      unfold firstMin
      cases hr : firstMin (xs.map fun g => |time f - time g|) with
      | none => rfl
      | some p =>
        obtain ⟨y, j⟩ := p
        have := first_nonneg _ y j (by
          intro z hz
          obtain ⟨g, -, rfl⟩ := List.mem_map.mp hz
          exact abs_nonneg _) hr
        simp only [if_pos this]
    · obtain ⟨g, hg, hgf⟩ := h
      have hg' : g ∈ xs := by
        rcases List.mem_cons.mp hg with rfl | hg
        · exact absurd hgf hx
        · exact hg
      obtain ⟨k, g', h1, h2, h3⟩ := first_zero time f xs ⟨g, hg', hgf⟩
      refine ⟨k + 1, g', ?_, by simpa using h2, by rw [List.find?_cons_of_neg (by simpa using hx)]; exact h3⟩
      rw [List.map_cons]
      unfold firstMin
      simp only [h1]
      rw [if_neg]
      intro hle
      have := abs_eq_zero.mp (le_antisymm hle (abs_nonneg _))
      exact hx (by linarith)

private theorem all_value : ∀ (l : List Text) (r : List ℚ), allSome extractedTime l = some r → ∀ n ∈ l, extractedTime n = some (nameTime n)
  | [], _, _, n, hn => by cases hn
  | a :: l, r, h, n, hn => by
    rw [allSome] at h
    cases ha : extractedTime a with
    | none => rw [ha] at h; cases h
    | some t =>
      rw [ha] at h
      cases hl : allSome extractedTime l with
      | none => rw [hl] at h; cases h
      | some r' =>
        rcases List.mem_cons.mp hn with rfl | hn
        · rw [nameTime, ha]; rfl
        · exact all_value l r' hl n hn

/-- C245: what the parser of the folder returns, whatever the names: one record for each image file, in the order of the listing, with the time of
its name; the image of the second camera is the first listed with the same time. -/
theorem C245_pairs (names : List Text) (recs : List BagPair) (h : parseExtracted names = .ok recs) :
    recs.map BagPair.file1 = names.filter IsExtracted ∧
      ∀ r ∈ recs, extractedTime r.file1 = some r.t1 ∧ r.t2 = r.t1 ∧
        (names.filter IsExtracted).find? (fun g => extractedTime g = some r.t1) = some r.file2 := by
  have hE : ∀ n : Text, decide (¬ (".txt".toList <:+: n) ∧ ¬ ("._".toList <:+: n)) = decide (IsExtracted n) := fun n => rfl
  rw [parseExtracted] at h
  simp only [extractedPairs, hE] at h
  generalize names.filter (fun n => decide (IsExtracted n)) = files at h
  cases hall : allSome extractedTime files with
  | none => rw [hall] at h; cases h
  | some ts =>
    have hv := all_value files ts hall
    simp only [hall] at h
    have hp : ∀ f ∈ files, ∃ g, extractedPair nameTime files f = some (f, g) ∧ files.find? (fun g => nameTime g = nameTime f) = some g := by
      intro f hf
      obtain ⟨k, g, h1, h2, h3⟩ := first_zero nameTime f files ⟨f, hf, rfl⟩
      refine ⟨g, ?_, h3⟩
      unfold extractedPair
      simp only [h1]
      rw [if_neg (by norm_num), List.getD_eq_getElem?_getD, h2]
      rfl
    have hfind : ∀ (f : Text) (l : List Text), (∀ n ∈ l, n ∈ files) →
        l.find? (fun g => decide (nameTime g = nameTime f)) = l.find? (fun g => decide (extractedTime g = some (nameTime f))) := by
      intro f l hl
      induction l with
      | nil => rfl
      | cons a l ih =>
        have ha := hv a (hl a List.mem_cons_self)
        have ih' := ih fun n hn => hl n (List.mem_cons_of_mem _ hn)
        by_cases e : nameTime a = nameTime f
        · rw [List.find?_cons_of_pos (by simpa using e), List.find?_cons_of_pos (by rw [ha]; simpa using e)]
        · rw [List.find?_cons_of_neg (by simpa using e), List.find?_cons_of_neg (by rw [ha]; simpa using e), ih']
    have hall2 : ∀ l : List Text, (∀ n ∈ l, n ∈ files) → (l.filterMap (extractedPair nameTime files)).map Prod.fst = l ∧
        ∀ p ∈ l.filterMap (extractedPair nameTime files), p.1 ∈ files ∧ files.find? (fun g => nameTime g = nameTime p.1) = some p.2 := by
      intro l hl
      induction l with
      | nil => exact ⟨rfl, by simp⟩
      | cons a l ih =>
        obtain ⟨g, h1, h2⟩ := hp a (hl a List.mem_cons_self)
        obtain ⟨i1, i2⟩ := ih fun n hn => hl n (List.mem_cons_of_mem _ hn)
        rw [List.filterMap_cons, h1]
        refine ⟨by rw [List.map_cons, i1], ?_⟩
        intro p hpm
        rcases List.mem_cons.mp hpm with rfl | hpm
        · exact ⟨hl _ List.mem_cons_self, h2⟩
        · exact i2 p hpm
    obtain ⟨j1, j2⟩ := hall2 files fun _ h => h
    have h' := Except.ok.inj h
    subst h'
    constructor
    · rw [List.map_map]
      exact j1
    · intro r hr
      obtain ⟨p, hpm, rfl⟩ := List.mem_map.mp hr
      obtain ⟨k1, k2⟩ := j2 p hpm
      have k3 := hv p.1 k1
      refine ⟨k3, ?_, ?_⟩
      · have k4 := List.find?_some k2
        simpa using k4
      · show files.find? (fun g => decide (extractedTime g = some (nameTime p.1))) = some p.2
        rw [← hfind p.1 files fun _ h => h]
        exact k2

example : ∃ recs, parseExtracted [extractName 1000000001, extractName 1000000000] = .ok recs ∧
    recs.map BagPair.file2 = [extractName 1000000001, extractName 1000000001] := by
  have e : (match parseExtracted [extractName 1000000001, extractName 1000000000] with
    | .ok l => some (l.map BagPair.file2) | .error _ => none) = some [extractName 1000000001, extractName 1000000001] := by decide +kernel
  match h : parseExtracted [extractName 1000000001, extractName 1000000000], e with
  | .ok l, e => exact ⟨l, rfl, Option.some.inj e⟩
  | .error _, e => cases e

/-- C245 (partial): from the bags to the records: if all stamps are at least a tenth of a second and no two are within the same 10 nanoseconds,
the parser of a folder that was empty before gives exactly one record for each image, with its time to within 10 nanoseconds and its file. The other camera of
the record is the same file again. Missing: other stamps. -/
theorem C245_records_partial (bags : List (List (ℕ × I))) (names : List Text) (hl : Listing (extractRun noFiles bags) names)
    (hbig : ∀ b ∈ bags, ∀ m ∈ b, 10 ^ 8 ≤ m.1) (hsep : ∀ b ∈ bags, ∀ m ∈ b, ∀ c ∈ bags, ∀ k ∈ c, m.1 / 10 = k.1 / 10 → m = k) :
    ∃ recs, parseExtracted names = .ok recs ∧ (recs.map BagPair.file1).Nodup ∧
      (∀ b ∈ bags, ∀ m ∈ b, ∃ r ∈ recs, StampTime m.1 r.t1 ∧ extractRun noFiles bags r.file1 = some m.2) ∧
      ∀ r ∈ recs, r.file2 = r.file1 ∧ r.t2 = r.t1 ∧ ∃ b ∈ bags, ∃ m ∈ b, StampTime m.1 r.t1 ∧ extractRun noFiles bags r.file1 = some m.2 := by
  have himg := C245_images_partial (noFiles (I := I)) bags fun b hb m hm c hc k hk e => hsep b hb m hm c hc k hk (by rw [e])
  have hname : ∀ n ∈ names, ∃ b ∈ bags, ∃ m ∈ b, extractName m.1 = n := by
    intro n hn
    rw [hl.2] at hn
    rcases run_apply bags noFiles n with ⟨h, -⟩ | ⟨c, hc, k, hk, h1, -⟩
    · exact absurd h hn
    · exact ⟨c, hc, k, hk, h1⟩
  have hfil : (names.filter fun n => decide (¬ (".txt".toList <:+: n) ∧ ¬ ("._".toList <:+: n))) = names := by
    rw [List.filter_eq_self]
    intro n hn
    obtain ⟨b, hb, m, hm, rfl⟩ := hname n hn
    exact decide_eq_true (name_kept m.1)
  have htime : ∀ b ∈ bags, ∀ m ∈ b, nameTime (extractName m.1) = ((m.1 / 10 : ℕ) : ℚ) / 10 ^ 8 := by
    intro b hb m hm
    rw [nameTime, time_value m.1 (hbig b hb m hm)]
    rfl
  obtain ⟨ts, hts⟩ := all_read names (by
    intro n hn
    obtain ⟨b, hb, m, hm, rfl⟩ := hname n hn
    rw [time_value m.1 (hbig b hb m hm)]
    simp)
  have hpairs : extractedPairs nameTime names = names.map fun f => (f, f) := by
    rw [C154_pairs_partial nameTime names, hfil]
    intro x hx y hy e
    obtain ⟨b, hb, m, hm, rfl⟩ := hname x hx
    obtain ⟨c, hc, k, hk, rfl⟩ := hname y hy
    rw [htime b hb m hm, htime c hc k hk] at e
    have e' : ((m.1 / 10 : ℕ) : ℚ) = ((k.1 / 10 : ℕ) : ℚ) := by
      have h10 : (10 : ℚ) ^ 8 ≠ 0 := by norm_num
      field_simp at e
      exact e
    rw [hsep b hb m hm c hc k hk (by exact_mod_cast e')]
  refine ⟨names.map fun f => ⟨nameTime f, f, nameTime f, f⟩, ?_, ?_, ?_, ?_⟩
  · simp only [parseExtracted, hfil, hts, hpairs, List.map_map]
    rfl
  · rw [List.map_map]
    have : (BagPair.file1 ∘ fun f : Text => (⟨nameTime f, f, nameTime f, f⟩ : BagPair)) = id := rfl
    rw [this, List.map_id]
    exact hl.1
  · intro b hb m hm
    have hi := himg.1 b hb m hm
    refine ⟨_, List.mem_map.mpr ⟨extractName m.1, (hl.2 _).mpr (by rw [hi]; simp), rfl⟩, ?_, hi⟩
    show StampTime m.1 (nameTime (extractName m.1))
    rw [htime b hb m hm]
    exact near m.1
  · intro r hr
    obtain ⟨n, hn, rfl⟩ := List.mem_map.mp hr
    obtain ⟨b, hb, m, hm, rfl⟩ := hname n hn
    refine ⟨rfl, rfl, b, hb, m, hm, ?_, himg.1 b hb m hm⟩
    show StampTime m.1 (nameTime (extractName m.1))
    rw [htime b hb m hm]
    exact near m.1

example : Listing (extractRun noFiles [[(1000000000, 'a')], [(2000000000, 'b')]]) [extractName 1000000000, extractName 2000000000] := by
  constructor
  · rw [List.nodup_cons]
    refine ⟨?_, by simp⟩
    intro h
    exact absurd (name_inj (List.mem_singleton.mp h)) (by norm_num)
  · intro n
    simp only [extractRun, List.foldl_cons, List.foldl_nil, extractBag, noFiles, List.mem_cons, List.not_mem_nil, or_false]
    split_ifs with h1 h2
    · simp [h1]
    · simp [h2]
    · simp [h1, h2]

/-- C245 is false: any other file in the folder ends the parser. -/
theorem C245_stray_false : ¬ OtherFilesIgnored := by
  intro h
  obtain ⟨l, hl⟩ := h ["frame1000000000.000000000.png".toList, "Thumbs.db".toList]
  have e : (allSome extractedTime (["frame1000000000.000000000.png".toList, "Thumbs.db".toList].filter fun n => decide (¬ (".txt".toList <:+: n) ∧ ¬ ("._".toList <:+: n)))).isNone = true := by
    decide +kernel
  rw [Option.isNone_iff_eq_none] at e
  simp only [parseExtracted, e] at hl
  cases hl

end Oplab.Props
