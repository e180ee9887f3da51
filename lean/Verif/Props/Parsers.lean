import Mathlib.Algebra.Order.Field.Rat
import Mathlib.Algebra.Order.BigOperators.Group.List
import Mathlib.Tactic.Ring
import Mathlib.Tactic.Linarith
import Mathlib.Tactic.NormNum
import Mathlib.Tactic.Positivity
import Verif.Lemmas.Digits
import Verif.Spec.Logs

/-! Properties C13, C15, C17, C22, C23, C24. -/

namespace Oplab.Props
open Oplab Oplab.Spec

/-! ## C13 interlacer -/

private theorem lexLe_refl : ∀ a, lexLe a a = true
  | [] => rfl
  | a :: as => by simp [lexLe, lexLe_refl as]

private theorem lexLe_total : ∀ a b, (lexLe a b || lexLe b a) = true
  | [], b => by simp [lexLe]
  | a :: as, [] => by simp [lexLe]
  | a :: as, b :: bs => by
    simp only [lexLe]
    rcases Nat.lt_trichotomy a b with h | h | h
    · simp [h]
    · subst h; simpa using lexLe_total as bs
    · simp [h]

private theorem lexLe_trans : ∀ a b c, lexLe a b = true → lexLe b c = true → lexLe a c = true
  | [], _, _, _, _ => by simp [lexLe]
  | a :: as, [], _, h, _ => by simp [lexLe] at h
  | a :: as, b :: bs, [], _, h => by simp [lexLe] at h
  | a :: as, b :: bs, c :: cs, h1, h2 => by
    simp only [lexLe] at h1 h2 ⊢
    split at h1
    · split at h2
      · rw [if_pos (by omega)]
      · split at h2
        · rw [if_pos (by omega)]
        · simp at h2
    · split at h1
      · rename_i _ e; subst e
        split at h2
        · rw [if_pos (by omega)]
        · split at h2
          · rename_i _ e; subst e
            simp [lexLe_trans as bs cs h1 h2]
          · simp at h2
      · simp at h1

private theorem lexLe_map : ∀ a b, lexLe (a.map (· + 48)) (b.map (· + 48)) = lexLe a b
  | [], b => by simp [lexLe]
  | a :: as, [] => by simp [lexLe]
  | a :: as, b :: bs => by
    simp only [List.map_cons, lexLe, lexLe_map as bs]
    by_cases h : a < b
    · simp [h]
    · by_cases h2 : a = b <;> simp [h, h2]

private theorem frac_bounds : ∀ ds : List Nat, (∀ d ∈ ds, d < 10) → 0 ≤ fracValue ds ∧ fracValue ds < 1
  | [], _ => by simp [fracValue]
  | d :: ds, h => by
    obtain ⟨h1, h2⟩ := frac_bounds ds fun x hx => h x (by simp [hx])
    have hd : d < 10 := h d (by simp)
    have hd' : (d : ℚ) ≤ 9 := by exact_mod_cast (by omega : d ≤ 9)
    have hd0 : (0 : ℚ) ≤ d := by positivity
    simp only [fracValue]
    constructor
    · positivity
    · rw [div_lt_one (by norm_num)]; linarith

private theorem frac_le : ∀ a b : List Nat, (∀ d ∈ a, d < 10) → (∀ d ∈ b, d < 10) → lexLe a b = true →
    fracValue a ≤ fracValue b
  | [], b, _, hb, _ => by simpa [fracValue] using (frac_bounds b hb).1
  | a :: as, [], _, _, h => by simp [lexLe] at h
  | a :: as, b :: bs, ha, hb, h => by
    have ba := frac_bounds as fun x hx => ha x (by simp [hx])
    have bb := frac_bounds bs fun x hx => hb x (by simp [hx])
    simp only [lexLe] at h
    simp only [fracValue]
    apply div_le_div_of_nonneg_right _ (by norm_num : (0 : ℚ) ≤ 10)
    split at h
    · rename_i hlt
      have : (a : ℚ) + 1 ≤ b := by exact_mod_cast hlt
      linarith
    · split at h
      · rename_i _ e; subst e
        have := frac_le as bs (fun x hx => ha x (by simp [hx])) (fun x hx => hb x (by simp [hx])) h
        linarith
      · simp at h

private theorem int_lt (a : List Nat) (ha : ∀ d ∈ a, d < 10) : intValue a < 10 ^ a.length := by
  induction a with
  | nil => simp [intValue]
  | cons d ds ih =>
    have h1 := ih fun x hx => ha x (by simp [hx])
    have h2 : d ≤ 9 := by have := ha d (by simp); omega
    simp only [intValue, List.length_cons, Nat.pow_succ]
    have : d * 10 ^ ds.length ≤ 9 * 10 ^ ds.length := Nat.mul_le_mul_right _ h2
    omega

private theorem text_le (ra rb : List Nat) : ∀ a b : List Nat, a.length = b.length → (∀ d ∈ a, d < 10) → (∀ d ∈ b, d < 10) →
    lexLe (a.map (· + 48) ++ ra) (b.map (· + 48) ++ rb) = true →
    intValue a < intValue b ∨ (a = b ∧ lexLe ra rb = true)
  | [], [], _, _, _, h => by right; exact ⟨rfl, by simpa using h⟩
  | a :: as, b :: bs, hl, ha, hb, h => by
    have hl' : as.length = bs.length := by simpa using hl
    simp only [List.map_cons, List.cons_append, lexLe] at h
    split at h
    · rename_i hlt
      left
      have h1 := int_lt as fun x hx => ha x (by simp [hx])
      simp only [intValue]
      have h2 : (a + 1) * 10 ^ bs.length ≤ b * 10 ^ bs.length := Nat.mul_le_mul_right _ (by omega)
      rw [Nat.add_mul] at h2
      rw [hl'] at h1 ⊢
      omega
    · split at h
      · rename_i _ e
        have e : a = b := by omega
        subst e
        rcases text_le ra rb as bs hl' (fun x hx => ha x (by simp [hx])) (fun x hx => hb x (by simp [hx])) h with h | ⟨h1, h2⟩
        · left; simp only [intValue, hl']; omega
        · right; exact ⟨by rw [h1], h2⟩
      · simp at h

private theorem stamp_nonneg (n : Nat) (s : Stamp) (h : Spec.Stamp.WF n s) : 0 ≤ stampValue s := by
  have := (frac_bounds s.fp h.2.1).1
  simp only [stampValue]; positivity

private theorem value_le (n : Nat) (a b : Stamp) (ha : Spec.Stamp.WF n a) (hb : Spec.Stamp.WF n b)
    (h : lexLe a.text b.text = true) : stampValue a ≤ stampValue b := by
  rcases ha.2.2 with ⟨la, na⟩ | e
  · rcases hb.2.2 with ⟨lb, nb⟩ | e
    · simp only [Stamp.text, List.append_assoc] at h
      rcases text_le _ _ a.ip b.ip (by omega) ha.1 hb.1 h with hlt | ⟨he, hf⟩
      · have h1 : (intValue a.ip : ℚ) + 1 ≤ intValue b.ip := by exact_mod_cast hlt
        have h2 := (frac_bounds a.fp ha.2.1).2
        have h3 := (frac_bounds b.fp hb.2.1).1
        simp only [stampValue]; linarith
      · simp only [List.singleton_append, lexLe, lt_self_iff_false, if_false, if_true, lexLe_map] at hf
        have := frac_le a.fp b.fp ha.2.1 hb.2.1 hf
        simp only [stampValue, he]; linarith
    · -- `b` is "0.0"
      subst e
      obtain ⟨d, ds, hd, hd0⟩ := na
      simp only [Stamp.text, hd, List.map_cons, List.cons_append, lexLe, List.map_nil, List.nil_append] at h
      split at h
      · omega
      · split at h
        · omega
        · simp at h
  · subst e
    have := stamp_nonneg n b hb
    simpa [stampValue, intValue, fracValue] using this

private def stampLe {α} (a b : Stamp × α) : Bool := lexLe a.1.text b.1.text

private theorem interlace_ok {α} (data out : List (Stamp × α)) (h : interlace data = .ok out) :
    out = data.mergeSort stampLe := by
  simp only [interlace] at h
  split at h
  · simp at h
  · simp only [Except.ok.injEq] at h; exact h.symm

private theorem stampLe_trans {α} (a b c : Stamp × α) : stampLe a b = true → stampLe b c = true → stampLe a c = true :=
  lexLe_trans _ _ _

private theorem stampLe_total {α} (a b : Stamp × α) : (stampLe a b || stampLe b a) = true := lexLe_total _ _

/-- C13: the interlaced file has exactly the entries of the original one. -/
theorem C13_same_entries {α} (data out : List (Stamp × α)) (h : interlace data = .ok out) : out.Perm data := by
  rw [interlace_ok data out h]; exact List.mergeSort_perm _ _

/-- C13: a non-empty file is always interlaced (an empty one is an error). -/
theorem C13_defined {α} (data : List (Stamp × α)) (hne : data ≠ []) : ∃ out, interlace data = .ok out := by
  exact ⟨_, by simp only [interlace, if_neg hne]; rfl⟩

/-- C13: entries with the same time stamp keep their relative order. -/
theorem C13_stable {α} (data out : List (Stamp × α)) (h : interlace data = .ok out) (t : Stamp) :
    out.filter (fun e => e.1 = t) = data.filter (fun e => e.1 = t) := by
  have hout := interlace_ok data out h
  have hperm := C13_same_entries data out h
  have hpw : (data.filter (fun e => e.1 = t)).Pairwise (fun a b => stampLe a b = true) := by
    rw [List.pairwise_iff_forall_sublist]
    intro a b hab
    have hm : ∀ x ∈ [a, b], x ∈ data.filter (fun e => e.1 = t) := fun x hx => hab.subset hx
    have h1 : a.1 = t := by simpa using (List.mem_filter.mp (hm a (by simp))).2
    have h2 : b.1 = t := by simpa using (List.mem_filter.mp (hm b (by simp))).2
    simp only [stampLe, h1, h2, lexLe_refl]
  have hsub : (data.filter (fun e => e.1 = t)).Sublist out := by
    rw [hout]
    exact List.sublist_mergeSort stampLe_trans stampLe_total hpw List.filter_sublist
  have hsub2 : (data.filter (fun e => e.1 = t)).Sublist (out.filter (fun e => e.1 = t)) := by
    have := hsub.filter (fun e => decide (e.1 = t))
    simpa using this
  exact (hsub2.eq_of_length (hperm.filter _).length_eq.symm).symm

/-- C13 as stated is false: 10.0 is put before 9.0. -/
theorem C13_chronological_false :
    ¬ ∀ (data out : List (Stamp × Unit)), interlace data = .ok out →
      out.Pairwise (fun a b => stampValue a.1 ≤ stampValue b.1) := by
  intro h
  have := h [(⟨[9], [0]⟩, ()), (⟨[1, 0], [0]⟩, ())] [(⟨[1, 0], [0]⟩, ()), (⟨[9], [0]⟩, ())] (by
    simp [interlace, List.mergeSort, List.MergeSort.Internal.splitInTwo, lexLe, Stamp.text])
  simp [stampValue, intValue, fracValue] at this
  norm_num at this

/-- C13 (partial): the file is chronological when all time stamps have the same number of digits before the point
(any number of decimals; true of epochs from 2001 to 2286), apart from the 0.0 of the origin entry. Missing: time stamps with
different numbers of integer digits. -/
theorem C13_chronological_partial {α} (n : Nat) (data out : List (Stamp × α)) (h : interlace data = .ok out)
    (hwf : ∀ e ∈ data, Spec.Stamp.WF n e.1) :
    out.Pairwise (fun a b => stampValue a.1 ≤ stampValue b.1) := by
  have hperm := C13_same_entries data out h
  have hs : out.Pairwise (fun a b => stampLe a b = true) := by
    rw [interlace_ok data out h]
    exact List.pairwise_mergeSort stampLe_trans stampLe_total _
  refine hs.imp_of_mem ?_
  intro a b ha hb hab
  exact value_le n a.1 b.1 (hwf a (hperm.mem_iff.mp ha)) (hwf b (hperm.mem_iff.mp hb)) hab

example : Spec.Stamp.WF 10 ⟨[1, 5, 0, 0, 0, 0, 0, 0, 0, 0], [2, 5]⟩ ∧ Spec.Stamp.WF 10 ⟨[0], [0]⟩ := by
  simp [Spec.Stamp.WF]

/-! ## C15 PHINS check sum -/

private theorem xor_foldl (cs : List Char) : ∀ n, cs.foldl (fun n c => n ^^^ c.toNat) n = n ^^^ xorSum cs := by
  induction cs with
  | nil => intro n; simp [xorSum]
  | cons c cs ih =>
    intro n
    simp only [xorSum, List.foldl_cons, Nat.zero_xor]
    rw [ih, ih, Nat.xor_assoc]

private theorem xorSum_mid (p q : List Char) (c : Char) :
    xorSum (p ++ c :: q) = c.toNat ^^^ (xorSum p ^^^ xorSum q) := by
  simp only [xorSum, List.foldl_append, List.foldl_cons]
  rw [xor_foldl q]
  change (xorSum p ^^^ c.toNat) ^^^ xorSum q = c.toNat ^^^ (xorSum p ^^^ xorSum q)
  rw [Nat.xor_comm (xorSum p), Nat.xor_assoc]

/-- Value of a hexadecimal digit. -/
private def hexVal (c : Char) : Nat := if c.toNat < 58 then c.toNat - 48 else c.toNat - 55

private theorem hexVal_digit : ∀ n < 16, hexVal (hexDigit n) = n := by decide

private theorem hex_decode (n : Nat) : (hexUpper n).foldl (fun a c => a * 16 + hexVal c) 0 = n := by
  induction n using Nat.strongRecOn with
  | ind n ih =>
    rw [hexUpper]
    split
    · rename_i h; simp [hexVal_digit n h]
    · rename_i h
      simp only [List.foldl_append, List.foldl_cons, List.foldl_nil]
      rw [ih (n / 16) (by omega), hexVal_digit _ (by omega)]
      omega

private theorem hex_zfill_decode (n : Nat) : (zfill2 (hexUpper n)).foldl (fun a c => a * 16 + hexVal c) 0 = n := by
  simp only [zfill2, List.foldl_append]
  have : (List.replicate (2 - (hexUpper n).length) '0').foldl (fun a c => a * 16 + hexVal c) 0 = 0 := by
    generalize 2 - (hexUpper n).length = k
    induction k with
    | zero => rfl
    | succ k ih => simpa [List.replicate_succ, hexVal] using ih
  rw [this, hex_decode]

/-- C15: if a line is accepted, then no line whose checked part (everything between '$' and '*') differs from it in
exactly one character is accepted with the same check sum, however that line splits into fields. -/
theorem C15_single_character (upper : List Char → List Char) (fields fields' : List (List Char))
    (p q : List Char) (c c' d d' : Char) (hc : c ≠ c') (pre pre' cs : List Char)
    (h1 : joinComma fields = d :: (p ++ c :: q)) (h2 : joinComma fields' = d' :: (p ++ c' :: q))
    (hv : lineIsValid upper fields [pre, cs] = true) : lineIsValid upper fields' [pre', cs] = false := by
  cases fields' with
  | nil => rfl
  | cons hd' tl' =>
    cases fields with
    | nil => simp [lineIsValid] at hv
    | cons hd tl =>
      simp only [lineIsValid, h1, h2, List.drop_succ_cons, List.drop_zero, decide_eq_true_eq] at hv ⊢
      simp only [decide_eq_false_iff_not, not_and]
      intro _ heq
      have h := hv.2.trans heq.symm
      have h3 := congrArg (fun l => l.foldl (fun a c => a * 16 + hexVal c) 0) h
      simp only [hex_zfill_decode, xorSum_mid] at h3
      have h4 : c.toNat = c'.toNat := by
        have h5 := congrArg (· ^^^ (xorSum p ^^^ xorSum q)) h3
        simpa only [Nat.xor_assoc, Nat.xor_self, Nat.xor_zero] using h5
      exact hc (Char.toNat_inj.mp h4)

/-- C15: a line is accepted exactly when it has one check sum, a PHINS header and the check sum is the two-digit
(or longer) upper-case hexadecimal text of the exclusive or. -/
theorem C15_accepts (upper : List Char → List Char) (hd : List Char) (tl : List (List Char)) (pre cs : List Char) :
    lineIsValid upper (hd :: tl) [pre, cs] = true ↔
      (hd = "$PIXSE".toList ∨ hd = "$HEHDT".toList) ∧
        zfill2 (hexUpper (xorSum ((joinComma (hd :: tl)).drop 1))) = upper cs := by
  simp [lineIsValid]

/-- A real telegram. -/
example : lineIsValid id ["$HEHDT".toList, "123.456".toList, "T".toList]
    ["$HEHDT,123.456,T".toList, "28".toList] = true := by
  have : hexUpper 40 = ['2', '8'] := by
    rw [hexUpper, if_neg (by decide), hexUpper, if_pos (by decide)]; decide
  have hx : xorSum ((joinComma ["$HEHDT".toList, "123.456".toList, "T".toList]).drop 1) = 40 := by decide
  simp only [lineIsValid, hx, this]
  decide

/-! ## C17 stereo pairs -/

section
variable {K : Type} [Field K] [LinearOrder K] [IsStrictOrderedRing K]
set_option linter.unusedSectionVars false

theorem minIdx_spec : ∀ (vs : List K) (k : Nat) (d : K) (j : Nat), minIdx k vs = some (d, j) →
    k ≤ j ∧ vs[j - k]? = some d ∧ (∀ v ∈ vs, d ≤ v) ∧ (∀ (m : Nat) (v : K), m < j - k → vs[m]? = some v → d < v)
  | [], k, d, j, h => by simp [minIdx] at h
  | v :: vs, k, d, j, h => by
    simp only [minIdx] at h
    cases hm : minIdx (k + 1) vs with
    | none =>
      rw [hm] at h; simp at h
      obtain ⟨rfl, rfl⟩ := h
      have hvs : vs = [] := by
        cases vs with
        | nil => rfl
        | cons w ws =>
          simp only [minIdx] at hm
          split at hm
          · simp at hm
          · split at hm <;> simp at hm
      subst hvs
      simp
    | some wj =>
      obtain ⟨w, j'⟩ := wj
      rw [hm] at h
      obtain ⟨g1, g2, g3, g4⟩ := minIdx_spec vs (k + 1) w j' hm
      simp only at h
      split at h
      · rename_i hlt
        simp at h; obtain ⟨rfl, rfl⟩ := h
        refine ⟨by omega, ?_, ?_, ?_⟩
        · rw [show j' - k = (j' - (k + 1)) + 1 by omega]; simpa using g2
        · intro x hx
          rcases List.mem_cons.mp hx with rfl | hx
          · exact hlt.le
          · exact g3 x hx
        · intro m x hm' hx
          cases m with
          | zero => simp at hx; rw [← hx]; exact hlt
          | succ m => exact g4 m x (by omega) (by simpa using hx)
      · rename_i hlt
        simp at h; obtain ⟨rfl, rfl⟩ := h
        refine ⟨le_refl _, by simp, ?_, ?_⟩
        · intro x hx
          rcases List.mem_cons.mp hx with rfl | hx
          · exact le_refl _
          · exact (not_lt.mp hlt).trans (g3 x hx)
        · intro m x hm'; omega

/-- The claim of C17 about a list of pairs, without "no image is used twice"; `near` is the tolerance test. -/
structure GoodPairs (near : K → Prop) (left right : List K) (out : List (Nat × Nat)) : Prop where
  /-- each pair joins images within tolerance, the right one a nearest one -/
  nearest : ∀ i j, (i, j) ∈ out → ∃ l r, left[i]? = some l ∧ right[j]? = some r ∧ near |l - r| ∧
    ∀ r' ∈ right, |l - r| ≤ |l - r'|
  /-- left images in order, each at most once -/
  increasing : out.Pairwise (fun a b => a.1 < b.1)
  /-- every left image with a partner within tolerance appears -/
  complete : ∀ (i : Nat) (l : K), left[i]? = some l → (∃ r ∈ right, near |l - r|) → ∃ j, (i, j) ∈ out

private theorem pairs_spec (keep : K → Bool) (mono : ∀ a b, a ≤ b → keep b = true → keep a = true) (right : List K) :
    ∀ (left : List K) (i0 : Nat) (out : List (Nat × Nat)), stereoPairsFrom keep right i0 left = .ok out →
      (∀ i j, (i, j) ∈ out → i0 ≤ i ∧ ∃ l r, left[i - i0]? = some l ∧ right[j]? = some r ∧ keep |l - r| = true ∧
        ∀ r' ∈ right, |l - r| ≤ |l - r'|) ∧
      out.Pairwise (fun a b => a.1 < b.1) ∧
      (∀ (i : Nat) (l : K), left[i]? = some l → (∃ r ∈ right, keep |l - r| = true) → ∃ j, (i0 + i, j) ∈ out)
  | [], i0, out, h => by
    simp [stereoPairsFrom] at h; subst h; simp
  | l :: ls, i0, out, h => by
    simp only [stereoPairsFrom] at h
    cases hm : minIdx 0 (right.map fun r => |l - r|) with
    | none => rw [hm] at h; simp at h
    | some dj =>
      obtain ⟨d, j⟩ := dj
      rw [hm] at h
      simp only at h
      cases hr : stereoPairsFrom keep right (i0 + 1) ls with
      | error e => rw [hr] at h; simp [bind, Except.bind] at h
      | ok rest =>
        rw [hr] at h
        simp only [bind, Except.bind, Except.ok.injEq] at h
        obtain ⟨g1, g2, g3⟩ := pairs_spec keep mono right ls (i0 + 1) rest hr
        obtain ⟨-, m2, m3, -⟩ := minIdx_spec _ _ _ _ hm
        simp only [Nat.sub_zero, List.getElem?_map, Option.map_eq_some_iff] at m2
        obtain ⟨r, hr1, hr2⟩ := m2
        have hmin : ∀ r' ∈ right, |l - r| ≤ |l - r'| := by
          intro r' hr'; rw [hr2]; exact m3 _ (List.mem_map.mpr ⟨r', hr', rfl⟩)
        have hrest : ∀ i j, (i, j) ∈ rest → i0 ≤ i ∧ ∃ l' r, (l :: ls)[i - i0]? = some l' ∧ right[j]? = some r ∧
            keep |l' - r| = true ∧ ∀ r' ∈ right, |l' - r| ≤ |l' - r'| := by
          intro i j' hij
          obtain ⟨q0, l', r', q1, q2⟩ := g1 i j' hij
          refine ⟨by omega, l', r', ?_, q2⟩
          rw [show i - i0 = (i - (i0 + 1)) + 1 by omega]; simpa using q1
        have hcomp : ∀ (i : Nat) (l' : K), ls[i]? = some l' → (∃ r ∈ right, keep |l' - r| = true) →
            ∃ j, (i0 + (i + 1), j) ∈ rest := by
          intro i l' hl he
          obtain ⟨j, hj⟩ := g3 i l' hl he
          exact ⟨j, by rw [show i0 + (i + 1) = i0 + 1 + i by omega]; exact hj⟩
        by_cases hk : keep d = true
        · rw [if_pos hk] at h
          subst h
          refine ⟨?_, ?_, ?_⟩
          · intro i j' hij
            rcases List.mem_cons.mp hij with he | hij
            · simp only [Prod.mk.injEq] at he
              obtain ⟨rfl, rfl⟩ := he
              exact ⟨le_refl _, l, r, by simp, hr1, by rw [hr2]; exact hk, hmin⟩
            · exact hrest i j' hij
          · refine List.pairwise_cons.mpr ⟨?_, g2⟩
            intro b hb
            obtain ⟨q0, _⟩ := g1 b.1 b.2 hb
            simp only; omega
          · intro i l' hl he
            cases i with
            | zero => exact ⟨j, by simp⟩
            | succ i =>
              obtain ⟨j', hj'⟩ := hcomp i l' (by simpa using hl) he
              exact ⟨j', List.mem_cons_of_mem _ hj'⟩
        · rw [if_neg hk] at h
          subst h
          refine ⟨hrest, g2, ?_⟩
          intro i l' hl he
          cases i with
          | zero =>
            exfalso
            simp at hl; subst hl
            obtain ⟨r', hr', hk'⟩ := he
            exact hk (mono _ _ (by rw [← hr2]; exact hmin r' hr') hk')
          | succ i => exact hcomp i l' (by simpa using hl) he

/-- C17 (partial) for the BioCam parser: pairs are within tolerance, nearest, ordered and complete.
Missing: a right image may be used for several left images (see `C17_unique_false`). -/
theorem C17_biocam_pairs_partial (tol : K) (left right : List K) (out : List (Nat × Nat))
    (h : biocamPairs tol left right = .ok out) : GoodPairs (· < tol) left right out := by
  obtain ⟨g1, g2, g3⟩ := pairs_spec (fun d => decide (d < tol)) (by simp; intro a b h1 h2; exact lt_of_le_of_lt h1 h2)
    right left 0 out h
  refine ⟨?_, g2, ?_⟩
  · intro i j hij
    obtain ⟨-, l, r, q1, q2, q3, q4⟩ := g1 i j hij
    exact ⟨l, r, by simpa using q1, q2, by simpa using q3, q4⟩
  · intro i l hl ⟨r, hr, hn⟩
    obtain ⟨j, hj⟩ := g3 i l hl ⟨r, hr, by simpa using hn⟩
    exact ⟨j, by simpa using hj⟩

/-- C17 (partial) for the ACFR and NTNU parsers; here a difference equal to the tolerance is accepted. Missing: uniqueness of
the right image, and the strict bound. -/
theorem C17_acfr_pairs_partial (tol : K) (left right : List K) (out : List (Nat × Nat))
    (h : acfrPairs tol left right = .ok out) : GoodPairs (· ≤ tol) left right out := by
  obtain ⟨g1, g2, g3⟩ := pairs_spec (fun d => decide (¬ d > tol)) (by simp; intro a b h1 h2; exact le_trans h1 h2)
    right left 0 out h
  refine ⟨?_, g2, ?_⟩
  · intro i j hij
    obtain ⟨-, l, r, q1, q2, q3, q4⟩ := g1 i j hij
    exact ⟨l, r, by simpa using q1, q2, by simpa using q3, q4⟩
  · intro i l hl ⟨r, hr, hn⟩
    obtain ⟨j, hj⟩ := g3 i l hl ⟨r, hr, by simpa using hn⟩
    exact ⟨j, by simpa using hj⟩

/-- C17 (partial): pairing fails only when there is no right image at all. -/
theorem C17_defined_partial (tol : K) (left right : List K) (hr : right ≠ []) :
    (∃ out, biocamPairs tol left right = .ok out) ∧ ∃ out, acfrPairs tol left right = .ok out := by
  have key : ∀ (keep : K → Bool) (left : List K) (i : Nat), ∃ out, stereoPairsFrom keep right i left = .ok out := by
    intro keep left
    induction left with
    | nil => intro i; exact ⟨[], rfl⟩
    | cons l ls ih =>
      intro i
      have : minIdx 0 (right.map fun r => |l - r|) ≠ none := by
        cases right with
        | nil => exact absurd rfl hr
        | cons r rs =>
          simp only [List.map_cons, minIdx]
          split
          · simp
          · split <;> simp
      obtain ⟨dj, hdj⟩ := Option.ne_none_iff_exists'.mp this
      obtain ⟨d, j⟩ := dj
      obtain ⟨rest, hrest⟩ := ih (i + 1)
      exact ⟨_, by simp only [stereoPairsFrom, hdj, hrest, bind, Except.bind]; rfl⟩
  exact ⟨key _ _ _, key _ _ _⟩

/-- C17 as stated is false: one right image can be paired with two left images. -/
theorem C17_unique_false : ¬ ∀ (left right : List ℚ) (out : List (Nat × Nat)),
    biocamPairs (1 / 20) left right = .ok out → (out.map Prod.snd).Nodup := by
  intro h
  have := h [0, 1 / 100] [0] [(0, 0), (1, 0)] (by
    simp only [biocamPairs, stereoPairsFrom, List.map, minIdx, bind, Except.bind]
    norm_num)
  simp at this

example : biocamPairs (1 / 20 : ℚ) [0, 1, 2] [1 / 100, 2 + 1 / 100, 5] = .ok [(0, 0), (2, 1)] := by
  simp only [biocamPairs, stereoPairsFrom, List.map, minIdx, bind, Except.bind]
  norm_num [abs_of_nonneg, abs_of_neg]

/-! ## C22 clock correction -/

private theorem foldl_min_spec (vs : List K) : ∀ v, (vs.foldl min v ≤ v ∧ ∀ w ∈ vs, vs.foldl min v ≤ w) ∧
    (vs.foldl min v = v ∨ vs.foldl min v ∈ vs) := by
  induction vs with
  | nil => intro v; simp
  | cons w ws ih =>
    intro v
    obtain ⟨⟨h1, h2⟩, h3⟩ := ih (min v w)
    simp only [List.foldl_cons]
    refine ⟨⟨h1.trans (min_le_left _ _), ?_⟩, ?_⟩
    · intro x hx
      rcases List.mem_cons.mp hx with rfl | hx
      · exact h1.trans (min_le_right _ _)
      · exact h2 x hx
    · rcases h3 with h3 | h3
      · rcases le_total v w with hvw | hvw
        · left; rw [h3, min_eq_left hvw]
        · right; rw [h3, min_eq_right hvw]; simp
      · right; exact List.mem_cons_of_mem _ h3

/-- C22: whatever slope `m` and intercept `c` the regression returns, every corrected time is at most the reception time
of its frame, and is equal to it for at least one frame; there is one corrected time per frame. -/
theorem C22_lower_bound (m c : K) (frames : List (K × K)) (pred : List K)
    (h : correctStamps m c frames = .ok pred) :
    pred.length = frames.length ∧
    (∀ (i : Nat) (f : K × K) (p : K), frames[i]? = some f → pred[i]? = some p → p ≤ f.2) ∧
    (∃ (i : Nat) (f : K × K), frames[i]? = some f ∧ pred[i]? = some f.2) := by
  cases frames with
  | nil => simp [correctStamps, lineFit, npMin, bind, Except.bind] at h
  | cons f0 fs =>
    simp only [correctStamps, lineFit, bind, Except.bind, List.map_cons, List.zip_cons_cons, npMin] at h
    split at h
    · simp at h
    simp only [Except.ok.injEq] at h
    set D := (List.map (fun p : K × K => p.2 - m * p.1 - c) ((fs.map Prod.fst).zip (fs.map fun f => f.2 - f.1))) with hD
    have hDf : D = fs.map fun f => (f.2 - f.1) - m * f.1 - c := by
      rw [hD, List.zip_map', List.map_map]; rfl
    obtain ⟨⟨h1, h2⟩, h3⟩ := foldl_min_spec D (f0.2 - f0.1 - m * f0.1 - c)
    set M := D.foldl min (f0.2 - f0.1 - m * f0.1 - c) with hM
    have hpred : pred = (f0 :: fs).map fun f => (m + 1) * f.1 + (c + M) := by
      rw [← h, predictCpu, ← List.map_cons, List.map_map]; rfl
    have hle : ∀ f ∈ f0 :: fs, M ≤ (f.2 - f.1) - m * f.1 - c := by
      intro f hf
      rcases List.mem_cons.mp hf with rfl | hf
      · exact h1
      · exact h2 _ (by rw [hDf]; exact List.mem_map.mpr ⟨f, hf, rfl⟩)
    refine ⟨by rw [hpred]; simp, ?_, ?_⟩
    · intro i f p hf hp
      rw [hpred, List.getElem?_map, hf] at hp
      simp at hp
      have := hle f (List.mem_of_getElem? hf)
      rw [← hp]; linarith
    · have : ∃ f ∈ f0 :: fs, M = (f.2 - f.1) - m * f.1 - c := by
        rcases h3 with h3 | h3
        · exact ⟨f0, by simp, h3⟩
        · rw [hDf] at h3
          obtain ⟨f, hf, he⟩ := List.mem_map.mp h3
          exact ⟨f, List.mem_cons_of_mem _ hf, he.symm⟩
      obtain ⟨f, hf, he⟩ := this
      obtain ⟨i, hi⟩ := List.mem_iff_getElem?.mp hf
      refine ⟨i, f, hi, ?_⟩
      rw [hpred, List.getElem?_map, hi, Option.map_some, he]
      congr 1; ring

/-- C22: the correction is defined for any two or more frames. -/
theorem C22_defined (m c : K) (frames : List (K × K)) (h : 2 ≤ frames.length) :
    ∃ pred, correctStamps m c frames = .ok pred := by
  cases frames with
  | nil => simp at h
  | cons f0 fs =>
    have : ¬ (f0 :: fs).length < 2 := by omega
    simp only [correctStamps, lineFit, bind, Except.bind, List.map_cons, List.zip_cons_cons, npMin, if_neg this]
    exact ⟨_, rfl⟩

example : correctStamps (0 : ℚ) 0 [(0, 3), (1, 5), (2, 4)] = .ok [2, 3, 4] := by
  simp only [correctStamps, lineFit, bind, Except.bind, npMin, List.map, List.zip, List.zipWith, predictCpu]
  norm_num

/-! ## C23 strictly increasing times -/

/-- The last record of each run of equal times. -/
private def lastRuns {α} (x : K × α) : List (K × α) → List (K × α)
  | [] => [x]
  | y :: r => if x.1 < y.1 then x :: lastRuns y r else lastRuns y r

private theorem dedupe_eq {α} : ∀ (rest : List (K × α)) (x : K × α) (o : List (K × α)),
    dedupe x.1 (o ++ [x]) rest = .ok (o ++ lastRuns x rest)
  | [], x, o => by simp [dedupe, lastRuns]
  | (t, a) :: r, x, o => by
    simp only [dedupe, lastRuns]
    split
    · have := dedupe_eq r (t, a) (o ++ [x])
      simp only at this
      rw [this]; simp
    · have := dedupe_eq r (t, a) o
      simp only at this
      rw [if_neg (by simp)]
      simpa using this

private theorem lastRuns_spec {α} : ∀ (rest : List (K × α)) (x : K × α),
    (x :: rest).Pairwise (fun a b => a.1 ≤ b.1) →
    (lastRuns x rest).Pairwise (fun a b => a.1 < b.1) ∧ (∀ y ∈ lastRuns x rest, x.1 ≤ y.1) ∧
    ∀ z, z ∈ lastRuns x rest ↔ ∃ p q, x :: rest = p ++ z :: q ∧ ∀ w ∈ q, z.1 < w.1
  | [], x, _ => by
    refine ⟨by simp [lastRuns], by simp [lastRuns], ?_⟩
    intro z
    simp only [lastRuns, List.mem_singleton]
    constructor
    · rintro rfl; exact ⟨[], [], rfl, by simp⟩
    · rintro ⟨p, q, h, _⟩
      cases p with
      | nil => simp at h; exact h.1.symm
      | cons _ p => simp at h
  | y :: r, x, hs => by
    obtain ⟨hx, hs'⟩ := List.pairwise_cons.mp hs
    obtain ⟨g1, g2, g3⟩ := lastRuns_spec r y hs'
    simp only [lastRuns]
    have hxy : x.1 ≤ y.1 := hx y (by simp)
    by_cases hlt : x.1 < y.1
    · rw [if_pos hlt]
      refine ⟨List.pairwise_cons.mpr ⟨fun z hz => lt_of_lt_of_le hlt (g2 z hz), g1⟩, ?_, ?_⟩
      · intro z hz
        rcases List.mem_cons.mp hz with rfl | hz
        · exact le_refl _
        · exact hxy.trans (g2 z hz)
      · intro z
        rw [List.mem_cons, g3]
        constructor
        · rintro (rfl | ⟨p, q, h, hq⟩)
          · refine ⟨[], y :: r, rfl, ?_⟩
            intro w hw
            rcases List.mem_cons.mp hw with rfl | hw
            · exact hlt
            · exact lt_of_lt_of_le hlt ((List.pairwise_cons.mp hs').1 w hw)
          · exact ⟨x :: p, q, by rw [h]; rfl, hq⟩
        · rintro ⟨p, q, h, hq⟩
          cases p with
          | nil => simp at h; left; exact h.1.symm
          | cons a p => simp at h; right; exact ⟨p, q, h.2, hq⟩
    · rw [if_neg hlt]
      refine ⟨g1, fun z hz => hxy.trans (g2 z hz), ?_⟩
      intro z
      rw [g3]
      constructor
      · rintro ⟨p, q, h, hq⟩; exact ⟨x :: p, q, by rw [h]; rfl, hq⟩
      · rintro ⟨p, q, h, hq⟩
        cases p with
        | nil =>
          simp at h
          obtain ⟨rfl, rfl⟩ := h
          exact absurd (hq y (by simp)) hlt
        | cons a p => simp at h; exact ⟨p, q, h.2, hq⟩

/-- C23: for positive, non-decreasing times the output times are strictly increasing, and the output consists of
exactly the last record logged with each time. -/
theorem C23_last_of_each_time {α} (recs : List (K × α)) (hpos : ∀ r ∈ recs, 0 < r.1)
    (hs : recs.Pairwise (fun a b => a.1 ≤ b.1)) :
    ∃ out, alrRecords recs = .ok out ∧ out.Pairwise (fun a b => a.1 < b.1) ∧
      (∀ z, z ∈ out ↔ ∃ p q, recs = p ++ z :: q ∧ ∀ w ∈ q, w.1 ≠ z.1) ∧
      (∀ r ∈ recs, ∃ z ∈ out, z.1 = r.1) := by
  cases recs with
  | nil =>
    refine ⟨[], rfl, List.Pairwise.nil, ?_, by simp⟩
    intro z; simp
  | cons x rest =>
    obtain ⟨g1, g2, g3⟩ := lastRuns_spec rest x hs
    have hrun : alrRecords (x :: rest) = .ok (lastRuns x rest) := by
      obtain ⟨t, a⟩ := x
      have h0 : (0 : K) < t := hpos (t, a) (by simp)
      have := dedupe_eq rest (t, a) []
      simpa [alrRecords, dedupe, h0] using this
    have hiff : ∀ z, z ∈ lastRuns x rest ↔ ∃ p q, x :: rest = p ++ z :: q ∧ ∀ w ∈ q, w.1 ≠ z.1 := by
      intro z
      rw [g3]
      constructor
      · rintro ⟨p, q, h, hq⟩; exact ⟨p, q, h, fun w hw => (hq w hw).ne'⟩
      · rintro ⟨p, q, h, hq⟩
        refine ⟨p, q, h, fun w hw => lt_of_le_of_ne ?_ (hq w hw).symm⟩
        rw [h] at hs
        have := (List.pairwise_append.mp hs).2.1
        exact (List.pairwise_cons.mp this).1 w hw
    refine ⟨_, hrun, g1, hiff, ?_⟩
    intro r hr
    -- the last occurrence of the time of r
    have : ∀ l : List (K × α), (∃ w ∈ l, w.1 = r.1) → ∃ p z q, l = p ++ z :: q ∧ z.1 = r.1 ∧ ∀ w ∈ q, w.1 ≠ r.1 := by
      intro l
      induction l with
      | nil => rintro ⟨w, hw, _⟩; simp at hw
      | cons b l ih =>
        rintro ⟨w, hw, he⟩
        by_cases hex : ∃ w ∈ l, w.1 = r.1
        · obtain ⟨p, z, q, h1, h2, h3⟩ := ih hex
          exact ⟨b :: p, z, q, by rw [h1]; rfl, h2, h3⟩
        · push Not at hex
          rcases List.mem_cons.mp hw with rfl | hw
          · exact ⟨[], w, l, rfl, he, hex⟩
          · exact absurd he (hex w hw)
    obtain ⟨p, z, q, h1, h2, h3⟩ := this (x :: rest) ⟨r, hr, rfl⟩
    exact ⟨z, (hiff z).mpr ⟨p, q, h1, by rw [h2]; exact h3⟩, h2⟩

example : alrRecords [((1 : ℚ), "a"), (1, "b"), (2, "c"), (2, "d"), (3, "e")] = .ok [(1, "b"), (2, "d"), (3, "e")] := by
  simp [alrRecords, dedupe]
  norm_num

/-! ## C24 degrees and minutes -/

/-- What C24 asks for: plus or minus (degrees + minutes/60). -/
def signedDegrees (deg : Nat) (minutes : K) (negative : Bool) : K :=
  if negative then -((deg : K) + minutes / 60) else (deg : K) + minutes / 60

/-- C24 for GAPS: a position printed with `w` digits of degrees followed by minutes of at most eight
characters decodes with the right sign (latitude: `w = 2`, "S"; longitude: `w = 3`, "W"). -/
theorem C24_gaps (toFloat : List Char → Res K) (w deg : Nat) (minutes : K) (neg hemi : String) (mtext : List Char)
    (hw : 0 < w) (hd : deg < 10 ^ w) (hm : mtext.length ≤ 8) (hf : toFloat mtext = .ok minutes) :
    gapsDegMin toFloat w neg (padDigits w deg ++ mtext) hemi = .ok (signedDegrees deg minutes (hemi = neg)) := by
  have h1 : (padDigits w deg ++ mtext).take w = padDigits w deg := by
    rw [List.take_append_of_le_length (by rw [padDigits_length]), List.take_of_length_le (by rw [padDigits_length])]
  have h2 : ((padDigits w deg ++ mtext).take (w + 8)).drop w = mtext := by
    rw [List.take_of_length_le (by rw [List.length_append, padDigits_length]; omega)]
    rw [List.drop_left' (padDigits_length w deg)]
  simp only [gapsDegMin, h1, h2, pyInt_padDigits w deg hw hd, hf, bind, Except.bind, signedDegrees]
  by_cases h : hemi = neg <;> simp [h]

/-- C24 for the USBL dump is false: 10 degrees 30 minutes South becomes -9.5 degrees. -/
theorem C24_usbl_dump_false : ¬ ∀ (deg : Nat) (minutes : ℚ) (hemi : String),
    usblDumpDegMin deg minutes "N" hemi = signedDegrees deg minutes (hemi ≠ "N") := by
  intro h
  have := h 10 30 "S"
  have hne : ¬ ("S" = "N") := by decide
  simp only [usblDumpDegMin, signedDegrees, ne_eq, hne, not_false_iff, if_true, decide_true] at this
  norm_num at this

/-- C24 (partial) for the USBL dump: right exactly in the northern/eastern hemisphere, or with zero minutes.
Missing: southern and western positions with minutes. -/
theorem C24_usbl_dump_iff_partial (deg : Nat) (minutes : K) (pos hemi : String) :
    usblDumpDegMin deg minutes pos hemi = signedDegrees deg minutes (hemi ≠ pos) ↔ hemi = pos ∨ minutes = 0 := by
  by_cases h : hemi = pos
  · simp [usblDumpDegMin, signedDegrees, h]
  · simp only [usblDumpDegMin, signedDegrees, h, ne_eq, not_false_iff, if_true, decide_true, false_or]
    constructor
    · intro he
      have : minutes / 60 = 0 := by linarith
      rcases div_eq_zero_iff.mp this with h | h
      · exact h
      · norm_num at h
    · rintro rfl; simp

end

end Oplab.Props
