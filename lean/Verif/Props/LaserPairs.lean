import Verif.Model.LaserPairs
import Verif.Props.Laser
import Verif.Props.Biocam

/-! C88 for the names of the images. -/

namespace Oplab.Props
open Oplab Oplab.Spec

private theorem mapM_named {A B : Type} (f : A → Res B) (g : A → B) : ∀ l : List A, (∀ a ∈ l, f a = .ok (g a)) → l.mapM f = .ok (l.map g)
  | [], _ => rfl
  | a :: l, h => by
    rw [List.mapM_cons, h a (by simp), mapM_named f g l fun x hx => h x (by simp [hx])]
    rfl

/-- Names of images and the times in them. -/
private def stampOf (n : List Char) : ℚ :=
  match biocamStamp n 0 0 with
  | .ok p => p.1
  | .error _ => 0

private theorem views_timed (left right : List (List Char)) (hl : ∀ l ∈ left.head?, 26 ≤ l.length) (hne : left ≠ [])
    (h : ∀ n ∈ left ++ right, ∃ p, biocamStamp n 0 0 = .ok p) : calViews left right = calPairs (left.map stampOf) (right.map stampOf) := by
  have hs : ∀ n ∈ left ++ right, (biocamStamp n 0 0).map Prod.fst = .ok (stampOf n) := by
    intro n hn
    obtain ⟨p, hp⟩ := h n hn
    unfold stampOf
    rw [hp]
    rfl
  have ha : laserStamps left = .ok (left.map stampOf) := mapM_named _ _ _ fun a ha => hs a (by simp [ha])
  have hb : laserStamps right = .ok (right.map stampOf) := mapM_named _ _ _ fun a ha => hs a (by simp [ha])
  obtain ⟨l, ls, rfl⟩ := List.exists_cons_of_ne_nil hne
  unfold calViews laserSync calPairs
  dsimp only
  rw [if_neg (by have := hl l rfl; omega), ha, hb, if_neg (by simp)]
  simp only [bind, Except.bind, List.length_map]

/-- C88 for BioCam images, named after the moments at which they were taken by the computer: of more than 500 left images that all have a partner, 500
different ones are processed, each with an image of the right camera that was taken within 50 milliseconds. -/
theorem C88_names_partial (left right : List (Moment × Moment × List Char)) (h : 500 < left.length)
    (hv : ∀ x ∈ left ++ right, x.1.Valid ∧ x.2.1.Valid ∧ 2000 ≤ x.1.at_.year ∧ x.2.2 ≠ [] ∧ ∀ c ∈ x.2.2.getLast?, isBlank c = false)
    (hp : ∀ x ∈ left, ∃ y ∈ right, |x.1.utc 0 0 - y.1.utc 0 0| < 5 / 100) :
    ∃ pairs, calViews (left.map fun x => bioName x.1 x.2.1 x.2.2) (right.map fun x => bioName x.1 x.2.1 x.2.2) = .ok pairs ∧
      pairs.length = 500 ∧ (pairs.map Prod.fst).Pairwise (· < ·) ∧
      ∀ p ∈ pairs, ∃ x y, left[p.1]? = some x ∧ right[p.2]? = some y ∧ |x.1.utc 0 0 - y.1.utc 0 0| < 5 / 100 := by
  have hst : ∀ x ∈ left ++ right, biocamStamp (bioName x.1 x.2.1 x.2.2) 0 0 =
      .ok (x.1.utc 0 0, if x.2.1.at_.year < 2000 then 0 else x.2.1.utc 0 0) := by
    intro x hx
    obtain ⟨h1, h2, h3, h4, h5⟩ := hv x hx
    rw [C185_times_partial x.1 x.2.1 h1 h2 x.2.2 h5 h4, if_neg (by omega)]
  have hso : ∀ x ∈ left ++ right, stampOf (bioName x.1 x.2.1 x.2.2) = x.1.utc 0 0 := by
    intro x hx
    unfold stampOf
    rw [hst x hx]
  have hlm : (left.map fun x => bioName x.1 x.2.1 x.2.2).map stampOf = left.map fun x => x.1.utc 0 0 := by
    rw [List.map_map]
    apply List.map_congr_left
    intro x hx
    rw [Function.comp_apply, hso x (List.mem_append_left _ hx)]
  have hrm : (right.map fun x => bioName x.1 x.2.1 x.2.2).map stampOf = right.map fun x => x.1.utc 0 0 := by
    rw [List.map_map]
    apply List.map_congr_left
    intro x hx
    rw [Function.comp_apply, hso x (List.mem_append_right _ hx)]
  obtain ⟨pairs, h1, h2, h3, h4⟩ := C88_pairs_partial (left.map fun x => x.1.utc 0 0) (right.map fun x => x.1.utc 0 0)
    (by simpa using h) (by
      intro t ht
      obtain ⟨x, hx, rfl⟩ := List.mem_map.1 ht
      obtain ⟨y, hy, hd⟩ := hp x hx
      exact ⟨_, List.mem_map.2 ⟨y, hy, rfl⟩, hd⟩)
  refine ⟨pairs, ?_, h2, h3, ?_⟩
  · rw [views_timed, hlm, hrm, h1]
    · intro l hl
      rw [List.head?_map] at hl
      cases hh : left.head? with
      | none => rw [hh] at hl; cases hl
      | some x =>
        rw [hh] at hl
        obtain rfl : bioName x.1 x.2.1 x.2.2 = l := Option.some.inj hl
        simp only [bioName, Moment.text, List.length_append, List.length_cons, Oplab.padDigits_length]
        omega
    · intro e
      rw [List.map_eq_nil_iff] at e
      rw [e] at h
      simp at h
    · intro n hn
      rw [← List.map_append] at hn
      obtain ⟨x, hx, rfl⟩ := List.mem_map.1 hn
      exact ⟨_, hst x hx⟩
  · intro p hpm
    obtain ⟨t, s, e1, e2, e3⟩ := h4 p hpm
    rw [List.getElem?_map] at e1 e2
    cases hx : left[p.1]? with
    | none => rw [hx] at e1; cases e1
    | some x =>
      cases hy : right[p.2]? with
      | none => rw [hy] at e2; cases e2
      | some y =>
        rw [hx] at e1
        rw [hy] at e2
        rw [← Option.some.inj e1, ← Option.some.inj e2] at e3
        exact ⟨x, y, rfl, rfl, e3⟩

/-- Names of images of one second each, from 2020 on. -/
private def exampleView (n : ℕ) : Moment × Moment × List Char :=
  (⟨⟨2020, 1, 2, 3, 4, 5, 0⟩, 3, n % 1000⟩, ⟨⟨1970, 1, 1, 0, 4, 5, 0⟩, 6, 7⟩, ['a'])

example : ∃ left right : List (Moment × Moment × List Char), 500 < left.length ∧
    (∀ x ∈ left ++ right, x.1.Valid ∧ x.2.1.Valid ∧ 2000 ≤ x.1.at_.year ∧ x.2.2 ≠ [] ∧ ∀ c ∈ x.2.2.getLast?, isBlank c = false) ∧
    (∀ x ∈ left, ∃ y ∈ right, |x.1.utc 0 0 - y.1.utc 0 0| < 5 / 100) := by
  refine ⟨(List.range 900).map exampleView, (List.range 900).map fun n => exampleView (n + 1), by simp, ?_, ?_⟩
  · have : ∀ n, (exampleView n).1.Valid ∧ (exampleView n).2.1.Valid ∧ 2000 ≤ (exampleView n).1.at_.year ∧ (exampleView n).2.2 ≠ [] ∧
        ∀ c ∈ (exampleView n).2.2.getLast?, isBlank c = false := by
      intro n
      have a : (⟨2020, 1, 2, 3, 4, 5, 0⟩ : DateTime).ok = true := by decide
      have b : (⟨1970, 1, 1, 0, 4, 5, 0⟩ : DateTime).ok = true := by decide
      refine ⟨⟨a, rfl, Or.inl rfl, Nat.mod_lt _ (by norm_num)⟩, ⟨b, rfl, Or.inr rfl, by norm_num [exampleView]⟩,
        by norm_num [exampleView], by simp [exampleView], ?_⟩
      intro c hc
      obtain rfl : 'a' = c := by simpa [exampleView] using hc
      decide
    intro x hx
    rw [List.mem_append, List.mem_map, List.mem_map] at hx
    rcases hx with ⟨n, -, rfl⟩ | ⟨n, -, rfl⟩
    · exact this n
    · exact this (n + 1)
  · intro x hx
    obtain ⟨n, hn, rfl⟩ := List.mem_map.1 hx
    refine ⟨_, List.mem_map.2 ⟨n, hn, rfl⟩, ?_⟩
    rw [List.mem_range] at hn
    simp only [exampleView, Moment.utc]
    rw [Nat.mod_eq_of_lt (by omega), Nat.mod_eq_of_lt (by omega)]
    push_cast
    rw [abs_lt]
    constructor <;> linarith

/-! ## Short names -/

private theorem one_match (right : List (List Char)) (hnd : right.Nodup) (b : List Char) (hb : b ∈ right) (i : ℕ) :
    ((List.range right.length).filterMap fun j => if some b = right[j]? then some (i, j) else none) = [(i, right.idxOf b)] := by
  have hk : right.idxOf b < right.length := List.idxOf_lt_length_iff.2 hb
  have h1 : ∀ l : List ℕ, (l.filterMap fun j => if some b = right[j]? then some (i, j) else none) =
      (l.filter fun j => decide (some b = right[j]?)).map fun j => (i, j) := by
    intro l
    induction l with
    | nil => rfl
    | cons j l ih =>
      by_cases h : some b = right[j]?
      · rw [List.filterMap_cons, if_pos h, List.filter_cons_of_pos (by simpa using h), List.map_cons, ih]
      · rw [List.filterMap_cons, if_neg h, List.filter_cons_of_neg (by simpa using h), ih]
  have h2 : ((List.range right.length).filter fun j => decide (some b = right[j]?)) = (List.range right.length).filter (· == right.idxOf b) := by
    apply List.filter_congr
    intro j hj
    rw [List.mem_range] at hj
    rw [List.getElem?_eq_getElem hj]
    by_cases he : j = right.idxOf b
    · subst he
      simp
    · have : b ≠ right[j] := by
        intro e
        apply he
        have h3 : right[right.idxOf b] = right[j] := (List.getElem_idxOf hk).trans e
        exact ((List.Nodup.getElem_inj_iff hnd).1 h3).symm
      simp [he, this]
  rw [h1, h2, List.filter_beq, List.count_eq_one_of_mem List.nodup_range (List.mem_range.2 hk)]
  rfl

private theorem named_all (left right : List (List Char)) (hnd : right.Nodup) (h : ∀ l ∈ left, laserName l ∈ right) :
    syncByName left right = (List.range left.length).map fun i => (i, right.idxOf (laserName (left.getD i []))) := by
  have : ∀ is : List ℕ, (∀ i ∈ is, i < left.length) → (is.flatMap fun i => (List.range right.length).filterMap fun j =>
      if (left[i]?).map laserName = right[j]? then some (i, j) else none) =
      is.map fun i => (i, right.idxOf (laserName (left.getD i []))) := by
    intro is
    induction is with
    | nil => intro _; rfl
    | cons i is ih =>
      intro hi
      have h0 := hi i (by simp)
      rw [List.flatMap_cons, ih fun j hj => hi j (by simp [hj]), List.map_cons, List.getElem?_eq_getElem h0, Option.map_some,
        one_match right hnd _ (h _ (List.getElem_mem h0))]
      simp [List.getD_eq_getElem?_getD, List.getElem?_eq_getElem h0]
  exact this _ fun i hi => List.mem_range.1 hi

/-- C88 for short names, of which those of the left camera may begin with `image`: of more than 500 left images that all have a partner of the same name,
500 different ones are processed, each with its partner. -/
theorem C88_short_names_partial (left right : List (List Char)) (h : 500 < left.length) (hs : ∀ l ∈ left.head?, l.length < 26) (hnd : right.Nodup)
    (hp : ∀ l ∈ left, (l ∈ right ∧ ¬ ['i', 'm', 'a', 'g', 'e'] <:+: l) ∨ ∃ r ∈ right, l = ['i', 'm', 'a', 'g', 'e'] ++ r) :
    ∃ pairs, calViews left right = .ok pairs ∧ pairs.length = 500 ∧ (pairs.map Prod.fst).Pairwise (· < ·) ∧
      ∀ p ∈ pairs, ∃ l r, left[p.1]? = some l ∧ right[p.2]? = some r ∧ (l = r ∨ l = ['i', 'm', 'a', 'g', 'e'] ++ r) := by
  have hname : ∀ l ∈ left, laserName l ∈ right ∧ (l = laserName l ∨ l = ['i', 'm', 'a', 'g', 'e'] ++ laserName l) := by
    intro l hl
    unfold laserName hasText
    rcases hp l hl with ⟨h1, h2⟩ | ⟨r, h1, rfl⟩
    · rw [if_neg (by simpa using h2)]
      exact ⟨h1, Or.inl rfl⟩
    · rw [if_pos (by simpa using (List.prefix_append ['i', 'm', 'a', 'g', 'e'] r).isInfix)]
      exact ⟨h1, Or.inr rfl⟩
  have hsync : laserSync left right = .ok ((List.range left.length).map fun i => (i, right.idxOf (laserName (left.getD i [])))) := by
    rw [← named_all left right hnd fun l hl => (hname l hl).1]
    cases left with
    | nil => simp at h
    | cons l ls =>
      unfold laserSync
      dsimp only
      rw [if_pos (hs l rfl)]
  obtain ⟨g1, g2, g3⟩ := C88_spread 500 left.length (by omega) (by omega)
  refine ⟨(spread 500 left.length).map fun i => (i, right.idxOf (laserName (left.getD i []))), ?_, by simp [g1], ?_, ?_⟩
  · unfold calViews
    rw [hsync]
    simp only [bind, Except.bind, if_pos h]
    apply mapM_named
    intro i hi
    have hi' := g3 i hi
    unfold pyGet
    have h0 : ¬ ((i : ℤ) < 0) := by omega
    simp only [if_neg h0, Int.toNat_natCast, List.getElem?_map, List.getElem?_range hi', Option.map_some]
  · rw [List.map_map]
    have : (Prod.fst ∘ fun i => (i, right.idxOf (laserName (left.getD i [])))) = id := rfl
    rw [this, List.map_id]
    exact g2
  · intro p hpm
    obtain ⟨i, hi, rfl⟩ := List.mem_map.1 hpm
    have hi' := g3 i hi
    have hg : left.getD i [] = left[i] := by simp [List.getD_eq_getElem?_getD, hi']
    obtain ⟨n1, n2⟩ := hname left[i] (List.getElem_mem hi')
    refine ⟨left[i], laserName left[i], List.getElem?_eq_getElem hi', ?_, n2⟩
    dsimp only
    rw [hg, List.getElem?_eq_getElem (List.idxOf_lt_length_iff.2 n1), List.getElem_idxOf]

example : ∃ left right : List (List Char), 500 < left.length ∧ (∀ l ∈ left.head?, l.length < 26) ∧ right.Nodup ∧
    ∀ l ∈ left, (l ∈ right ∧ ¬ ['i', 'm', 'a', 'g', 'e'] <:+: l) ∨ ∃ r ∈ right, l = ['i', 'm', 'a', 'g', 'e'] ++ r := by
  refine ⟨List.replicate 501 ("image001".toList), ["002".toList, "001".toList], by rw [List.length_replicate]; omega, ?_, by decide, ?_⟩
  · intro l hl
    rw [List.head?_replicate] at hl
    obtain rfl : "image001".toList = l := by simpa using hl
    decide
  · intro l hl
    right
    rw [List.eq_of_mem_replicate hl]
    exact ⟨"001".toList, by simp, by decide⟩

end Oplab.Props
