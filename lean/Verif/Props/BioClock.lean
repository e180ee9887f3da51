import Mathlib.Tactic.Linarith
import Mathlib.Tactic.Ring
import Mathlib.Tactic.FieldSimp
import Mathlib.Data.Rat.Defs
import Mathlib.Algebra.Order.Ring.Defs
import Mathlib.Algebra.Order.Field.Rat
import Verif.Spec.BioClock

/-! # C222: the times of the images of the BioCam -/

namespace Oplab.Props
open Oplab Oplab.Spec
variable {K : Type} [Field K] [LinearOrder K]
set_option linter.unusedSectionVars false

private theorem foldl_min_le : ∀ (l : List K) (a : K), l.foldl min a ≤ a ∧ (∀ x ∈ l, l.foldl min a ≤ x) ∧ (l.foldl min a = a ∨ l.foldl min a ∈ l)
  | [], a => by simp
  | y :: l, a => by
    obtain ⟨h1, h2, h3⟩ := foldl_min_le l (min a y)
    rw [List.foldl_cons]
    refine ⟨h1.trans (min_le_left _ _), ?_, ?_⟩
    · intro x hx
      rcases List.mem_cons.1 hx with rfl | hx
      · exact h1.trans (min_le_right _ _)
      · exact h2 x hx
    · rcases h3 with h | h
      · rcases min_choice a y with h' | h' <;> rw [h'] at h
        · left; rw [h']; exact h
        · right; rw [h']; rw [h]; simp
      · right; exact List.mem_cons_of_mem _ h

private theorem npMin_ok (l : List K) (d : K) (h : npMin l = .ok d) : (∀ x ∈ l, d ≤ x) ∧ d ∈ l := by
  cases l with
  | nil => simp [npMin] at h
  | cons a l =>
    simp only [npMin, Except.ok.injEq] at h
    obtain ⟨h1, h2, h3⟩ := foldl_min_le l a
    subst h
    refine ⟨?_, ?_⟩
    · intro x hx
      rcases List.mem_cons.1 hx with rfl | hx
      · exact h1
      · exact h2 x hx
    · rcases h3 with h | h
      · rw [h]; simp
      · exact List.mem_cons_of_mem _ h

private theorem zip_self (l : List (K × K)) : (l.map Prod.fst).zip (l.map Prod.snd) = l := by
  induction l with
  | nil => rfl
  | cons p l ih => simp [ih]

section
variable [IsStrictOrderedRing K]

private theorem bioLine_ok (regress : List (K × K) → Res (K × K)) (points : List (K × K)) (f : K × K) (h : bioLine regress points = .ok f) :
    (∀ p ∈ points, f.1 * p.1 + f.2 ≤ p.2) ∧ ∃ p ∈ points, f.1 * p.1 + f.2 = p.2 := by
  unfold bioLine at h
  cases hr : regress points with
  | error e => rw [hr] at h; simp [bind, Except.bind] at h
  | ok g =>
    rw [hr] at h
    simp only [bind, Except.bind, lineFit, zip_self] at h
    cases hd : npMin (points.map fun p => p.2 - g.1 * p.1 - g.2) with
    | error e => rw [hd] at h; cases h
    | ok d =>
      rw [hd] at h
      simp only [Except.ok.injEq] at h
      obtain ⟨h1, h2⟩ := npMin_ok _ _ hd
      subst h
      refine ⟨?_, ?_⟩
      · intro p hp
        have := h1 _ (List.mem_map.2 ⟨p, hp, rfl⟩)
        simp only
        linarith
      · obtain ⟨p, hp, he⟩ := List.mem_map.1 h2
        exact ⟨p, hp, by simp only; linarith⟩

end

private theorem pyGet_drop {α} (l : List α) (i : Nat) (x : α) (xs : List α) (h : l.drop i = x :: xs) :
    pyGet l (i : Int) = .ok x ∧ l.drop (i + 1) = xs := by
  have h0 : l[i]? = some x := by
    have : (l.drop i)[0]? = some x := by rw [h]; rfl
    rwa [List.getElem?_drop, Nat.add_zero] at this
  constructor
  · have hi : ¬ ((i : ℤ) < 0) := by omega
    simp only [pyGet, hi, if_false, Int.toNat_natCast, h0]
  · rw [← List.tail_drop, h]; rfl

/-- A record with the times given by `g1`, `g2`, `g3`. -/
private def retime (g1 g2 : K → K) : ClockRecord K → ClockRecord K
  | .image _ c1 c2 => .image (g1 c1.cam) { c1 with time := g1 c1.cam } { c2 with time := g2 c2.cam }
  | .laser _ c3 => .laser (g2 c3.cam) { c3 with time := g2 c3.cam }

private theorem bioWrite_eq (g1 g2 : K → K) (p1 p2 p3 : List K) : ∀ (l : List (ClockRecord K)) (i j : Nat),
    p1.drop i = (bioOffsets1 l).map (fun p => g1 p.1) → p2.drop i = (bioOffsets2 l).map (fun p => g2 p.1) →
    p3.drop j = (bioOffsets3 l).map (fun p => g2 p.1) → bioWrite p1 p2 p3 i j l = .ok (l.map (retime g1 g2))
  | [], _, _, _, _, _ => rfl
  | .image t c1 c2 :: l, i, j, h1, h2, h3 => by
    simp only [bioOffsets1, bioOffsets2, bioOffsets3, List.filterMap_cons, List.map_cons] at h1 h2 h3
    obtain ⟨e1, d1⟩ := pyGet_drop _ _ _ _ h1
    obtain ⟨e2, d2⟩ := pyGet_drop _ _ _ _ h2
    have ih := bioWrite_eq g1 g2 p1 p2 p3 l (i + 1) j d1 d2 h3
    simp only [bioWrite, e1, e2, bind, Except.bind, ih]
    rfl
  | .laser t c3 :: l, i, j, h1, h2, h3 => by
    simp only [bioOffsets1, bioOffsets2, bioOffsets3, List.filterMap_cons, List.map_cons] at h1 h2 h3
    obtain ⟨e3, d3⟩ := pyGet_drop _ _ _ _ h3
    have ih := bioWrite_eq g1 g2 p1 p2 p3 l i (j + 1) h1 h2 d3
    simp only [bioWrite, e3, bind, Except.bind, ih]
    rfl

private theorem get_ok {α} (l : List α) (x : Res α) (h : 2 ≤ l.length) : (x = pyGet l 1 ∨ x = pyGet l (-2)) → ∃ a, x = .ok a := by
  have h1 : 1 < l.length := by omega
  have h2 : l.length - 2 < l.length := by omega
  rintro (rfl | rfl)
  · exact ⟨l[1], by simp [pyGet, h1]⟩
  · refine ⟨l[l.length - 2], ?_⟩
    have hj : ¬ ((-2 : ℤ) + (l.length : ℤ) < 0) := by omega
    have hn : ((-2 : ℤ) + (l.length : ℤ)).toNat = l.length - 2 := by omega
    simp [pyGet, hj, hn, h2]

private theorem run_eq (regress : List (K × K) → Res (K × K)) (l : List (ClockRecord K)) (f1 f2 : K × K)
    (h1 : bioLine regress (bioOffsets1 l) = .ok f1) (h2 : bioLine regress (bioOffsets2 l ++ bioOffsets3 l) = .ok f2)
    (hn1 : 2 ≤ (bioOffsets1 l).length) (hn2 : 2 ≤ (bioOffsets2 l).length) :
    correctTimestamps regress l = .ok (l.map (retime (fun x => (f1.1 + 1) * x + f1.2) (fun x => (f2.1 + 1) * x + f2.2))) := by
  have g1 : 2 ≤ ((bioOffsets1 l).map Prod.fst).length := by simpa using hn1
  have g2 : 2 ≤ ((bioOffsets2 l).map Prod.fst).length := by simpa using hn2
  obtain ⟨a, ha⟩ := get_ok _ _ g1 (.inl rfl)
  obtain ⟨b, hb⟩ := get_ok _ _ g1 (.inr rfl)
  obtain ⟨c, hc⟩ := get_ok _ _ g2 (.inl rfl)
  obtain ⟨d, hd⟩ := get_ok _ _ g2 (.inr rfl)
  simp only [correctTimestamps, h1, h2, bind, Except.bind, ha, hb, hc, hd]
  apply bioWrite_eq <;> simp [predictCpu]

private theorem len12 (l : List (ClockRecord K)) : (bioOffsets1 l).length = (firstShots l).length ∧ (bioOffsets2 l).length = (firstShots l).length := by
  induction l with
  | nil => exact ⟨rfl, rfl⟩
  | cons r l ih =>
    cases r with
    | image t c1 c2 =>
      simp only [bioOffsets1, bioOffsets2, firstShots, List.filterMap_cons, List.length_cons, List.flatMap_cons, List.length_append, List.length_nil] at ih ⊢
      omega
    | laser t c3 =>
      simp only [bioOffsets1, bioOffsets2, firstShots, List.filterMap_cons, List.flatMap_cons, List.nil_append] at ih ⊢
      exact ih

private theorem mem1 (l : List (ClockRecord K)) (p : K × K) : p ∈ bioOffsets1 l ↔ ∃ c ∈ firstShots l, p = (c.cam, c.cpu - c.cam) := by
  induction l with
  | nil => simp [bioOffsets1, firstShots]
  | cons r l ih =>
    cases r with
    | image t c1 c2 =>
      simp only [bioOffsets1, firstShots, List.filterMap_cons, List.mem_cons, List.flatMap_cons, List.cons_append, List.nil_append] at ih ⊢
      rw [ih]; simp
    | laser t c3 =>
      simp only [bioOffsets1, firstShots, List.filterMap_cons, List.flatMap_cons, List.nil_append] at ih ⊢
      exact ih

private theorem mem23 (l : List (ClockRecord K)) (p : K × K) : p ∈ bioOffsets2 l ++ bioOffsets3 l ↔ ∃ c ∈ secondShots l, p = (c.cam, c.cpu - c.cam) := by
  rw [List.mem_append]
  induction l with
  | nil => simp [bioOffsets2, bioOffsets3, secondShots]
  | cons r l ih =>
    cases r with
    | image t c1 c2 =>
      simp only [bioOffsets2, bioOffsets3, secondShots, List.filterMap_cons, List.mem_cons, List.flatMap_cons, List.cons_append, List.nil_append] at ih ⊢
      rw [or_assoc, ih]; simp
    | laser t c3 =>
      simp only [bioOffsets2, bioOffsets3, secondShots, List.filterMap_cons, List.mem_cons, List.flatMap_cons, List.cons_append, List.nil_append] at ih ⊢
      rw [or_left_comm, ih]; simp

section
variable [IsStrictOrderedRing K]

private theorem retimed (a1 b1 a2 b2 : K) : ∀ l : List (ClockRecord K), (∀ c ∈ firstShots l, a1 * c.cam + b1 ≤ c.cpu) → (∀ c ∈ secondShots l, a2 * c.cam + b2 ≤ c.cpu) →
    List.Forall₂ (RecordCorrected a1 b1 a2 b2) l (l.map (retime (fun x => a1 * x + b1) (fun x => a2 * x + b2)))
  | [], _, _ => .nil
  | .image t c1 c2 :: l, h1, h2 => by
    refine .cons ?_ (retimed a1 b1 a2 b2 l ?_ ?_)
    · exact .image t c1 c2 { c1 with time := a1 * c1.cam + b1 } { c2 with time := a2 * c2.cam + b2 }
        ⟨rfl, rfl, rfl, h1 c1 (by simp [firstShots])⟩ ⟨rfl, rfl, rfl, h2 c2 (by simp [secondShots])⟩
    · intro c hc; exact h1 c (by simp only [firstShots, List.flatMap_cons, List.mem_append] at hc ⊢; exact .inr hc)
    · intro c hc; exact h2 c (by simp only [secondShots, List.flatMap_cons, List.mem_append] at hc ⊢; exact .inr hc)
  | .laser t c3 :: l, h1, h2 => by
    refine .cons ?_ (retimed a1 b1 a2 b2 l ?_ ?_)
    · exact .laser t c3 { c3 with time := a2 * c3.cam + b2 } ⟨rfl, rfl, rfl, h2 c3 (by simp [secondShots])⟩
    · intro c hc; exact h1 c (by simp only [firstShots, List.flatMap_cons, List.mem_append] at hc ⊢; exact .inr hc)
    · intro c hc; exact h2 c (by simp only [secondShots, List.flatMap_cons, List.mem_append] at hc ⊢; exact .inr hc)

private theorem ok_parts (regress : List (K × K) → Res (K × K)) (l l' : List (ClockRecord K)) (h : correctTimestamps regress l = .ok l') :
    ∃ f1 f2, bioLine regress (bioOffsets1 l) = .ok f1 ∧ bioLine regress (bioOffsets2 l ++ bioOffsets3 l) = .ok f2 ∧ 2 ≤ (firstShots l).length := by
  simp only [correctTimestamps, bind, Except.bind] at h
  cases h1 : bioLine regress (bioOffsets1 l) with
  | error e => rw [h1] at h; cases h
  | ok f1 =>
    rw [h1] at h
    cases h2 : bioLine regress (bioOffsets2 l ++ bioOffsets3 l) with
    | error e => rw [h2] at h; cases h
    | ok f2 =>
      refine ⟨f1, f2, rfl, rfl, ?_⟩
      by_contra hn
      have hlt : ((bioOffsets1 l).map Prod.fst).length ≤ 1 := by rw [List.length_map, (len12 l).1]; omega
      have : pyGet ((bioOffsets1 l).map Prod.fst) 1 = .error .indexError := by
        simp only [pyGet]
        rw [if_neg (by omega), if_neg (by omega)]
        have : ((bioOffsets1 l).map Prod.fst)[(1 : ℤ).toNat]? = none := by rw [List.getElem?_eq_none]; exact hlt
        rw [this]
      rw [h2] at h
      simp only [this] at h
      cases h

/-- C222: whatever line the regression proposes, the corrected times of the images are a linear function of the clock of their camera, never later than the image was
received and for one image of each camera equal to that; the laser images share the line of the second camera; nothing else changes. -/
theorem C222_corrected (regress : List (K × K) → Res (K × K)) (l l' : List (ClockRecord K)) (h : correctTimestamps regress l = .ok l') : BioCorrected l l' := by
  obtain ⟨f1, f2, h1, h2, hn⟩ := ok_parts regress l l' h
  rw [run_eq regress l f1 f2 h1 h2 (by rw [(len12 l).1]; exact hn) (by rw [(len12 l).2]; exact hn), Except.ok.injEq] at h
  subst h
  obtain ⟨le1, t1⟩ := bioLine_ok _ _ _ h1
  obtain ⟨le2, t2⟩ := bioLine_ok _ _ _ h2
  refine ⟨f1.1 + 1, f1.2, f2.1 + 1, f2.2, retimed _ _ _ _ l ?_ ?_, ?_, ?_⟩
  · intro c hc
    have := le1 _ ((mem1 l _).2 ⟨c, hc, rfl⟩)
    simp only at this; linarith
  · intro c hc
    have := le2 _ ((mem23 l _).2 ⟨c, hc, rfl⟩)
    simp only at this; linarith
  · obtain ⟨p, hp, he⟩ := t1
    obtain ⟨c, hc, rfl⟩ := (mem1 l p).1 hp
    exact ⟨c, hc, by simp only at he; linarith⟩
  · obtain ⟨p, hp, he⟩ := t2
    obtain ⟨c, hc, rfl⟩ := (mem23 l p).1 hp
    exact ⟨c, hc, by simp only at he; linarith⟩

private theorem foldl_min_const (d : K) : ∀ l : List K, (∀ x ∈ l, x = d) → l.foldl min d = d
  | [], _ => rfl
  | y :: l, h => by
    rw [List.foldl_cons, h y (by simp), min_self]
    exact foldl_min_const d l fun x hx => h x (List.mem_cons_of_mem _ hx)

private theorem bioLine_exact (regress : List (K × K) → Res (K × K)) (hr : FindsLines regress) (points : List (K × K)) (m c : K)
    (hd : ∃ p ∈ points, ∃ q ∈ points, p.1 ≠ q.1) (hp : ∀ p ∈ points, p.2 = m * p.1 + c) : bioLine regress points = .ok (m, c) := by
  obtain ⟨q, hq, _⟩ := hd
  have hz : ∀ x ∈ points.map (fun p => p.2 - m * p.1 - c), x = 0 := by
    intro x hx
    obtain ⟨p, h1, rfl⟩ := List.mem_map.1 hx
    rw [hp p h1]; ring
  have hmin : npMin (points.map fun p => p.2 - m * p.1 - c) = .ok 0 := by
    cases points with
    | nil => simp at hq
    | cons p ps =>
      rw [List.map_cons, npMin, hz (p.2 - m * p.1 - c) (by simp), foldl_min_const 0]
      intro x hx; exact hz x (by rw [List.map_cons]; exact List.mem_cons_of_mem _ hx)
  unfold bioLine
  rw [hr points m c ⟨q, hq, by assumption⟩ hp]
  simp only [bind, Except.bind, lineFit, zip_self, hmin, add_zero]

/-- C222: if each camera has a clock that runs evenly, and images are received at once, every image gets the time at which it was received (and taken). -/
theorem C222_exact (regress : List (K × K) → Res (K × K)) (hr : FindsLines regress) (l : List (ClockRecord K)) (a1 b1 a2 b2 : K)
    (h1 : ∀ c ∈ firstShots l, c.cpu = a1 * c.cam + b1) (h2 : ∀ c ∈ secondShots l, c.cpu = a2 * c.cam + b2)
    (d1 : ∃ c ∈ firstShots l, ∃ c' ∈ firstShots l, c.cam ≠ c'.cam) (d2 : ∃ c ∈ secondShots l, ∃ c' ∈ secondShots l, c.cam ≠ c'.cam) :
    ∃ l', correctTimestamps regress l = .ok l' ∧ List.Forall₂ (fun r r' => match r, r' with
      | .image _ c1 c2, .image t d1 d2 => t = c1.cpu ∧ d1.time = c1.cpu ∧ d2.time = c2.cpu
      | .laser _ c3, .laser t d3 => t = c3.cpu ∧ d3.time = c3.cpu
      | _, _ => False) l l' := by
  have e1 : bioLine regress (bioOffsets1 l) = .ok (a1 - 1, b1) := by
    apply bioLine_exact regress hr
    · obtain ⟨c, hc, c', hc', hne⟩ := d1
      exact ⟨_, (mem1 l _).2 ⟨c, hc, rfl⟩, _, (mem1 l _).2 ⟨c', hc', rfl⟩, hne⟩
    · intro p hp
      obtain ⟨c, hc, rfl⟩ := (mem1 l p).1 hp
      simp only [h1 c hc]; ring
  have e2 : bioLine regress (bioOffsets2 l ++ bioOffsets3 l) = .ok (a2 - 1, b2) := by
    apply bioLine_exact regress hr
    · obtain ⟨c, hc, c', hc', hne⟩ := d2
      exact ⟨_, (mem23 l _).2 ⟨c, hc, rfl⟩, _, (mem23 l _).2 ⟨c', hc', rfl⟩, hne⟩
    · intro p hp
      obtain ⟨c, hc, rfl⟩ := (mem23 l p).1 hp
      simp only [h2 c hc]; ring
  have hn : 2 ≤ (firstShots l).length := by
    obtain ⟨c, hc, c', hc', hne⟩ := d1
    by_contra hlt
    match h : firstShots l with
    | [] => rw [h] at hc; simp at hc
    | [x] =>
      rw [h] at hc hc'
      simp only [List.mem_singleton] at hc hc'
      subst hc hc'; exact hne rfl
    | x :: y :: r => rw [h] at hlt; simp at hlt
  refine ⟨_, run_eq regress l _ _ e1 e2 (by rw [(len12 l).1]; exact hn) (by rw [(len12 l).2]; exact hn), ?_⟩
  have s1 : ∀ x : K, (a1 - 1 + 1) * x + b1 = a1 * x + b1 := fun x => by ring
  have s2 : ∀ x : K, (a2 - 1 + 1) * x + b2 = a2 * x + b2 := fun x => by ring
  simp only [s1, s2]
  clear e1 e2 hn d1 d2
  induction l with
  | nil => exact .nil
  | cons r l ih =>
    have ih := ih (fun c hc => h1 c (by simp only [firstShots, List.flatMap_cons, List.mem_append] at hc ⊢; exact .inr hc))
      (fun c hc => h2 c (by simp only [secondShots, List.flatMap_cons, List.mem_append] at hc ⊢; exact .inr hc))
    refine .cons ?_ ih
    cases r with
    | image t c1 c2 =>
      have g1 := h1 c1 (by simp [firstShots])
      have g2 := h2 c2 (by simp [secondShots])
      simp only [retime]
      exact ⟨g1.symm, g1.symm, g2.symm⟩
    | laser t c3 =>
      have g2 := h2 c3 (by simp [secondShots])
      simp only [retime]
      exact ⟨g2.symm, g2.symm⟩

/-- C222: with the format `biocam` and a pair of images as first record the times are corrected.  Missing from the full claim: the format `biocam4000_15c`, and dives of which
the first record is a laser image, that is, dives without a pair; see below. -/
theorem C222_parsed_partial (regress : List (K × K) → Res (K × K)) (t : K) (c1 c2 : ClockShot K) (l l' : List (ClockRecord K))
    (h : bioResults regress "biocam" (.image t c1 c2 :: l) = .ok l') : BioCorrected (.image t c1 c2 :: l) l' := by
  simp only [bioResults, if_true] at h
  exact C222_corrected regress _ _ h

end

/-- C222: a dive with a single pair of images cannot be parsed, although its time is known. -/
theorem C222_one_pair_false (regress : List (K × K) → Res (K × K)) (t : K) (c1 c2 : ClockShot K) (shots : List (K × ClockShot K)) :
    ¬ ∃ l', bioResults regress "biocam" (.image t c1 c2 :: shots.map fun s => .laser s.1 s.2) = .ok l' := by
  rintro ⟨l', h⟩
  simp only [bioResults, if_true, correctTimestamps, bind, Except.bind] at h
  have h0 : bioOffsets1 (.image t c1 c2 :: shots.map fun s => ClockRecord.laser s.1 s.2) = [(c1.cam, c1.cpu - c1.cam)] := by
    have : ∀ s : List (K × ClockShot K), bioOffsets1 (s.map fun s => ClockRecord.laser s.1 s.2) = [] := by
      intro s; induction s with
      | nil => rfl
      | cons _ _ ih => simp [bioOffsets1]
    have h' := this shots
    simp only [bioOffsets1, List.filterMap_cons] at h' ⊢
    rw [h']
  rw [h0] at h
  cases h1 : bioLine regress [(c1.cam, c1.cpu - c1.cam)] with
  | error e => rw [h1] at h; cases h
  | ok f1 =>
    rw [h1] at h
    simp only at h
    split at h
    · cases h
    · simp [pyGet] at h

/-- Three pairs, the second of which was received late. -/
private def jitter : List (ClockRecord ℚ) :=
  [.image 10 ⟨10, 0, 10⟩ ⟨10, 0, 10⟩, .image 12 ⟨12, 1, 12⟩ ⟨12, 1, 12⟩, .image 12 ⟨12, 2, 12⟩ ⟨12, 2, 12⟩]

open Classical in
/-- A regression that is right about points on a line. -/
private noncomputable def lineOf (points : List (ℚ × ℚ)) : Res (ℚ × ℚ) :=
  if h : (∃ p ∈ points, ∃ q ∈ points, p.1 ≠ q.1) ∧ ∃ f : ℚ × ℚ, ∀ p ∈ points, p.2 = f.1 * p.1 + f.2 then .ok h.2.choose else .ok (0, 0)

private theorem lineOf_finds : FindsLines lineOf := by
  intro points m c hd hp
  have h : (∃ p ∈ points, ∃ q ∈ points, p.1 ≠ q.1) ∧ ∃ f : ℚ × ℚ, ∀ p ∈ points, p.2 = f.1 * p.1 + f.2 := ⟨hd, (m, c), hp⟩
  have hs := h.2.choose_spec
  rw [lineOf, dif_pos h]
  obtain ⟨p, h1, q, h2, hne⟩ := hd
  have e1 := hs p h1; have e2 := hs q h2; have e3 := hp p h1; have e4 := hp q h2
  set f := h.2.choose
  have hm : f.1 = m := by
    have : (f.1 - m) * (p.1 - q.1) = 0 := by linarith
    rcases mul_eq_zero.1 this with h' | h'
    · linarith
    · exact absurd (by linarith) hne
  have hc : f.2 = c := by rw [hm] at e1; linarith
  rw [Except.ok.injEq]
  exact Prod.ext hm hc

private theorem shot1 {a1 b1 a2 b2 : K} (r r' : ClockRecord K) (h : RecordCorrected a1 b1 a2 b2 r r') (t t' : K) (c1 c2 e1 e2 : ClockShot K) (h1 : r = .image t c1 c2)
    (h2 : r' = .image t' e1 e2) : ShotCorrected a1 b1 c1 e1 := by
  cases h with
  | image t0 c1 c2 d1 d2 s1 s2 =>
    injection h1 with _ h1 _
    injection h2 with _ h2 _
    subst h1 h2; exact s1
  | laser => cases h1

/-- C222: the full claim fails for the second format: the times of the images stay those at which they were received, which are no linear function of the clock. -/
theorem C222_format_false : ¬ AllBioCorrected ℚ := by
  intro h
  have hf : bioResults lineOf "biocam4000_15c" jitter = .ok jitter := by
    have : ¬ ("biocam4000_15c" : String) = "biocam" := by decide +kernel
    simp only [bioResults, this, if_false]
  obtain ⟨a1, b1, a2, b2, hc⟩ := h lineOf lineOf_finds "biocam4000_15c" (by simp) jitter jitter (by simp [jitter]) hf
  unfold jitter at hc
  cases hc with
  | cons r1 hc => cases hc with
    | cons r2 hc => cases hc with
      | cons r3 _ =>
        have t1 := (shot1 _ _ r1 _ _ _ _ _ _ rfl rfl).time
        have t2 := (shot1 _ _ r2 _ _ _ _ _ _ rfl rfl).time
        have t3 := (shot1 _ _ r3 _ _ _ _ _ _ rfl rfl).time
        simp only at t1 t2 t3
        linarith

/-- C222: without a pair the times of laser images stay as they were, whatever the format. -/
theorem C222_laser_only_false (regress : List (K × K) → Res (K × K)) (format : String) (shots : List (K × ClockShot K)) :
    bioResults regress format (shots.map fun s => .laser s.1 s.2) = .ok (shots.map fun s => .laser s.1 s.2) := by
  cases shots with
  | nil => simp [bioResults]
  | cons s r => simp [bioResults]

/-- The correction of a dive with three pairs and a laser image: the late image is moved back to where its clock says. -/
example : correctTimestamps (fun _ => .ok (0, 10)) (jitter ++ [.laser 13 ⟨13, 3, 13⟩]) =
    .ok [.image 10 ⟨10, 0, 10⟩ ⟨10, 0, 10⟩, .image 11 ⟨12, 1, 11⟩ ⟨12, 1, 11⟩, .image 12 ⟨12, 2, 12⟩ ⟨12, 2, 12⟩, .laser 13 ⟨13, 3, 13⟩] := by
  simp [correctTimestamps, jitter, bioLine, lineFit, npMin, bioOffsets1, bioOffsets2, bioOffsets3, bioWrite, predictCpu, pyGet, bind, Except.bind]
  norm_num

/-- The hypotheses of the exact case are met by a camera whose clock runs slow. -/
example : ∃ l', correctTimestamps lineOf [.image 0 ⟨10, 0, 0⟩ ⟨20, 5, 0⟩, .laser 0 ⟨22, 6, 0⟩, .image 0 ⟨12, 1, 0⟩ ⟨24, 7, 0⟩] = .ok l' := by
  obtain ⟨l', h, _⟩ := C222_exact lineOf lineOf_finds [.image 0 ⟨10, 0, 0⟩ ⟨20, 5, 0⟩, .laser 0 ⟨22, 6, 0⟩, .image 0 ⟨12, 1, 0⟩ ⟨24, 7, 0⟩] 2 10 2 10
    (by simp [firstShots]; norm_num) (by simp [secondShots]; norm_num) ⟨⟨10, 0, 0⟩, by simp [firstShots], ⟨12, 1, 0⟩, by simp [firstShots], by norm_num⟩
    ⟨⟨20, 5, 0⟩, by simp [secondShots], ⟨24, 7, 0⟩, by simp [secondShots], by norm_num⟩
  exact ⟨l', h⟩

end Oplab.Props
