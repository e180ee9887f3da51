import Verif.Model.ColourRun
import Verif.Spec.ColourRun
import Verif.Props.Correct
import Verif.Props.Images
import Verif.Props.Numerical
import Mathlib.Analysis.Calculus.LocalExtr.Rolle
import Mathlib.Analysis.SpecialFunctions.ExpDeriv
import Mathlib.Data.List.Count

/-!
# C226: corrected images show the floor
-/

namespace Oplab.Props
open Oplab Oplab.Spec

/-! ## Three points determine an exponential curve -/

private theorem curve_deriv (a b c a' b' c' x : ℝ) :
    HasDerivAt (fun x => a * Real.exp (b * x) + c - (a' * Real.exp (b' * x) + c'))
      (a * b * Real.exp (b * x) - a' * b' * Real.exp (b' * x)) x := by
  have h : ∀ a b c : ℝ, HasDerivAt (fun x => a * Real.exp (b * x) + c) (a * b * Real.exp (b * x)) x := by
    intro a b c
    have h1 : HasDerivAt (fun x : ℝ => b * x) b x := by simpa using (hasDerivAt_id x).const_mul b
    have h2 := (h1.exp.const_mul a).add_const c
    rw [show a * b * Real.exp (b * x) = a * (Real.exp (b * x) * b) by ring]
    exact h2
  exact (h a b c).sub (h a' b' c')

private theorem rolle_curve (a b c a' b' c' x y : ℝ) (hxy : x < y) (hx : a * Real.exp (b * x) + c = a' * Real.exp (b' * x) + c')
    (hy : a * Real.exp (b * y) + c = a' * Real.exp (b' * y) + c') :
    ∃ z, x < z ∧ z < y ∧ a * b * Real.exp (b * z) = a' * b' * Real.exp (b' * z) := by
  obtain ⟨z, hz, h⟩ := exists_hasDerivAt_eq_zero hxy
    (fun t _ => (curve_deriv a b c a' b' c' t).continuousAt.continuousWithinAt) (by simp only [hx, hy, sub_self])
    (fun t _ => curve_deriv a b c a' b' c' t)
  exact ⟨z, hz.1, hz.2, sub_eq_zero.1 h⟩

private theorem curves_equal (a b c a' b' c' x y z : ℝ) (ha : 0 < a) (ha' : 0 < a') (hxy : x < y) (hyz : y < z)
    (hx : a * Real.exp (b * x) + c = a' * Real.exp (b' * x) + c') (hy : a * Real.exp (b * y) + c = a' * Real.exp (b' * y) + c')
    (hz : a * Real.exp (b * z) + c = a' * Real.exp (b' * z) + c') (t : ℝ) :
    a * Real.exp (b * t) + c = a' * Real.exp (b' * t) + c' := by
  obtain ⟨u, -, hu2, hu⟩ := rolle_curve a b c a' b' c' x y hxy hx hy
  obtain ⟨v, hv1, -, hv⟩ := rolle_curve a b c a' b' c' y z hyz hy hz
  have huv : u < v := hu2.trans hv1
  have hbb : b = b' := by
    by_cases hb : b = 0
    · rw [hb] at hu
      have h0 : a' * b' * Real.exp (b' * u) = 0 := by rw [← hu]; ring
      have : b' = 0 := by
        rcases mul_eq_zero.1 h0 with h | h
        · rcases mul_eq_zero.1 h with h | h
          · exact absurd h ha'.ne'
          · exact h
        · exact absurd h (Real.exp_pos _).ne'
      rw [hb, this]
    · by_contra hne
      have hab : a * b ≠ 0 := mul_ne_zero ha.ne' hb
      have e : ∀ w, a * b * Real.exp (b * w) = a' * b' * Real.exp (b' * w) → Real.exp ((b - b') * w) = a' * b' / (a * b) := by
        intro w h
        rw [eq_div_iff hab, sub_mul, Real.exp_sub, div_mul_eq_mul_div, div_eq_iff (Real.exp_pos _).ne', ← h]
        ring
      have h1 := (e u hu).trans (e v hv).symm
      have h2 := Real.exp_injective h1
      have h3 : u = v := mul_left_cancel₀ (sub_ne_zero.2 hne) h2
      exact absurd h3 huv.ne
  subst hbb
  by_cases hb : b = 0
  · subst hb
    simp only [zero_mul, Real.exp_zero] at hx ⊢
    exact hx
  · have hee : a * b = a' * b := mul_right_cancel₀ (Real.exp_pos (b * u)).ne' hu
    have haa : a = a' := mul_right_cancel₀ hb hee
    subst haa
    have : c = c' := by linarith
    rw [this]

/-! ## The images of a bin -/

private theorem range_filter_values {A : Type} (g : A → ℝ) (q : Option A → Bool) : ∀ l : List A,
    valuesAt (l.map g) ((List.range l.length).filter fun i => q l[i]?) = (l.filter fun x => q (some x)).map g := by
  intro l
  induction l using List.reverseRecOn with
  | nil => rfl
  | append_singleton t x ih =>
    have h1 : (List.range t.length).filter (fun i => q (t ++ [x])[i]?) = (List.range t.length).filter fun i => q t[i]? := by
      apply List.filter_congr
      intro i hi
      rw [List.getElem?_append_left (List.mem_range.1 hi)]
    have h2 : ∀ l' : List ℕ, (∀ i ∈ l', i < t.length) → valuesAt ((t ++ [x]).map g) l' = valuesAt (t.map g) l' := by
      intro l' hl'
      unfold valuesAt
      apply List.filterMap_congr
      intro i hi
      rw [List.map_append, List.getElem?_append_left (by simpa using hl' i hi)]
    rw [List.length_append, List.length_singleton, List.range_succ, List.filter_append, h1]
    have h3 := h2 ((List.range t.length).filter fun i => q t[i]?) fun i hi => List.mem_range.1 (List.mem_filter.1 hi).1
    unfold valuesAt at *
    rw [List.filterMap_append, h3, ih, List.filter_append, List.map_append]
    by_cases hq : q (some x) = true
    · simp [hq]
    · simp [hq]

variable (s : ColourParse) (shots : List FloorShot)

private theorem get_alt {i : ℕ} (hi : i < shots.length) : (shots.map FloorShot.altitude)[i]? = some shots[i].altitude := by
  simp [List.getElem?_eq_getElem hi]

open Classical in
/-- The positions of the images at an altitude. -/
private noncomputable def posAt (h : ℝ) : List ℕ := (List.range shots.length).filter fun i => decide ((shots[i]?.map FloorShot.altitude) = some h)

private theorem values_posAt (g : FloorShot → ℝ) (h : ℝ) : valuesAt (shots.map g) (posAt shots h) = (shotsAt shots h).map g := by
  unfold posAt shotsAt
  rw [range_filter_values g (fun o => open Classical in decide ((o.map FloorShot.altitude) = some h)) shots]
  congr 1
  apply List.filter_congr
  intro x _
  simp

private theorem posAt_length (h : ℝ) : (posAt shots h).length = (shotsAt shots h).length := by
  have := congrArg List.length (values_posAt shots FloorShot.altitude h)
  rw [List.length_map] at this
  rw [← this]
  unfold valuesAt
  have hs : ∀ i ∈ posAt shots h, ∃ y, (shots.map FloorShot.altitude)[i]? = some y := by
    intro i hi
    have := (List.mem_filter.1 hi).1
    exact ⟨_, get_alt shots (List.mem_range.1 this)⟩
  generalize posAt shots h = l at hs
  induction l with
  | nil => rfl
  | cons i l ih =>
    obtain ⟨y, hy⟩ := hs i (by simp)
    rw [List.filterMap_cons_some hy, List.length_cons, List.length_cons, ih fun j hj => hs j (by simp [hj])]

private theorem histBins_length (lo hi : ℝ) : (histBins lo hi).length = edgeCount lo hi := by simp [histBins]

private theorem members_same (hst : Stepped shots) (k : ℕ) (hk : k + 1 < edgeCount s.altMin s.altMax)
    (hne : inBin (histBins s.altMin s.altMax) (shots.map FloorShot.altitude) k ≠ []) :
    ∃ x ∈ shots, inBin (histBins s.altMin s.altMax) (shots.map FloorShot.altitude) k = posAt shots x.altitude := by
  obtain ⟨i, hi⟩ := List.exists_mem_of_ne_nil _ hne
  have hil : i < shots.length := by
    have := (List.mem_filter.1 hi).1
    rw [List.mem_range, List.length_map] at this
    exact this
  refine ⟨shots[i], List.getElem_mem hil, ?_⟩
  have hb := (C56_bin s.altMin s.altMax (shots.map FloorShot.altitude) i k _ (get_alt shots hil) hk).1 hi
  have key : ∀ j, j < shots.length →
      (j ∈ inBin (histBins s.altMin s.altMax) (shots.map FloorShot.altitude) k ↔ (shots[j]?.map FloorShot.altitude) = some shots[i].altitude) := by
    intro j hj
    rw [C56_bin s.altMin s.altMax (shots.map FloorShot.altitude) j k _ (get_alt shots hj) hk, List.getElem?_eq_getElem hj, Option.map_some,
      Option.some.injEq]
    constructor
    · intro h
      exact hst _ (List.getElem_mem hj) _ (List.getElem_mem hil) (by rw [abs_lt]; constructor <;> nlinarith [hb.1, hb.2, h.1, h.2])
    · intro h
      rw [h]
      exact hb
  unfold posAt
  have : inBin (histBins s.altMin s.altMax) (shots.map FloorShot.altitude) k =
      (List.range shots.length).filter fun j => decide (j ∈ inBin (histBins s.altMin s.altMax) (shots.map FloorShot.altitude) k) := by
    conv_lhs => unfold inBin
    rw [List.length_map]
    apply List.filter_congr
    intro j hj
    unfold inBin
    rw [Bool.eq_iff_iff]
    simp only [decide_eq_true_eq, List.mem_filter, List.mem_range, List.length_map]
    exact ⟨fun h => ⟨List.mem_range.1 hj, h⟩, fun h => h.2⟩
  rw [this]
  apply List.filter_congr
  intro j hj
  simp only [decide_eq_decide]
  exact key j (List.mem_range.1 hj)

private theorem bin_of_altitude (x : FloorShot) (h0 : s.altMin < x.altitude) (h1 : x.altitude + 1 / 20 < s.altMax) :
    ∃ k, k + 1 < edgeCount s.altMin s.altMax ∧ ∀ i, i < shots.length → (shots[i]?.map FloorShot.altitude) = some x.altitude →
      i ∈ inBin (histBins s.altMin s.altMax) (shots.map FloorShot.altitude) k := by
  have hpos : 0 ≤ (x.altitude - s.altMin) * 10 := by linarith
  have hf := Nat.floor_le hpos
  have hg := Nat.lt_floor_add_one ((x.altitude - s.altMin) * 10)
  have hk : ⌊(x.altitude - s.altMin) * 10⌋₊ + 1 < edgeCount s.altMin s.altMax := by
    unfold edgeCount
    rw [Nat.lt_ceil]
    push_cast
    rw [lt_div_iff₀ (by norm_num)]
    linarith
  refine ⟨_, hk, fun i hi he => ?_⟩
  rw [List.getElem?_eq_getElem hi, Option.map_some, Option.some.injEq] at he
  rw [C56_bin s.altMin s.altMax (shots.map FloorShot.altitude) i _ _ (get_alt shots hi) hk, he]
  constructor <;> linarith

/-! ## The fit -/

private theorem mapM_both {A B : Type} (f : A → Res B) : ∀ l : List A, (∀ a ∈ l, ∃ b, f a = .ok b) →
    ∃ bs, l.mapM f = .ok bs ∧ (∀ b ∈ bs, ∃ a ∈ l, f a = .ok b) ∧ ∀ a ∈ l, ∀ b, f a = .ok b → b ∈ bs
  | [], _ => ⟨[], rfl, by simp, by simp⟩
  | a :: l, h => by
    obtain ⟨b, hb⟩ := h a (by simp)
    obtain ⟨bs, h1, h2, h3⟩ := mapM_both f l fun x hx => h x (by simp [hx])
    refine ⟨b :: bs, by rw [List.mapM_cons, hb, h1]; rfl, ?_, ?_⟩
    · intro y hy
      rcases List.mem_cons.1 hy with rfl | hy
      · exact ⟨a, by simp, hb⟩
      · obtain ⟨x, hx, e⟩ := h2 y hy
        exact ⟨x, by simp [hx], e⟩
    · intro x hx y hy
      rcases List.mem_cons.1 hx with rfl | hx
      · rw [hb] at hy
        exact List.mem_cons.2 (Or.inl (Except.ok.inj hy).symm)
      · exact List.mem_cons_of_mem _ (h3 x hx y hy)

private theorem mapM_source {A B : Type} (f : A → Res B) : ∀ (l : List A) (bs : List B), l.mapM f = .ok bs → ∀ b ∈ bs, ∃ a ∈ l, f a = .ok b
  | [], bs, h, b, hb => by
    obtain rfl : bs = [] := (Except.ok.inj h).symm
    cases hb
  | a :: l, bs, h, b, hb => by
    rw [List.mapM_cons] at h
    cases ha : f a with
    | error e => rw [ha] at h; cases h
    | ok x =>
      cases hl : l.mapM f with
      | error e => rw [ha, hl] at h; cases h
      | ok xs =>
        rw [ha, hl] at h
        obtain rfl : x :: xs = bs := Except.ok.inj h
        rcases List.mem_cons.1 hb with rfl | hb
        · exact ⟨a, by simp, ha⟩
        · obtain ⟨y, hy, e⟩ := mapM_source f l xs hl b hb
          exact ⟨y, by simp [hy], e⟩

private theorem finite_pairs : ∀ rows : List (Option ℝ × Option ℝ), (∀ r ∈ rows, ∃ d v, r = (some d, some v)) →
    ∀ p : ℝ × ℝ, p ∈ fitPairs (rows.map Prod.fst) (rows.map Prod.snd) ↔ (some p.1, some p.2) ∈ rows ∧ 0 < p.1 ∧ 0 < p.2 := by
  intro rows h p
  have e : (finiteOnly (rows.map Prod.fst)).zip (finiteOnly (rows.map Prod.snd)) = rows.filterMap fun r =>
      match r with
      | (some d, some v) => some (d, v)
      | _ => none := by
    induction rows with
    | nil => rfl
    | cons r rows ih =>
      obtain ⟨d, v, rfl⟩ := h r (by simp)
      have := ih fun x hx => h x (by simp [hx])
      unfold finiteOnly at *
      simp only [List.map_cons, List.filterMap_cons, id_eq, List.zip_cons_cons]
      exact congrArg _ this
  unfold fitPairs positivePairs
  rw [e, List.mem_filter, List.mem_filterMap]
  simp only [decide_eq_true_eq]
  constructor
  · rintro ⟨⟨r, hr, he⟩, h0⟩
    obtain ⟨d, v, rfl⟩ := h r hr
    obtain rfl : (d, v) = p := Option.some.inj he
    exact ⟨hr, h0⟩
  · rintro ⟨hr, h0⟩
    exact ⟨⟨_, hr, rfl⟩, h0⟩

private theorem least_ge (c : ℝ) : ∀ (l : List ℝ) (x : ℝ), c ≤ x → (∀ y ∈ l, c ≤ y) → c ≤ l.foldl min x
  | [], x, hx, _ => hx
  | y :: l, x, hx, h => least_ge c l (min x y) (le_min hx (h y (by simp))) fun z hz => h z (by simp [hz])

private theorem fit_curve (opt : ℝ × ℝ × ℝ → List (ℝ × ℝ) → ℝ → Option (ℝ × ℝ × ℝ)) (hopt : FindsExact opt) (a b c : ℝ) (hB : InBounds a b c)
    (alts ints : List (Option ℝ)) (hon : ∀ p ∈ fitPairs alts ints, p.2 = a * Real.exp (b * p.1) + c) (x y z : ℝ) (hxy : x < y) (hyz : y < z)
    (hx : (x, a * Real.exp (b * x) + c) ∈ fitPairs alts ints) (hy : (y, a * Real.exp (b * y) + c) ∈ fitPairs alts ints)
    (hz : (z, a * Real.exp (b * z) + c) ∈ fitPairs alts ints) :
    ∃ a' b' c', curveFit opt alts ints = .real a' b' c' ∧ InBounds a' b' c' ∧
      ∀ t, a' * Real.exp (b' * t) + c' = a * Real.exp (b * t) + c := by
  unfold curveFit
  generalize fitPairs alts ints = l at *
  cases l with
  | nil => cases hx
  | cons p ps =>
    simp only
    have hpos : 0 < a := lt_of_lt_of_le (by norm_num) hB.1
    have hstart : ∃ a0 b0 c0, curveStart p ps = .real a0 b0 c0 := by
      unfold curveStart
      dsimp only
      have hmem : ∀ n, (p :: ps).getD n p ∈ p :: ps := by
        intro n
        rw [List.getD_eq_getElem?_getD]
        cases hn : (p :: ps)[n]? with
        | none => simp
        | some q => simpa using List.mem_of_getElem? hn
      have h0 := hon _ (hmem (3 * (p :: ps).length / 10))
      have h1 := hon _ (hmem (7 * (p :: ps).length / 10))
      generalize (p :: ps).getD (3 * (p :: ps).length / 10) p = q0 at *
      generalize (p :: ps).getD (7 * (p :: ps).length / 10) p = q1 at *
      by_cases hd : q0.1 - q1.1 = 0
      · rw [if_pos hd]
        have he : q0.2 = q1.2 := by rw [h0, h1, sub_eq_zero.1 hd]
        rw [he, if_neg]
        · exact ⟨_, _, _, rfl⟩
        · rw [not_lt]
          by_cases h : q1.2 - leastIntensity p ps * (1 / 2) = 0
          · rw [h]; simp
          · rw [div_self h, Real.log_one]
      · rw [if_neg hd]
        split_ifs
        · exact ⟨_, _, _, rfl⟩
        · exact ⟨_, _, _, rfl⟩
    obtain ⟨a0, b0, c0, hs⟩ := hstart
    have hub : c ≤ leastIntensity p ps := by
      have hc : ∀ q ∈ p :: ps, c ≤ q.2 := by
        intro q hq
        rw [hon q hq]
        have := Real.exp_pos (b * q.1)
        nlinarith
      unfold leastIntensity
      apply least_ge
      · exact hc p (by simp)
      · intro v hv
        obtain ⟨q, hq, rfl⟩ := List.mem_map.1 hv
        exact hc q (by simp [hq])
    obtain ⟨a', b', c', ho, hB', hon'⟩ := hopt (a0, b0, c0) (p :: ps) (leastIntensity p ps) ⟨a, b, c, hB, hub, hon⟩
    refine ⟨a', b', c', ?_, hB', ?_⟩
    · unfold curveOptimise
      rw [hs]
      simp only [ho]
    · have hpos' : 0 < a' := lt_of_lt_of_le (by norm_num) hB'.1
      exact curves_equal a' b' c' a b c x y z hpos' hpos hxy hyz (hon' _ hx).symm (hon' _ hy).symm (hon' _ hz).symm

/-! ## The table of the bins -/

private theorem npMean_const (l : List ℝ) (h : ℝ) (hne : l ≠ []) (hl : ∀ x ∈ l, x = h) : npMean l = some h := by
  have hrep : l = List.replicate l.length h := List.eq_replicate_iff.2 ⟨rfl, hl⟩
  have h0 : l.length ≠ 0 := fun e => hne (List.length_eq_zero_iff.1 e)
  unfold npMean
  rw [if_neg h0]
  have : l.sum = l.length * h := by
    conv_lhs => rw [hrep]
    simp
  rw [this, mul_div_cancel_left₀ _ (by exact_mod_cast h0)]

private theorem shotsAt_alt (h : ℝ) : ∀ x ∈ shotsAt shots h, x ∈ shots ∧ x.altitude = h := by
  intro x hx
  unfold shotsAt at hx
  rw [List.mem_filter] at hx
  exact ⟨hx.1, by simpa using hx.2⟩

/-- What the average of a bin has to give. -/
private def SmoothsTo (values : List ℝ) (E : ℝ → ℝ) : Prop :=
  ∀ h, 10 ≤ (shotsAt shots h).length → ∀ idx, (idx = posAt shots h ∨ (s.smoothing ≠ "mean" ∧ idx = s.pick (posAt shots h))) →
    smoothBin s (valuesAt values idx) = .ok (some (E h))

private theorem bin_row (hst : Stepped shots) (h0 : 0 ≤ s.altMin) (hlo : ∀ x ∈ shots, s.altMin < x.altitude) (values : List ℝ) (E : ℝ → ℝ)
    (hsm : SmoothsTo s shots values E) (k : ℕ) (hk : k + 1 < edgeCount s.altMin s.altMax) :
    binRow s (shots.map FloorShot.altitude) values k = .ok (some 0, some 0) ∨
      ∃ x ∈ shots, inBin (histBins s.altMin s.altMax) (shots.map FloorShot.altitude) k = posAt shots x.altitude ∧
        binRow s (shots.map FloorShot.altitude) values k = .ok (some x.altitude, some (E x.altitude)) := by
  unfold binRow
  dsimp only
  by_cases h10 : 10 ≤ (inBin (histBins s.altMin s.altMax) (shots.map FloorShot.altitude) k).length
  · right
    rw [if_pos h10]
    obtain ⟨x, hx, he⟩ := members_same s shots hst k hk (by rintro h; rw [h] at h10; simp at h10)
    refine ⟨x, hx, he, ?_⟩
    rw [he] at h10 ⊢
    have hn : 10 ≤ (shotsAt shots x.altitude).length := by rw [← posAt_length]; exact h10
    have hd : binDistance (valuesAt (shots.map FloorShot.altitude) (posAt shots x.altitude)) = .ok (some x.altitude) := by
      unfold binDistance
      rw [values_posAt, npMean_const _ x.altitude]
      · simp only
        rw [if_neg (by have := hlo x hx; linarith)]
      · intro h
        rw [List.map_eq_nil_iff] at h
        rw [h] at hn
        simp at hn
      · intro y hy
        obtain ⟨w, hw, rfl⟩ := List.mem_map.1 hy
        exact (shotsAt_alt shots _ w hw).2
    have hv := hsm x.altitude hn (if s.smoothing ≠ "mean" ∧ s.maxBin < (posAt shots x.altitude).length then s.pick (posAt shots x.altitude)
      else posAt shots x.altitude) (by
        by_cases hc : s.smoothing ≠ "mean" ∧ s.maxBin < (posAt shots x.altitude).length
        · rw [if_pos hc]; exact Or.inr ⟨hc.1, rfl⟩
        · rw [if_neg hc]; exact Or.inl rfl)
    rw [hd, hv]
    rfl
  · left
    rw [if_neg h10]

private theorem table_ok (hst : Stepped shots) (h0 : 0 ≤ s.altMin) (hlo : ∀ x ∈ shots, s.altMin < x.altitude) (values : List ℝ) (E : ℝ → ℝ)
    (hsm : SmoothsTo s shots values E) :
    ∃ rows, binTable s (shots.map FloorShot.altitude) values = .ok rows ∧
      (∀ r ∈ rows, r = (some 0, some 0) ∨ ∃ x ∈ shots, r = (some x.altitude, some (E x.altitude))) ∧
      ∀ h, 10 ≤ (shotsAt shots h).length → h + 1 / 20 < s.altMax → (some h, some (E h)) ∈ rows := by
  have hrow := bin_row s shots hst h0 hlo values E hsm
  obtain ⟨rows, h1, h2, h3⟩ := mapM_both (binRow s (shots.map FloorShot.altitude) values)
    (List.range ((histBins s.altMin s.altMax).length - 1)) (by
      intro k hk
      rw [List.mem_range, histBins_length] at hk
      rcases hrow k (by omega) with h | ⟨x, -, -, h⟩
      · exact ⟨_, h⟩
      · exact ⟨_, h⟩)
  refine ⟨rows, h1, ?_, ?_⟩
  · intro r hr
    obtain ⟨k, hk, he⟩ := h2 r hr
    rw [List.mem_range, histBins_length] at hk
    rcases hrow k (by omega) with h | ⟨x, hx, -, h⟩
    · rw [he] at h
      exact Or.inl (Except.ok.inj h)
    · rw [he] at h
      exact Or.inr ⟨x, hx, Except.ok.inj h⟩
  · intro h hn hmax
    obtain ⟨x, hx⟩ := List.exists_mem_of_ne_nil (shotsAt shots h) (by intro e; rw [e] at hn; simp at hn)
    obtain ⟨hxs, rfl⟩ := shotsAt_alt shots h x hx
    obtain ⟨k, hk, hin⟩ := bin_of_altitude s shots x (hlo x hxs) hmax
    have hne : inBin (histBins s.altMin s.altMax) (shots.map FloorShot.altitude) k ≠ [] := by
      obtain ⟨i, hi, e⟩ := List.mem_iff_getElem.1 hxs
      exact List.ne_nil_of_mem (hin i hi (by rw [List.getElem?_eq_getElem hi, e]; rfl))
    obtain ⟨y, hy, hm⟩ := members_same s shots hst k hk hne
    have hyx : y.altitude = x.altitude := by
      obtain ⟨i, hi, e⟩ := List.mem_iff_getElem.1 hxs
      have := hin i hi (by rw [List.getElem?_eq_getElem hi, e]; rfl)
      rw [hm] at this
      have := (List.mem_filter.1 this).2
      rw [decide_eq_true_eq, List.getElem?_eq_getElem hi, e, Option.map_some, Option.some.injEq] at this
      exact this.symm
    have hlen : 10 ≤ (inBin (histBins s.altMin s.altMax) (shots.map FloorShot.altitude) k).length := by
      rw [hm, posAt_length, hyx]; exact hn
    rcases hrow k hk with hz | ⟨w, hw, hmw, hr⟩
    · exfalso
      unfold binRow at hz
      dsimp only at hz
      rw [if_pos hlen, hm] at hz
      have hd : binDistance (valuesAt (shots.map FloorShot.altitude) (posAt shots y.altitude)) = .ok (some y.altitude) := by
        unfold binDistance
        rw [values_posAt, npMean_const _ y.altitude]
        · simp only
          rw [if_neg (by have := hlo y hy; linarith)]
        · intro h
          rw [List.map_eq_nil_iff, hyx] at h
          rw [h] at hn
          simp at hn
        · intro v hv
          obtain ⟨w, hw, rfl⟩ := List.mem_map.1 hv
          exact (shotsAt_alt shots _ w hw).2
      rw [hd] at hz
      simp only [bind, Except.bind] at hz
      split at hz
      · cases hz
      · have := congrArg Prod.fst (Except.ok.inj hz)
        have := Option.some.inj this
        have := hlo y hy
        linarith
    · have hwx : w.altitude = x.altitude := by
        obtain ⟨i, hi, e⟩ := List.mem_iff_getElem.1 hxs
        have := hin i hi (by rw [List.getElem?_eq_getElem hi, e]; rfl)
        rw [hmw] at this
        have := (List.mem_filter.1 this).2
        rw [decide_eq_true_eq, List.getElem?_eq_getElem hi, e, Option.map_some, Option.some.injEq] at this
        exact this.symm
      have := h3 k (by rw [List.mem_range, histBins_length]; omega) _ hr
      rw [hwx] at this
      exact this

/-! ## The parameters -/

private theorem mean_scaled (l : List ℝ) (g : ℝ) : mean (l.map (· * g)) = mean l * g := by
  unfold mean
  rw [List.sum_map_mul_right, List.length_map]
  simp only [List.map_id']
  ring

private theorem variance_scaled (l : List ℝ) (g : ℝ) : variance (l.map (· * g)) = variance l * g ^ 2 := by
  unfold variance
  rw [mean_scaled, List.length_map, List.map_map]
  have : ((fun x => (x - mean l * g) ^ 2) ∘ fun x => x * g) = fun x => (x - mean l) ^ 2 * g ^ 2 := by
    funext x
    simp only [Function.comp]
    ring
  rw [this, List.sum_map_mul_right]
  ring

private theorem light_pos (L : Lighting) (d : ℝ) (ch k : ℕ) : 0 < L.light d ch k := by
  have h := L.inBounds ch k
  have h1 : 0 < L.a ch k := lt_of_lt_of_le (by norm_num) h.1
  have h2 : 0 ≤ L.c ch k := h.2.2
  have := mul_pos h1 (Real.exp_pos (L.b ch k * d))
  unfold Lighting.light
  linarith

/-- What is found for a channel of a pixel. -/
private def Found (L : Lighting) (st : ChannelStats) (ch k : ℕ) : Prop :=
  InBounds st.a st.b st.c ∧ (∀ d, st.a * Real.exp (st.b * d) + st.c = L.light d ch k) ∧ st.gain = L.light (meanAltitude shots) ch k ∧
    st.meanCorrected = mean (reflectances shots ch k) * st.gain ∧
    st.stdCorrected = max (1 / 1000000) (deviation (reflectances shots ch k) * st.gain)

private theorem dive_length (hg : GoodDive s.altMin s.altMax shots) : 10 ≤ shots.length := by
  obtain ⟨x, y, z, -, -, -, nx, -, -⟩ := hg.three
  exact le_trans nx (List.length_filter_le _ _)

private theorem parse_of_smooth (L : Lighting) (ch k : ℕ) (hg : GoodDive s.altMin s.altMax shots) (hopt : FindsExact s.opt)
    (hsm : SmoothsTo s shots (intensities L shots ch k) fun h => L.light h ch k) :
    ∃ a b c, InBounds a b c ∧ (∀ d, a * Real.exp (b * d) + c = L.light d ch k) ∧ ∀ m sd,
      runnerMean (95 / 100) ((reflectances shots ch k).map (· * L.light (meanAltitude shots) ch k)) = some m →
      runnerStd Real.sqrt (95 / 100) ((reflectances shots ch k).map (· * L.light (meanAltitude shots) ch k)) = some sd →
      parsePixel s (shots.map FloorShot.altitude) (intensities L shots ch k) = .ok (some ⟨a, b, c, L.light (meanAltitude shots) ch k, m, sd, 0, 0⟩) := by
  obtain ⟨rows, hr, hall, hin⟩ := table_ok s shots hg.stepped hg.positive hg.above _ _ hsm
  obtain ⟨x, y, z, hxy, hyz, hz, nx, ny, nz⟩ := hg.three
  have hsome : ∀ r ∈ rows, ∃ d v, r = (some d, some v) := by
    intro r h
    rcases hall r h with rfl | ⟨x, -, rfl⟩
    · exact ⟨_, _, rfl⟩
    · exact ⟨_, _, rfl⟩
  have hp := finite_pairs rows hsome
  have hon : ∀ p ∈ fitPairs (rows.map Prod.fst) (rows.map Prod.snd), p.2 = L.a ch k * Real.exp (L.b ch k * p.1) + L.c ch k := by
    intro p h
    obtain ⟨h1, h2, -⟩ := (hp p).1 h
    rcases hall _ h1 with e | ⟨w, -, e⟩
    · have := Option.some.inj (Prod.ext_iff.1 e).1
      linarith
    · have e1 := Option.some.inj (Prod.ext_iff.1 e).1
      have e2 := Option.some.inj (Prod.ext_iff.1 e).2
      rw [e2, e1]
      rfl
  have hmem : ∀ h, 10 ≤ (shotsAt shots h).length → h + 1 / 20 < s.altMax →
      (h, L.a ch k * Real.exp (L.b ch k * h) + L.c ch k) ∈ fitPairs (rows.map Prod.fst) (rows.map Prod.snd) := by
    intro h hn hm
    refine (hp _).2 ⟨hin h hn hm, ?_, light_pos L h ch k⟩
    obtain ⟨w, hw⟩ := List.exists_mem_of_ne_nil (shotsAt shots h) (by intro e; rw [e] at hn; simp at hn)
    obtain ⟨hws, rfl⟩ := shotsAt_alt shots h w hw
    exact lt_of_le_of_lt hg.positive (hg.above w hws)
  obtain ⟨a, b, c, hfit, hB, hcurve⟩ := fit_curve s.opt hopt _ _ _ (L.inBounds ch k) _ _ hon x y z hxy hyz
    (hmem x nx (by linarith)) (hmem y ny (by linarith)) (hmem z nz hz)
  have hlen : 10 ≤ shots.length := le_trans nx (List.length_filter_le _ _)
  have hgain : correctionGain ((shots.map FloorShot.altitude).sum / ((shots.map FloorShot.altitude).length : ℝ)) a b c = L.light (meanAltitude shots) ch k :=
    hcurve _
  have hcorr : List.zipWith (fun v d => attenuationCorrect v d a b c (L.light (meanAltitude shots) ch k)) (intensities L shots ch k)
      (shots.map FloorShot.altitude) = (reflectances shots ch k).map (· * L.light (meanAltitude shots) ch k) := by
    unfold intensities reflectances
    rw [List.zipWith_map, List.zipWith_self, List.map_map]
    apply List.map_congr_left
    intro w _
    have := C50_altitude_free a b c (L.light (meanAltitude shots) ch k) (w.floor ch k) hB w.altitude
    unfold expCurve at this
    rw [hcurve] at this
    exact this
  refine ⟨a, b, c, hB, hcurve, fun m sd hm hs => ?_⟩
  unfold parsePixel
  rw [if_neg (by rw [List.length_map]; omega), hr]
  simp only [bind, Except.bind]
  rw [hfit]
  simp only
  rw [hgain, hcorr, hm, hs]

private theorem found_of_smooth (L : Lighting) (ch k : ℕ) (hg : GoodDive s.altMin s.altMax shots) (hopt : FindsExact s.opt)
    (hb : NotBright L shots ch k) (hsm : SmoothsTo s shots (intensities L shots ch k) fun h => L.light h ch k) :
    ∃ st, parsePixel s (shots.map FloorShot.altitude) (intensities L shots ch k) = .ok (some st) ∧ Found shots L st ch k := by
  obtain ⟨a, b, c, hB, hcurve, hparse⟩ := parse_of_smooth s shots L ch k hg hopt hsm
  have hlen := dive_length s shots hg
  have hle : ∀ v ∈ (reflectances shots ch k).map (· * L.light (meanAltitude shots) ch k), v ≤ 95 / 100 := by
    intro v hv
    obtain ⟨r, hr, rfl⟩ := List.mem_map.1 hv
    obtain ⟨w, hw, rfl⟩ := List.mem_map.1 hr
    exact hb w hw
  obtain ⟨hm, hs⟩ := C45_runner (95 / 100 : ℝ) _ hle
  have h2 : 2 ≤ ((reflectances shots ch k).map (· * L.light (meanAltitude shots) ch k)).length := by
    rw [List.length_map, reflectances, List.length_map]
    omega
  rw [if_pos h2, mean_scaled] at hm
  have hs' := hs Real.sqrt
  rw [if_pos h2, variance_scaled, Real.sqrt_mul' _ (sq_nonneg _), Real.sqrt_sq (light_pos L _ ch k).le] at hs'
  exact ⟨_, hparse _ _ hm hs', hB, hcurve, rfl, rfl, rfl⟩

private theorem mean_light (L : Lighting) (h : ℝ) (ch k : ℕ) :
    (shotsAt shots h).map (fun x => x.floor ch k * L.light x.altitude ch k) =
      ((shotsAt shots h).map fun x => x.floor ch k).map (· * L.light h ch k) := by
  rw [List.map_map]
  apply List.map_congr_left
  intro x hx
  rw [(shotsAt_alt shots h x hx).2]
  rfl

private theorem smooth_mean (L : Lighting) (ch k : ℕ) (hsm : s.smoothing = "mean") (ht : TypicalFloor shots ch k) :
    SmoothsTo s shots (intensities L shots ch k) fun h => L.light h ch k := by
  intro h hn idx hidx
  have hi : idx = posAt shots h := by
    rcases hidx with h | ⟨h, -⟩
    · exact h
    · exact absurd hsm h
  have hne : valuesAt (intensities L shots ch k) (posAt shots h) ≠ [] := by
    unfold intensities
    rw [values_posAt]
    intro e
    rw [List.map_eq_nil_iff] at e
    rw [e] at hn
    simp at hn
  unfold smoothBin
  rw [if_pos hsm, hi, (C45_running _).1 hne]
  unfold intensities
  rw [values_posAt, mean_light, mean_scaled, ht h hn, one_mul]
  rfl

/-- C226: with averages of the bins, the curve that is found for a channel of a pixel is the light there, the gain is the light at the mean altitude,
and mean and deviation are those of the floor in this light. -/
theorem C226_parameters_partial (L : Lighting) (ch k : ℕ) (hg : GoodDive s.altMin s.altMax shots) (hopt : FindsExact s.opt)
    (hsm : s.smoothing = "mean") (ht : TypicalFloor shots ch k) (hb : NotBright L shots ch k) :
    ∃ st, parsePixel s (shots.map FloorShot.altitude) (intensities L shots ch k) = .ok (some st) ∧
      (∀ d, st.a * Real.exp (st.b * d) + st.c = L.light d ch k) ∧ st.gain = L.light (meanAltitude shots) ch k ∧
      st.meanCorrected = mean (reflectances shots ch k) * L.light (meanAltitude shots) ch k ∧
      st.stdCorrected = max (1 / 1000000) (deviation (reflectances shots ch k) * L.light (meanAltitude shots) ch k) := by
  obtain ⟨st, h1, -, h2, h3, h4, h5⟩ := found_of_smooth s shots L ch k hg hopt hb (smooth_mean s shots L ch k hsm ht)
  rw [h3] at h4 h5
  exact ⟨st, h1, h2, h3, h4, h5⟩

/-! ## The corrected images -/

private theorem mapAt_mapAt {A B C : Type} (f : ℕ → ℕ → A → B) (g : ℕ → ℕ → B → C) (im : Img A) :
    (im.mapAt f).mapAt g = im.mapAt fun ch k v => g ch k (f ch k v) := by
  cases im with
  | grey px => simp [Img.mapAt, List.mapIdx_mapIdx, Function.comp_def]
  | colour px => simp [Img.mapAt, List.mapIdx_mapIdx, Function.comp_def]

private theorem clip_unit (x : ℝ) : clip x 0 1 = max 0 (min 1 x) := by
  unfold clip
  rcases le_total x 0 with h | h
  · rw [max_eq_right h, min_eq_left (by norm_num), min_eq_right (by linarith), max_eq_left h]
  · rw [max_eq_left h, min_comm, max_eq_right (le_min (by norm_num) h)]

private theorem normalise_found (L : Lighting) (cs : CorrSetup) (hF : ∀ ch k, Found shots L (cs.stats ch k) ch k) (d : ℝ) (floor : Img ℝ) :
    normaliseImage cs (some fun _ => d) (L.photograph d floor) = floor.mapAt fun ch k r =>
      clip ((r * L.light (meanAltitude shots) ch k - mean (reflectances shots ch k) * L.light (meanAltitude shots) ch k) /
        max (1 / 1000000) (deviation (reflectances shots ch k) * L.light (meanAltitude shots) ch k) * (cs.contrast / 100) + cs.brightness / 100) 0 1 := by
  unfold normaliseImage Lighting.photograph
  simp only
  rw [mapAt_mapAt, mapAt_mapAt]
  congr 1
  funext ch k r
  obtain ⟨hB, h2, h3, h4, h5⟩ := hF ch k
  have := C50_altitude_free (cs.stats ch k).a (cs.stats ch k).b (cs.stats ch k).c (cs.stats ch k).gain r hB d
  unfold expCurve at this
  rw [h2] at this
  rw [this]
  unfold pixelStat
  rw [h4, h5, h3]

private theorem developed_of_found (L : Lighting) (cs : CorrSetup) (hF : ∀ ch k, Found shots L (cs.stats ch k) ch k)
    (hsd : ∀ ch k, 1 / 1000000 ≤ deviation (reflectances shots ch k) * L.light (meanAltitude shots) ch k) (d : ℝ) (floor : Img ℝ) :
    normaliseImage cs (some fun _ => d) (L.photograph d floor) = developed (fun ch k => mean (reflectances shots ch k))
      (fun ch k => deviation (reflectances shots ch k)) cs.brightness cs.contrast floor := by
  rw [normalise_found shots L cs hF]
  unfold developed
  congr 1
  funext ch k r
  rw [clip_unit, max_eq_right (hsd ch k), ← sub_mul, mul_div_mul_right _ _ (light_pos L _ ch k).ne']

/-- C226: an image corrected with the parameters of a dive shows the floor with the brightness and contrast asked for; altitude, lamps, water and
vignetting have left no trace. -/
theorem C226_corrected_partial (L : Lighting) (hg : GoodDive s.altMin s.altMax shots) (hopt : FindsExact s.opt) (hsm : s.smoothing = "mean")
    (ht : ∀ ch k, TypicalFloor shots ch k) (hb : ∀ ch k, NotBright L shots ch k)
    (hsd : ∀ ch k, 1 / 1000000 ≤ deviation (reflectances shots ch k) * L.light (meanAltitude shots) ch k) (cs : CorrSetup)
    (hcs : ∀ ch k, parsePixel s (shots.map FloorShot.altitude) (intensities L shots ch k) = .ok (some (cs.stats ch k))) (d : ℝ) (floor : Img ℝ) :
    normaliseImage cs (some fun _ => d) (L.photograph d floor) = developed (fun ch k => mean (reflectances shots ch k))
      (fun ch k => deviation (reflectances shots ch k)) cs.brightness cs.contrast floor := by
  refine developed_of_found shots L cs (fun ch k => ?_) hsd d floor
  obtain ⟨st, h1, h2⟩ := found_of_smooth s shots L ch k hg hopt (hb ch k) (smooth_mean s shots L ch k hsm (ht ch k))
  rw [hcs] at h1
  rw [Option.some.inj (Except.ok.inj h1)]
  exact h2

private theorem distance_altitude (cs : CorrSetup) (hm : cs.metric = "altitude") (i : ℕ) (d : ℝ) (hi : cs.altitudes[i]? = some d) :
    distanceOf cs i = .ok (some fun _ => d) := by
  have hlt : i < cs.altitudes.length := by
    by_contra h
    rw [List.getElem?_eq_none (by omega)] at hi
    cases hi
  unfold distanceOf
  rw [if_neg (by rw [hm]; decide), if_pos hm, if_neg (by omega)]
  have : pyGet cs.altitudes (i : ℤ) = .ok d := by
    unfold pyGet
    have h0 : ¬ ((i : ℤ) < 0) := by omega
    simp only [if_neg h0, Int.toNat_natCast, hi]
  rw [this]
  rfl

/-- C226: the same floor photographed by two vehicles, each corrected with the parameters of its own dive, gives the same image files. The floors seen
in the two dives need to agree in mean and deviation only. -/
theorem C226_same_floor_partial (s' : ColourParse) (shots' : List FloorShot) (L L' : Lighting) (hg : GoodDive s.altMin s.altMax shots)
    (hg' : GoodDive s'.altMin s'.altMax shots') (hopt : FindsExact s.opt) (hopt' : FindsExact s'.opt) (hsm : s.smoothing = "mean")
    (hsm' : s'.smoothing = "mean") (ht : ∀ ch k, TypicalFloor shots ch k) (ht' : ∀ ch k, TypicalFloor shots' ch k)
    (hb : ∀ ch k, NotBright L shots ch k) (hb' : ∀ ch k, NotBright L' shots' ch k)
    (hsd : ∀ ch k, 1 / 1000000 ≤ deviation (reflectances shots ch k) * L.light (meanAltitude shots) ch k)
    (hsd' : ∀ ch k, 1 / 1000000 ≤ deviation (reflectances shots' ch k) * L'.light (meanAltitude shots') ch k)
    (hmean : ∀ ch k, mean (reflectances shots ch k) = mean (reflectances shots' ch k))
    (hdev : ∀ ch k, deviation (reflectances shots ch k) = deviation (reflectances shots' ch k)) (cs cs' : CorrSetup)
    (hcs : ∀ ch k, parsePixel s (shots.map FloorShot.altitude) (intensities L shots ch k) = .ok (some (cs.stats ch k)))
    (hcs' : ∀ ch k, parsePixel s' (shots'.map FloorShot.altitude) (intensities L' shots' ch k) = .ok (some (cs'.stats ch k)))
    (hme : cs.method = "colour_correction") (hme' : cs'.method = "colour_correction") (hmt : cs.metric = "altitude")
    (hmt' : cs'.metric = "altitude") (hty : cs.type = cs'.type) (hcv : cs.cv = cs'.cv) (hbr : cs.brightness = cs'.brightness)
    (hco : cs.contrast = cs'.contrast) (i i' : ℕ) (d d' : ℝ) (hi : cs.altitudes[i]? = some d) (hi' : cs'.altitudes[i']? = some d')
    (remap : Option (Img ℝ → Img ℝ)) (floor : Img ℝ) :
    processImage cs remap i (L.photograph d floor) = processImage cs' remap i' (L'.photograph d' floor) := by
  have e := C226_corrected_partial s shots L hg hopt hsm ht hb hsd cs hcs d floor
  have e' := C226_corrected_partial s' shots' L' hg' hopt' hsm' ht' hb' hsd' cs' hcs' d' floor
  have hc : ∀ im, colourChannels cs im = colourChannels cs' im := by
    intro im
    unfold colourChannels debayerImg
    rw [hty, hcv]
  unfold processImage
  simp only
  rw [if_pos hme, if_pos hme', distance_altitude cs hmt i d hi, distance_altitude cs' hmt' i' d' hi']
  simp only [bind, Except.bind]
  rw [e, e', hc, hbr, hco]
  simp only [hmean, hdev]

/-! ## The other ways to average -/

private theorem valuesAt_const (l : List ℝ) (idx : List ℕ) (h : ℝ) (hi : ∀ i ∈ idx, l[i]? = some h) :
    valuesAt l idx = List.replicate idx.length h := by
  unfold valuesAt
  induction idx with
  | nil => rfl
  | cons i idx ih =>
    rw [List.filterMap_cons, hi i (by simp), ih fun j hj => hi j (by simp [hj])]
    rfl

private theorem median_const (n : ℕ) (h : ℝ) (hn : n ≠ 0) : npMedian (List.replicate n h) = some h := by
  have hsort : npSort (List.replicate n h) = List.replicate n h :=
    List.eq_replicate_iff.2 ⟨by unfold npSort; rw [List.length_mergeSort, List.length_replicate], fun x hx => by
      unfold npSort at hx
      rw [List.mem_mergeSort] at hx
      exact List.eq_of_mem_replicate hx⟩
  unfold npMedian
  simp only
  rw [hsort, List.length_replicate]
  by_cases hodd : n % 2 = 1
  · rw [if_pos hodd, List.getElem?_replicate, if_pos (by omega)]
  · rw [if_neg hodd, List.getElem?_replicate, List.getElem?_replicate, if_pos (by omega), if_pos (by omega)]
    simp only
    rw [if_neg hn]
    congr 1
    ring

private theorem ransac_const (n : ℕ) (h : ℝ) (hn : n ≠ 0) (uninit : List ℝ) (samples : List (List ℝ)) (hne : samples ≠ [])
    (hs : ∀ d ∈ samples, d ≠ [] ∧ ∀ v ∈ d, v ∈ List.replicate n h) :
    ransacMean (List.replicate n h) (1 / 10) uninit samples = some h := by
  have hstep : ∀ best d, d ∈ samples → (best = (none, uninit) ∨ best = (some 0, List.replicate n h)) →
      ransacStep (List.replicate n h) (1 / 10) best d = (some 0, List.replicate n h) := by
    intro best d hd hbest
    obtain ⟨h0, hv⟩ := hs d hd
    have hm : d.sum / (d.length : ℝ) = h := by
      have := npMean_const d h h0 fun x hx => List.eq_of_mem_replicate (hv x hx)
      unfold npMean at this
      rw [if_neg (fun e => h0 (List.length_eq_zero_iff.1 e))] at this
      exact Option.some.inj this
    have hinl : ransacInliers (List.replicate n h) (1 / 10) h = List.replicate n h := by
      unfold ransacInliers
      rw [List.filter_eq_self]
      intro v hv
      rw [List.eq_of_mem_replicate hv]
      norm_num
    have herr : ransacError (List.replicate n h) h = 0 := by
      unfold ransacError
      simp
    unfold ransacStep
    simp only
    rw [hm, hinl, herr]
    rcases hbest with rfl | rfl
    · rfl
    · simp
  have hfold : ∀ (l : List (List ℝ)) (best : Option ℝ × List ℝ), (∀ d ∈ l, d ∈ samples) →
      (best = (none, uninit) ∨ best = (some 0, List.replicate n h)) → (l ≠ [] ∨ best = (some 0, List.replicate n h)) →
      l.foldl (ransacStep (List.replicate n h) (1 / 10)) best = (some 0, List.replicate n h) := by
    intro l
    induction l with
    | nil => intro best _ _ hb; exact hb.resolve_left fun h => h rfl
    | cons d l ih =>
      intro best hd hb _
      rw [List.foldl_cons, hstep best d (hd d (by simp)) hb]
      exact ih _ (fun x hx => hd x (by simp [hx])) (Or.inr rfl) (Or.inr rfl)
  unfold ransacMean
  rw [hfold samples _ (fun _ h => h) (Or.inl rfl) (Or.inl hne)]
  exact npMean_const _ h (by simpa using hn) fun x hx => List.eq_of_mem_replicate hx

private theorem posAt_value (L : Lighting) (ch k : ℕ) (hf : FlatFloor shots ch k) (h : ℝ) :
    ∀ i ∈ posAt shots h, (intensities L shots ch k)[i]? = some (L.light h ch k) := by
  intro i hi
  unfold posAt at hi
  rw [List.mem_filter, List.mem_range, decide_eq_true_eq] at hi
  obtain ⟨h1, h2⟩ := hi
  rw [List.getElem?_eq_getElem h1, Option.map_some, Option.some.injEq] at h2
  unfold intensities
  rw [List.getElem?_map, List.getElem?_eq_getElem h1, Option.map_some, hf _ (List.getElem_mem h1), one_mul, h2]

private theorem smooth_flat (L : Lighting) (ch k : ℕ) (hsm : s.smoothing = "mean" ∨ s.smoothing = "median" ∨ s.smoothing = "ransac_mean")
    (hpick : Chooses s.pick) (hdraw : Samples s.draws) (hf : FlatFloor shots ch k) :
    SmoothsTo s shots (intensities L shots ch k) fun h => L.light h ch k := by
  intro h hn idx hidx
  have hpos : posAt shots h ≠ [] := by
    intro e
    have := posAt_length shots h
    rw [e, List.length_nil] at this
    omega
  have hi : idx ≠ [] ∧ ∀ i ∈ idx, i ∈ posAt shots h := by
    rcases hidx with rfl | ⟨-, rfl⟩
    · exact ⟨hpos, fun _ h => h⟩
    · exact hpick _ hpos
  have hlen : idx.length ≠ 0 := fun e => hi.1 (List.length_eq_zero_iff.1 e)
  rw [valuesAt_const _ idx (L.light h ch k) fun i h' => posAt_value shots L ch k hf h i (hi.2 i h')]
  dsimp only
  generalize L.light h ch k = v
  unfold smoothBin
  rcases hsm with hs | hs | hs
  · rw [if_pos hs, (C45_running _).1 (by simpa using hlen)]
    have := npMean_const (List.replicate idx.length v) v (by simpa using hlen) fun x hx => List.eq_of_mem_replicate hx
    unfold npMean at this
    rw [if_neg (by simpa using hlen)] at this
    simp only [bind, Except.bind, mean]
    rw [this]
  · rw [if_neg (by rw [hs]; decide), if_neg (by rw [hs]; decide), if_pos hs, median_const _ _ hlen]
  · rw [if_neg (by rw [hs]; decide), if_neg (by rw [hs]; decide), if_neg (by rw [hs]; decide), if_pos hs,
      ransac_const _ _ hlen _ _ (hdraw _ (by simpa using hlen)).1 (hdraw _ (by simpa using hlen)).2]

/-- C226: a dive over a floor that is the same everywhere, with any way to average that works: the images of such a floor come out evenly bright, with
the brightness asked for, from any altitude. -/
theorem C226_uniform_partial (L : Lighting) (hg : GoodDive s.altMin s.altMax shots) (hopt : FindsExact s.opt)
    (hsm : s.smoothing = "mean" ∨ s.smoothing = "median" ∨ s.smoothing = "ransac_mean") (hpick : Chooses s.pick) (hdraw : Samples s.draws)
    (hf : ∀ ch k, FlatFloor shots ch k) (hb : ∀ ch k, NotBright L shots ch k) (cs : CorrSetup)
    (hcs : ∀ ch k, parsePixel s (shots.map FloorShot.altitude) (intensities L shots ch k) = .ok (some (cs.stats ch k))) (d : ℝ) (floor : Img ℝ)
    (hfl : floor.mapAt (fun _ _ _ => (1 : ℝ)) = floor) :
    normaliseImage cs (some fun _ => d) (L.photograph d floor) = floor.mapAt fun _ _ _ => max 0 (min 1 (cs.brightness / 100)) := by
  have hF : ∀ ch k, Found shots L (cs.stats ch k) ch k := by
    intro ch k
    obtain ⟨st, h1, h2⟩ := found_of_smooth s shots L ch k hg hopt (hb ch k) (smooth_flat s shots L ch k hsm hpick hdraw (hf ch k))
    rw [hcs] at h1
    rw [Option.some.inj (Except.ok.inj h1)]
    exact h2
  rw [normalise_found shots L cs hF, ← hfl, mapAt_mapAt, mapAt_mapAt]
  congr 1
  funext ch k r
  have hm : mean (reflectances shots ch k) = 1 := by
    have hne : reflectances shots ch k ≠ [] := by
      have := dive_length s shots hg
      unfold reflectances
      intro e
      rw [List.map_eq_nil_iff] at e
      rw [e] at this
      simp at this
    have := npMean_const (reflectances shots ch k) 1 hne (by
      intro x hx
      obtain ⟨w, hw, rfl⟩ := List.mem_map.1 hx
      exact hf ch k w hw)
    unfold npMean at this
    rw [if_neg (fun e => hne (List.length_eq_zero_iff.1 e))] at this
    exact Option.some.inj this
  rw [hm, sub_self, zero_div, zero_mul, zero_add, clip_unit]

private theorem trimmed_fit (alts values : List ℝ) (rows : List (Option ℝ × Option ℝ)) (hsm : s.smoothing = "mean_trimmed")
    (hr : binTable s alts values = .ok rows) : curveFit s.opt (rows.map Prod.fst) (rows.map Prod.snd) = .real 1 0 0 := by
  have hrow : ∀ r ∈ rows, r.2 = none ∨ r.2 = some 0 := by
    intro r hmem
    obtain ⟨k, -, hk⟩ := mapM_source _ _ _ hr r hmem
    unfold binRow at hk
    dsimp only at hk
    by_cases h10 : 10 ≤ (inBin (histBins s.altMin s.altMax) alts k).length
    · rw [if_pos h10] at hk
      cases hd : binDistance (valuesAt alts (inBin (histBins s.altMin s.altMax) alts k)) with
      | error e => rw [hd] at hk; cases hk
      | ok d =>
        rw [hd] at hk
        simp only [bind, Except.bind] at hk
        revert hk
        generalize valuesAt values _ = vs
        intro hk
        unfold smoothBin at hk
        rw [if_neg (by rw [hsm]; decide), if_pos hsm] at hk
        by_cases h4 : s.axes = 4
        · rw [h4, C47_image_false _ _ (by norm_num) (by norm_num)] at hk
          left
          rw [← Except.ok.inj hk]
        · unfold imageTrimmed at hk
          rw [if_neg h4] at hk
          cases hk
    · rw [if_neg h10] at hk
      right
      rw [← Except.ok.inj hk]
  have hfit : fitPairs (rows.map Prod.fst) (rows.map Prod.snd) = [] := by
    rw [List.eq_nil_iff_forall_not_mem]
    intro p hp
    unfold fitPairs positivePairs at hp
    rw [List.mem_filter, decide_eq_true_eq] at hp
    have hz := (List.of_mem_zip hp.1).2
    unfold finiteOnly at hz
    rw [List.mem_filterMap] at hz
    obtain ⟨o, ho, he⟩ := hz
    obtain ⟨r, hr', rfl⟩ := List.mem_map.1 ho
    simp only [id_eq] at he
    rcases hrow r hr' with e | e
    · rw [e] at he; cases he
    · rw [e] at he
      have := Option.some.inj he
      have := hp.2.2
      linarith
  unfold curveFit
  rw [hfit]

/-- C226: with trimmed averages nothing is corrected: whatever the images show, the parameters of every pixel are 1, 0 and 0. -/
theorem C226_trimmed_false (alts values : List ℝ) (st : ChannelStats) (hsm : s.smoothing = "mean_trimmed")
    (h : parsePixel s alts values = .ok (some st)) : st.a = 1 ∧ st.b = 0 ∧ st.c = 0 ∧ st.gain = 1 := by
  unfold parsePixel at h
  by_cases h3 : alts.length < 3
  · rw [if_pos h3] at h; cases h
  rw [if_neg h3] at h
  cases hr : binTable s alts values with
  | error e => rw [hr] at h; cases h
  | ok rows =>
    rw [hr] at h
    simp only [bind, Except.bind] at h
    have hcf := trimmed_fit s alts values rows hsm hr
    rw [hcf] at h
    simp only at h
    split at h
    · have e := Option.some.inj (Except.ok.inj h)
      rw [← e]
      simp [correctionGain]
    · cases h

private theorem runner_bright (l : List ℝ) (hl : ∀ v ∈ l, 95 / 100 < v) (h2 : 2 ≤ l.length) :
    runnerMean (95 / 100) l = some 0 ∧ runnerStd Real.sqrt (95 / 100) l = some (1 / 1000000) := by
  have hst : ∀ (l : List ℝ) (n : ℕ), (∀ v ∈ l, 95 / 100 < v) →
      l.foldl (Welford.stepSkip fun v => decide (v > 95 / 100)) (⟨n, 0, 0⟩ : Welford ℝ) = ⟨n + l.length, 0, 0⟩ := by
    intro l
    induction l with
    | nil => intro n _; rfl
    | cons v l ih =>
      intro n h
      have hv := h v (by simp)
      rw [List.foldl_cons]
      have : Welford.stepSkip (fun v => decide (v > 95 / 100)) (⟨n, 0, 0⟩ : Welford ℝ) v = ⟨n + 1, 0, 0⟩ := by
        unfold Welford.stepSkip Welford.step
        simp [hv]
      rw [this, ih (n + 1) fun w hw => h w (by simp [hw]), List.length_cons]
      congr 1
      omega
  have hs : runnerState (95 / 100) l = ⟨l.length, 0, 0⟩ := by
    have := hst l 0 hl
    rw [Nat.zero_add] at this
    exact this
  unfold runnerMean runnerStd
  simp only [hs]
  constructor
  · rw [if_pos (by omega)]
  · rw [if_pos (by omega), zero_div, Real.sqrt_zero, if_pos (by norm_num)]

/-- C226: in a dive with much light the corrected images are white: where the light at the mean altitude is above 0.95, all values are taken for overexposed
and the mean is 0. -/
theorem C226_bright_false (L : Lighting) (hg : GoodDive s.altMin s.altMax shots) (hopt : FindsExact s.opt) (hsm : s.smoothing = "mean")
    (hf : ∀ ch k, FlatFloor shots ch k) (hb : ∀ ch k, 95 / 100 < L.light (meanAltitude shots) ch k) (cs : CorrSetup)
    (hcs : ∀ ch k, parsePixel s (shots.map FloorShot.altitude) (intensities L shots ch k) = .ok (some (cs.stats ch k))) (hco : 1 ≤ cs.contrast)
    (hbr : 0 ≤ cs.brightness) (d : ℝ) (floor : Img ℝ) (hfl : floor.mapAt (fun _ _ _ => (1 : ℝ)) = floor) :
    normaliseImage cs (some fun _ => d) (L.photograph d floor) = floor := by
  have hF : ∀ ch k, InBounds (cs.stats ch k).a (cs.stats ch k).b (cs.stats ch k).c ∧
      (∀ d, (cs.stats ch k).a * Real.exp ((cs.stats ch k).b * d) + (cs.stats ch k).c = L.light d ch k) ∧
      (cs.stats ch k).gain = L.light (meanAltitude shots) ch k ∧ (cs.stats ch k).meanCorrected = 0 ∧
      (cs.stats ch k).stdCorrected = 1 / 1000000 := by
    intro ch k
    have ht : TypicalFloor shots ch k := by
      intro h hn
      have := npMean_const ((shotsAt shots h).map fun x => x.floor ch k) 1 (by
        intro e
        rw [List.map_eq_nil_iff] at e
        rw [e] at hn
        simp at hn) (by
        intro x hx
        obtain ⟨w, hw, rfl⟩ := List.mem_map.1 hx
        exact hf ch k w (shotsAt_alt shots h w hw).1)
      unfold npMean at this
      rw [if_neg (by rw [List.length_map]; omega)] at this
      exact Option.some.inj this
    obtain ⟨a, b, c, hB, hcurve, hparse⟩ := parse_of_smooth s shots L ch k hg hopt (smooth_mean s shots L ch k hsm ht)
    obtain ⟨h1, h2⟩ := runner_bright ((reflectances shots ch k).map (· * L.light (meanAltitude shots) ch k)) (by
      intro v hv
      obtain ⟨r, hr, rfl⟩ := List.mem_map.1 hv
      obtain ⟨w, hw, rfl⟩ := List.mem_map.1 hr
      rw [hf ch k w hw, one_mul]
      exact hb ch k) (by
      have := dive_length s shots hg
      rw [List.length_map, reflectances, List.length_map]
      omega)
    have h3 := hparse _ _ h1 h2
    rw [hcs] at h3
    rw [Option.some.inj (Except.ok.inj h3)]
    exact ⟨hB, hcurve, rfl, rfl, rfl⟩
  unfold normaliseImage Lighting.photograph
  simp only
  conv_rhs => rw [← hfl]
  rw [← hfl, mapAt_mapAt, mapAt_mapAt, mapAt_mapAt, mapAt_mapAt]
  congr 1
  funext ch k r
  obtain ⟨hB, h2, h3, h4, h5⟩ := hF ch k
  have := C50_altitude_free (cs.stats ch k).a (cs.stats ch k).b (cs.stats ch k).c (cs.stats ch k).gain 1 hB d
  unfold expCurve at this
  rw [h2] at this
  rw [this]
  unfold pixelStat
  rw [h4, h5, h3, clip_unit]
  have := hb ch k
  rw [min_eq_left, max_eq_right (by norm_num)]
  have h6 : (1 : ℝ) ≤ (1 * L.light (meanAltitude shots) ch k - 0) / (1 / 1000000) * (cs.contrast / 100) := by
    have : (100 : ℝ) ≤ (1 * L.light (meanAltitude shots) ch k - 0) / (1 / 1000000) := by
      rw [le_div_iff₀ (by norm_num)]
      linarith
    nlinarith
  have : 0 ≤ cs.brightness / 100 := by positivity
  linarith

/-! ## A dive -/

/-- A dive: ten photographs at each of three altitudes, of dark and bright ground. -/
private noncomputable def exampleDive : List FloorShot :=
  List.replicate 5 ⟨2, fun _ _ => 1 / 2⟩ ++ List.replicate 5 ⟨2, fun _ _ => 3 / 2⟩ ++ (List.replicate 5 ⟨3, fun _ _ => 1 / 2⟩ ++
    List.replicate 5 ⟨3, fun _ _ => 3 / 2⟩) ++ (List.replicate 5 ⟨4, fun _ _ => 1 / 2⟩ ++ List.replicate 5 ⟨4, fun _ _ => 3 / 2⟩)

/-- A dive over even ground. -/
private noncomputable def exampleFlat : List FloorShot :=
  List.replicate 10 ⟨2, fun _ _ => 1⟩ ++ List.replicate 10 ⟨3, fun _ _ => 1⟩ ++ List.replicate 10 ⟨4, fun _ _ => 1⟩

/-- Light that fades, less in the first channel, and is brightest at the first pixel. -/
private noncomputable def exampleLight : Lighting :=
  ⟨fun _ k => if k = 0 then 1 / 2 else 1 / 4, fun ch _ => -(ch + 1), fun _ _ => 1 / 100, fun ch k => by
    refine ⟨?_, ?_, ?_⟩
    · split_ifs <;> norm_num
    · have : (0 : ℝ) ≤ ch := Nat.cast_nonneg ch
      linarith
    · norm_num⟩

open Classical in
private noncomputable def exampleOpt : ℝ × ℝ × ℝ → List (ℝ × ℝ) → ℝ → Option (ℝ × ℝ × ℝ) := fun _ ps ub =>
  if h : ∃ q : ℝ × ℝ × ℝ, InBounds q.1 q.2.1 q.2.2 ∧ q.2.2 ≤ ub ∧ ∀ p ∈ ps, p.2 = q.1 * Real.exp (q.2.1 * p.1) + q.2.2 then some h.choose else none

private theorem exampleOpt_exact : FindsExact exampleOpt := by
  rintro start ps ub ⟨a, b, c, h1, h2, h3⟩
  have h : ∃ q : ℝ × ℝ × ℝ, InBounds q.1 q.2.1 q.2.2 ∧ q.2.2 ≤ ub ∧ ∀ p ∈ ps, p.2 = q.1 * Real.exp (q.2.1 * p.1) + q.2.2 := ⟨(a, b, c), h1, h2, h3⟩
  refine ⟨h.choose.1, h.choose.2.1, h.choose.2.2, ?_, h.choose_spec.1, h.choose_spec.2.2⟩
  unfold exampleOpt
  rw [dif_pos h]

private theorem dive_good : GoodDive 1 10 exampleDive := by
  have hat : ∀ x ∈ exampleDive, x.altitude = 2 ∨ x.altitude = 3 ∨ x.altitude = 4 := by
    intro x hx
    unfold exampleDive at hx
    simp only [List.mem_append, List.mem_replicate] at hx
    rcases hx with ((⟨-, rfl⟩ | ⟨-, rfl⟩) | (⟨-, rfl⟩ | ⟨-, rfl⟩)) | (⟨-, rfl⟩ | ⟨-, rfl⟩) <;> simp
  refine ⟨by norm_num, ?_, ?_, 2, 3, 4, by norm_num, by norm_num, by norm_num, ?_, ?_, ?_⟩
  · intro x hx
    rcases hat x hx with h | h | h <;> rw [h] <;> norm_num
  · intro x hx y hy hxy
    rw [abs_lt] at hxy
    rcases hat x hx with h | h | h <;> rcases hat y hy with h' | h' | h' <;> rw [h, h'] at hxy ⊢ <;> exfalso <;> linarith [hxy.1, hxy.2]
  all_goals
    unfold shotsAt exampleDive
    simp only [List.filter_append, List.filter_replicate, List.length_append, decide_eq_true_eq]
    norm_num

private theorem dive_typical (ch k : ℕ) : TypicalFloor exampleDive ch k := by
  intro h hn
  unfold shotsAt exampleDive at *
  simp only [List.filter_append, List.filter_replicate, decide_eq_true_eq] at *
  by_cases h2 : (2 : ℝ) = h
  · subst h2
    norm_num [mean]
  · by_cases h3 : (3 : ℝ) = h
    · subst h3
      norm_num [mean]
    · by_cases h4 : (4 : ℝ) = h
      · subst h4
        norm_num [mean]
      · rw [if_neg h2, if_neg h2, if_neg h3, if_neg h3, if_neg h4, if_neg h4] at hn
        simp at hn

private theorem flat_good : GoodDive 1 10 exampleFlat := by
  have hat : ∀ x ∈ exampleFlat, x.altitude = 2 ∨ x.altitude = 3 ∨ x.altitude = 4 := by
    intro x hx
    unfold exampleFlat at hx
    simp only [List.mem_append, List.mem_replicate] at hx
    rcases hx with (⟨-, rfl⟩ | ⟨-, rfl⟩) | ⟨-, rfl⟩ <;> simp
  refine ⟨by norm_num, ?_, ?_, 2, 3, 4, by norm_num, by norm_num, by norm_num, ?_, ?_, ?_⟩
  · intro x hx
    rcases hat x hx with h | h | h <;> rw [h] <;> norm_num
  · intro x hx y hy hxy
    rw [abs_lt] at hxy
    rcases hat x hx with h | h | h <;> rcases hat y hy with h' | h' | h' <;> rw [h, h'] at hxy ⊢ <;> exfalso <;> linarith [hxy.1, hxy.2]
  all_goals
    unfold shotsAt exampleFlat
    simp only [List.filter_append, List.filter_replicate, List.length_append, decide_eq_true_eq]
    norm_num

private theorem flat_flat (ch k : ℕ) : FlatFloor exampleFlat ch k := by
  intro x hx
  unfold exampleFlat at hx
  simp only [List.mem_append, List.mem_replicate] at hx
  rcases hx with (⟨-, rfl⟩ | ⟨-, rfl⟩) | ⟨-, rfl⟩ <;> rfl

private theorem example_light_le (d : ℝ) (hd : 0 ≤ d) (ch k : ℕ) : 1 / 100 ≤ exampleLight.light d ch k ∧ exampleLight.light d ch k ≤ 51 / 100 := by
  unfold Lighting.light exampleLight
  dsimp only
  have h0 : (0 : ℝ) ≤ ch := Nat.cast_nonneg ch
  have h1 : Real.exp (-((ch : ℝ) + 1) * d) ≤ 1 := by
    rw [Real.exp_le_one_iff]
    nlinarith
  have h2 := Real.exp_pos (-((ch : ℝ) + 1) * d)
  split_ifs <;> constructor <;> linarith

private theorem example_mean : meanAltitude exampleDive = 3 ∧ meanAltitude exampleFlat = 3 := by
  constructor
  · unfold meanAltitude exampleDive mean
    norm_num
  · unfold meanAltitude exampleFlat mean
    norm_num

private theorem dive_not_bright (ch k : ℕ) : NotBright exampleLight exampleDive ch k := by
  intro x hx
  have hr : x.floor ch k ≤ 3 / 2 ∧ 0 ≤ x.floor ch k := by
    unfold exampleDive at hx
    simp only [List.mem_append, List.mem_replicate] at hx
    rcases hx with ((⟨-, rfl⟩ | ⟨-, rfl⟩) | (⟨-, rfl⟩ | ⟨-, rfl⟩)) | (⟨-, rfl⟩ | ⟨-, rfl⟩) <;> norm_num
  rw [example_mean.1]
  obtain ⟨h1, h2⟩ := example_light_le 3 (by norm_num) ch k
  nlinarith

private theorem dive_deviation (ch k : ℕ) : mean (reflectances exampleDive ch k) = 1 ∧ deviation (reflectances exampleDive ch k) = 1 / 2 := by
  have hm : mean (reflectances exampleDive ch k) = 1 := by
    unfold reflectances exampleDive mean
    norm_num
  refine ⟨hm, ?_⟩
  have hv : variance (reflectances exampleDive ch k) = (1 / 2) ^ 2 := by
    unfold variance
    rw [hm]
    unfold reflectances exampleDive
    norm_num
  unfold deviation
  rw [hv, Real.sqrt_sq (by norm_num)]

private noncomputable def exampleParse (m : String) : ColourParse := ⟨1, 10, m, 4, 8, fun l => l.take 8, fun l => [l.take 2], [], exampleOpt⟩

/-- The parameters of the dive can be computed, and then the image of a bright spot at its first pixel shows the spot. -/
example : ∃ stats : ℕ → ℕ → ChannelStats,
    (∀ ch k, parsePixel (exampleParse "mean") (exampleDive.map FloorShot.altitude) (intensities exampleLight exampleDive ch k) = .ok (some (stats ch k))) ∧
    ∀ d (cs : CorrSetup), cs.stats = stats → cs.brightness = 30 → cs.contrast = 3 →
      normaliseImage cs (some fun _ => d) (exampleLight.photograph d (.grey [3 / 2, 1])) = .grey [33 / 100, 30 / 100] := by
  have h := fun ch k => C226_parameters_partial (exampleParse "mean") exampleDive exampleLight ch k dive_good exampleOpt_exact rfl
    (dive_typical ch k) (dive_not_bright ch k)
  choose stats h1 _ using h
  refine ⟨stats, h1, fun d cs hcs hb hc => ?_⟩
  rw [C226_corrected_partial (exampleParse "mean") exampleDive exampleLight dive_good exampleOpt_exact rfl dive_typical dive_not_bright (by
    intro ch k
    rw [(dive_deviation ch k).2, example_mean.1]
    have := (example_light_le 3 (by norm_num) ch k).1
    linarith) cs (by rw [hcs]; exact h1), hb, hc]
  simp only [(dive_deviation _ _).1, (dive_deviation _ _).2]
  unfold developed Img.mapAt
  norm_num

/-- The conditions for even ground, with any of the three ways to average. -/
example (m : String) (hm : m = "mean" ∨ m = "median" ∨ m = "ransac_mean") :
    GoodDive (exampleParse m).altMin (exampleParse m).altMax exampleFlat ∧ FindsExact (exampleParse m).opt ∧
    ((exampleParse m).smoothing = "mean" ∨ (exampleParse m).smoothing = "median" ∨ (exampleParse m).smoothing = "ransac_mean") ∧
    Chooses (exampleParse m).pick ∧ Samples (exampleParse m).draws ∧ (∀ ch k, FlatFloor exampleFlat ch k) ∧
    (∀ ch k, NotBright exampleLight exampleFlat ch k) ∧ ∃ stats : ℕ → ℕ → ChannelStats,
    ∀ ch k, parsePixel (exampleParse m) (exampleFlat.map FloorShot.altitude) (intensities exampleLight exampleFlat ch k) = .ok (some (stats ch k)) := by
  have hp : Chooses (exampleParse m).pick := by
    intro l hl
    refine ⟨?_, fun i hi => List.mem_of_mem_take hi⟩
    cases l with
    | nil => exact absurd rfl hl
    | cons a l => simp [exampleParse]
  have hs : Samples (exampleParse m).draws := by
    intro l hl
    refine ⟨by simp [exampleParse], fun d hd => ?_⟩
    obtain rfl : d = l.take 2 := by simpa [exampleParse] using hd
    refine ⟨?_, fun i hi => List.mem_of_mem_take hi⟩
    cases l with
    | nil => exact absurd rfl hl
    | cons a l => simp
  have hb : ∀ ch k, NotBright exampleLight exampleFlat ch k := by
    intro ch k x hx
    rw [flat_flat ch k x hx, example_mean.2]
    have := (example_light_le 3 (by norm_num) ch k).2
    linarith
  have h := fun ch k => found_of_smooth (exampleParse m) exampleFlat exampleLight ch k flat_good exampleOpt_exact (hb ch k)
    (smooth_flat (exampleParse m) exampleFlat exampleLight ch k hm hp hs (flat_flat ch k))
  choose stats h1 _ using h
  exact ⟨flat_good, exampleOpt_exact, hm, hp, hs, flat_flat, hb, stats, h1⟩

/-- Light that is above 0.95 at all altitudes. -/
private noncomputable def exampleBright : Lighting :=
  ⟨fun _ _ => 1 / 100, fun _ _ => -1, fun _ _ => 96 / 100, fun _ _ => by refine ⟨?_, ?_, ?_⟩ <;> norm_num⟩

private theorem bright_light (d : ℝ) (ch k : ℕ) : 95 / 100 < exampleBright.light d ch k := by
  unfold Lighting.light exampleBright
  dsimp only
  have := Real.exp_pos (-1 * d)
  linarith

/-- The conditions of a dive with much light. -/
example : GoodDive (exampleParse "mean").altMin (exampleParse "mean").altMax exampleFlat ∧ (∀ ch k, FlatFloor exampleFlat ch k) ∧
    (∀ ch k, 95 / 100 < exampleBright.light (meanAltitude exampleFlat) ch k) ∧ ∃ stats : ℕ → ℕ → ChannelStats, ∀ ch k,
    parsePixel (exampleParse "mean") (exampleFlat.map FloorShot.altitude) (intensities exampleBright exampleFlat ch k) = .ok (some (stats ch k)) := by
  refine ⟨flat_good, flat_flat, fun ch k => bright_light _ ch k, ?_⟩
  have h : ∀ ch k, ∃ st, parsePixel (exampleParse "mean") (exampleFlat.map FloorShot.altitude) (intensities exampleBright exampleFlat ch k) =
      .ok (some st) := by
    intro ch k
    obtain ⟨a, b, c, -, -, hp⟩ := parse_of_smooth (exampleParse "mean") exampleFlat exampleBright ch k flat_good exampleOpt_exact
      (smooth_flat (exampleParse "mean") exampleFlat exampleBright ch k (Or.inl rfl) (by
        intro l hl
        refine ⟨?_, fun i hi => List.mem_of_mem_take hi⟩
        cases l with
        | nil => exact absurd rfl hl
        | cons a l => simp [exampleParse]) (by
        intro l hl
        refine ⟨by simp [exampleParse], fun d hd => ?_⟩
        obtain rfl : d = l.take 2 := by simpa [exampleParse] using hd
        refine ⟨?_, fun i hi => List.mem_of_mem_take hi⟩
        cases l with
        | nil => exact absurd rfl hl
        | cons a l => simp) (flat_flat ch k))
    obtain ⟨h1, h2⟩ := runner_bright ((reflectances exampleFlat ch k).map (· * exampleBright.light (meanAltitude exampleFlat) ch k)) (by
      intro v hv
      obtain ⟨r, hr, rfl⟩ := List.mem_map.1 hv
      obtain ⟨w, hw, rfl⟩ := List.mem_map.1 hr
      rw [flat_flat ch k w hw, one_mul]
      exact bright_light _ ch k) (by simp [reflectances, exampleFlat])
    exact ⟨_, hp _ _ h1 h2⟩
  choose stats h1 using h
  exact ⟨stats, h1⟩

/-- Trimmed averages of colour images: the parameters are computed, without an error. -/
example : ∃ st, parsePixel (exampleParse "mean_trimmed") (exampleDive.map FloorShot.altitude) (intensities exampleLight exampleDive 0 0) = .ok (some st) := by
  obtain ⟨rows, h1, -, -⟩ := mapM_both (binRow (exampleParse "mean_trimmed") (exampleDive.map FloorShot.altitude) (intensities exampleLight exampleDive 0 0))
    (List.range ((histBins (1 : ℝ) 10).length - 1)) (by
      intro k hk
      rw [List.mem_range, histBins_length] at hk
      unfold binRow
      dsimp only
      by_cases h10 : 10 ≤ (inBin (histBins (exampleParse "mean_trimmed").altMin (exampleParse "mean_trimmed").altMax) (exampleDive.map FloorShot.altitude) k).length
      · rw [if_pos h10]
        obtain ⟨x, hx, he⟩ := members_same (exampleParse "mean_trimmed") exampleDive dive_good.stepped k (by
          show k + 1 < edgeCount (1 : ℝ) 10
          omega) (by rintro h; rw [h] at h10; simp at h10)
        rw [he] at h10 ⊢
        have hd : binDistance (valuesAt (exampleDive.map FloorShot.altitude) (posAt exampleDive x.altitude)) = .ok (some x.altitude) := by
          unfold binDistance
          rw [values_posAt, npMean_const _ x.altitude]
          · simp only
            rw [if_neg (by have := dive_good.above x hx; linarith)]
          · intro h
            rw [List.map_eq_nil_iff] at h
            rw [posAt_length, h] at h10
            simp at h10
          · intro y hy
            obtain ⟨w, hw, rfl⟩ := List.mem_map.1 hy
            exact (shotsAt_alt exampleDive _ w hw).2
        refine ⟨(some x.altitude, none), ?_⟩
        rw [hd]
        simp only [bind, Except.bind]
        have : ∀ vs, smoothBin (exampleParse "mean_trimmed") vs = .ok none := by
          intro vs
          unfold smoothBin
          rw [if_neg (by decide : ¬ (exampleParse "mean_trimmed").smoothing = "mean"),
            if_pos (by decide : (exampleParse "mean_trimmed").smoothing = "mean_trimmed")]
          exact C47_image_false _ _ (by norm_num) (by norm_num)
        rw [this]
      · exact ⟨_, if_neg h10⟩)
  have hr : binTable (exampleParse "mean_trimmed") (exampleDive.map FloorShot.altitude) (intensities exampleLight exampleDive 0 0) = .ok rows := h1
  unfold parsePixel
  rw [if_neg (by simp [exampleDive]), hr]
  simp only [bind, Except.bind]
  rw [trimmed_fit _ _ _ rows (by decide) hr]
  simp only
  have hc : ∀ v ∈ List.zipWith (fun v d => attenuationCorrect v d 1 0 0 (correctionGain ((exampleDive.map FloorShot.altitude).sum /
      ((exampleDive.map FloorShot.altitude).length : ℝ)) 1 0 0)) (intensities exampleLight exampleDive 0 0) (exampleDive.map FloorShot.altitude), v ≤ 95 / 100 := by
    simp only [C50_default]
    intro v hv
    unfold intensities at hv
    rw [List.zipWith_map, List.zipWith_self] at hv
    obtain ⟨x, hx, rfl⟩ := List.mem_map.1 hv
    have hr : x.floor 0 0 ≤ 3 / 2 ∧ 0 ≤ x.floor 0 0 := by
      unfold exampleDive at hx
      simp only [List.mem_append, List.mem_replicate] at hx
      rcases hx with ((⟨-, rfl⟩ | ⟨-, rfl⟩) | (⟨-, rfl⟩ | ⟨-, rfl⟩)) | (⟨-, rfl⟩ | ⟨-, rfl⟩) <;> norm_num
    obtain ⟨h1, h2⟩ := example_light_le x.altitude (by have := dive_good.above x hx; linarith) 0 0
    nlinarith
  obtain ⟨hm, hs⟩ := C45_runner (95 / 100 : ℝ) _ hc
  rw [hm, hs Real.sqrt, if_pos, if_pos]
  · exact ⟨_, rfl⟩
  all_goals simp [intensities, exampleDive]

end Oplab.Props
