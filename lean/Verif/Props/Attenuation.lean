import Verif.Model.Attenuation
import Verif.Spec.Attenuation
import Mathlib.Tactic.Linarith
import Mathlib.Tactic.FieldSimp
import Mathlib.Data.Rat.Floor

/-! # C95-C101: attenuation parameters, rescaling, debayering -/

namespace Oplab.Props
open Oplab.Spec

/-! ## C95: the curve of a pixel -/

private theorem attenuating_of {a b c : ℝ} (ha : 0 < a) (hb : b ≤ 0) (hc : 0 ≤ c) : Attenuating a b c := by
  refine ⟨fun x => ?_, fun x y h => ?_⟩
  · have := Real.exp_pos (b * x); positivity
  · have : Real.exp (b * y) ≤ Real.exp (b * x) := Real.exp_le_exp.2 (by nlinarith)
    nlinarith

private theorem foldl_min_le : ∀ (l : List ℝ) (a : ℝ), l.foldl min a ≤ a ∧ ∀ x ∈ l, l.foldl min a ≤ x
  | [], a => ⟨le_rfl, by simp⟩
  | y :: l, a => by
    obtain ⟨h1, h2⟩ := foldl_min_le l (min a y)
    refine ⟨h1.trans (min_le_left _ _), fun x hx => ?_⟩
    rcases List.mem_cons.1 hx with rfl | hx
    · exact h1.trans (min_le_right _ _)
    · exact h2 x hx

private theorem foldl_min_pos : ∀ (l : List ℝ) (a : ℝ), 0 < a → (∀ x ∈ l, 0 < x) → 0 < l.foldl min a
  | [], _, h, _ => h
  | y :: l, a, h, hl => foldl_min_pos l (min a y) (lt_min h (hl y (by simp))) fun x hx => hl x (by simp [hx])

private theorem least_spec (p : ℝ × ℝ) (ps : List (ℝ × ℝ)) (hpos : ∀ q ∈ p :: ps, 0 < q.2) :
    0 < leastIntensity p ps ∧ ∀ q ∈ p :: ps, leastIntensity p ps ≤ q.2 := by
  refine ⟨foldl_min_pos _ _ (hpos p (by simp)) fun x hx => ?_, fun q hq => ?_⟩
  · obtain ⟨q, hq, rfl⟩ := List.mem_map.1 hx
    exact hpos q (by simp [hq])
  · obtain ⟨h1, h2⟩ := foldl_min_le (ps.map Prod.snd) p.2
    rcases List.mem_cons.1 hq with rfl | hq
    · exact h1
    · exact h2 _ (List.mem_map_of_mem hq)

private theorem getD_mem {α : Type} (l : List α) (i : ℕ) (d : α) (hd : d ∈ l) : l.getD i d ∈ l := by
  rw [List.getD_eq_getElem?_getD]
  cases h : l[i]? with
  | none => simpa using hd
  | some a => simpa using List.mem_of_getElem? h

/-- The start values: `a` positive, `b` not positive, `c` positive, unless two altitudes are equal. -/
private theorem start_spec (p : ℝ × ℝ) (ps : List (ℝ × ℝ)) (hpos : ∀ q ∈ p :: ps, 0 < q.2)
    (hnd : ((p :: ps).map Prod.fst).Nodup) : ∃ a b c, curveStart p ps = .real a b c ∧ 0 < a ∧ b ≤ 0 ∧ 0 ≤ c := by
  obtain ⟨hl, hle⟩ := least_spec p ps hpos
  have hm : ∀ i, (p :: ps).getD i p ∈ p :: ps := fun i => getD_mem _ i p (by simp)
  have hgt : ∀ i, 0 < ((p :: ps).getD i p).2 - leastIntensity p ps * (1 / 2) := fun i => by
    have := hle _ (hm i); linarith
  have hc : 0 ≤ leastIntensity p ps * (1 / 2) := by positivity
  unfold curveStart
  simp only
  set i0 := 3 * (p :: ps).length / 10 with hi0
  set i1 := 7 * (p :: ps).length / 10 with hi1
  have hn : 0 < (p :: ps).length := by simp
  have l0 : i0 < (p :: ps).length := by omega
  have l1 : i1 < (p :: ps).length := by omega
  split_ifs with hd hr hab
  · exfalso
    have e : i0 = i1 := by
      have h0 : ((p :: ps).map Prod.fst)[i0]'(by simpa using l0) = ((p :: ps).map Prod.fst)[i1]'(by simpa using l1) := by
        simp only [List.getElem_map]
        rw [List.getD_eq_getElem?_getD, List.getElem?_eq_getElem l0, List.getD_eq_getElem?_getD, List.getElem?_eq_getElem l1] at hd
        simp only [Option.getD_some] at hd
        linarith
      exact (List.Nodup.getElem_inj_iff hnd).1 h0
    rw [e, div_self (hgt i1).ne', Real.log_one] at hr
    exact lt_irrefl _ hr
  · exact ⟨_, _, _, rfl, by norm_num, by norm_num, hc⟩
  · exact ⟨_, _, _, rfl, by norm_num, by norm_num, hc⟩
  · push Not at hab
    exact ⟨_, _, _, rfl, hab.1, hab.2, hc⟩

private theorem fst_sublist : ∀ alts ints : List ℝ,
    ((positivePairs alts ints).map Prod.fst).Sublist (alts.filter fun x => 0 < x)
  | [], _ => by simp [positivePairs]
  | a :: as, [] => by simp [positivePairs]
  | a :: as, i :: is => by
    have ih := fst_sublist as is
    unfold positivePairs at ih ⊢
    rw [List.zip_cons_cons, List.filter_cons, List.filter_cons]
    by_cases ha : 0 < a
    · by_cases hi : 0 < i
      · simpa [ha, hi] using ih
      · simpa [ha, hi] using ih.cons a
    · simpa [ha] using ih

private theorem pairs_pos (alts ints : List (Option ℝ)) : ∀ q ∈ fitPairs alts ints, 0 < q.1 ∧ 0 < q.2 := by
  intro q hq
  unfold fitPairs positivePairs at hq
  simpa using (List.mem_filter.1 hq).2

/-- C95, if the positive altitudes of the bins are different from each other: the fitted light decreases with the
distance, and is never zero. -/
theorem C95_attenuating_partial (opt : ℝ × ℝ × ℝ → List (ℝ × ℝ) → ℝ → Option (ℝ × ℝ × ℝ)) (hopt : RespectsBounds opt)
    (alts ints : List (Option ℝ)) (hnd : ((alts.filterMap id).filter fun x => 0 < x).Nodup) :
    ∃ a b c, curveFit opt alts ints = .real a b c ∧ Attenuating a b c := by
  unfold curveFit
  have hp := pairs_pos alts ints
  have hs := (fst_sublist (finiteOnly alts) (finiteOnly ints))
  have hn : ((fitPairs alts ints).map Prod.fst).Nodup := hs.nodup hnd
  cases hf : fitPairs alts ints with
  | nil => exact ⟨1, 0, 0, rfl, attenuating_of one_pos le_rfl le_rfl⟩
  | cons p ps =>
    rw [hf] at hp hn
    obtain ⟨a, b, c, h1, h2, h3, h4⟩ := start_spec p ps (fun q hq => (hp q hq).2) hn
    simp only [curveOptimise, h1]
    cases ho : opt (a, b, c) (p :: ps) (leastIntensity p ps) with
    | none => exact ⟨a, b, c, rfl, attenuating_of h2 h3 h4⟩
    | some r =>
      obtain ⟨g1, g2, g3, -⟩ := hopt _ _ _ _ ho
      exact ⟨r.1, r.2.1, r.2.2, rfl, attenuating_of (lt_of_lt_of_le (by norm_num) g1) g2 g3⟩

example : RespectsBounds (fun _ _ _ => none) := by
  intro _ _ _ _ h
  cases h

example : (([some 0, some 2, none, some 0, some 3] : List (Option ℝ)).filterMap id |>.filter fun x => 0 < x).Nodup := by
  have e : ([some 0, some 2, none, some 0, some 3] : List (Option ℝ)).filterMap id = [0, 2, 0, 3] := rfl
  rw [e]
  norm_num [List.filter]

/-- C95 in full: for all bins. -/
def FitAttenuates : Prop :=
  ∀ opt, RespectsBounds opt → ∀ alts ints : List (Option ℝ), ∃ a b c, curveFit opt alts ints = .real a b c ∧ Attenuating a b c

/-- Two bins with the same altitude at a pixel, the second brighter, give infinite parameters. -/
theorem C95_equal_altitudes_false : ¬ FitAttenuates := by
  intro h
  obtain ⟨a, b, c, e, -⟩ := h (fun _ _ _ => none) (fun _ _ _ _ h => by cases h) [some 1, some 1] [some 1, some 2]
  have hf : fitPairs [some (1 : ℝ), some 1] [some 1, some 2] = [(1, 1), (1, 2)] := by
    simp [fitPairs, finiteOnly, positivePairs]
  have hl : leastIntensity ((1 : ℝ), (1 : ℝ)) [(1, 2)] = 1 := by simp [leastIntensity]
  have hs : curveStart ((1 : ℝ), (1 : ℝ)) [(1, 2)] = .infinite (1 / 2) := by
    unfold curveStart
    have hlog : Real.log (((1 : ℝ) - 1 * (1 / 2)) / (2 - 1 * (1 / 2))) < 0 := Real.log_neg (by norm_num) (by norm_num)
    simp only [hl, List.length_cons, List.length_nil]
    norm_num
    norm_num at hlog
    intro h0
    exact absurd hlog (not_lt.2 h0)
  rw [curveFit, hf] at e
  simp only [curveOptimise, hs] at e
  cases e

/-- C95: a pixel without a usable pair gets parameters that leave images unchanged. -/
theorem C95_no_data (opt : ℝ × ℝ × ℝ → List (ℝ × ℝ) → ℝ → Option (ℝ × ℝ × ℝ)) (alts ints : List (Option ℝ))
    (h : ∀ a b : ℝ, some a ∈ alts → some b ∈ ints → ¬ (0 < a ∧ 0 < b)) :
    ∃ a b c, curveFit opt alts ints = .real a b c ∧
      ∀ img altitude target, attenuationCorrect img altitude a b c (correctionGain target a b c) = img := by
  have hf : fitPairs alts ints = [] := by
    rw [List.eq_nil_iff_forall_not_mem]
    rintro ⟨a, b⟩ hq
    have hp := pairs_pos _ _ _ hq
    unfold fitPairs positivePairs at hq
    obtain ⟨h1, h2⟩ := List.of_mem_zip (List.mem_filter.1 hq).1
    have m1 : some a ∈ alts := by simpa [finiteOnly] using h1
    have m2 : some b ∈ ints := by simpa [finiteOnly] using h2
    exact h a b m1 m2 hp
  refine ⟨1, 0, 0, by rw [curveFit, hf], fun img altitude target => ?_⟩
  simp [attenuationCorrect, correctionGain]

example : ∀ a b : ℝ, some a ∈ [some (0 : ℝ), none] → some b ∈ [some (3 : ℝ)] → ¬ (0 < a ∧ 0 < b) := by
  intro a b h1 _ h
  have : a = 0 := by simpa using h1
  rw [this] at h
  exact lt_irrefl _ h.1

/-! ## C96: which altitude belongs to which intensity -/

section
variable {K : Type} [Zero K] [LT K] [DecidableLT K]

omit [Zero K] [LT K] [DecidableLT K] in
private theorem finite_zip : ∀ (alts ints : List (Option K)), alts.map Option.isSome = ints.map Option.isSome →
    (finiteOnly alts).zip (finiteOnly ints) = (alts.zip ints).filterMap fun p => p.1.bind fun a => p.2.map fun b => (a, b)
  | [], [], _ => rfl
  | [], _ :: _, h => by simp at h
  | _ :: _, [], h => by simp at h
  | a :: as, b :: bs, h => by
    simp only [List.map_cons, List.cons.injEq] at h
    have ih := finite_zip as bs h.2
    unfold finiteOnly at ih ⊢
    cases a with
    | none =>
      cases b with
      | none => simpa using ih
      | some b => simp at h
    | some a =>
      cases b with
      | none => simp at h
      | some b => simpa using ih

/-- C96, if in every bin both or none of the values are finite: the fit uses exactly the pairs of positive values of the
same bin. -/
theorem C96_same_bin_partial (alts ints : List (Option K)) (h : alts.map Option.isSome = ints.map Option.isSome) :
    fitPairs alts ints = ((alts.zip ints).filterMap fun p => p.1.bind fun a => p.2.map fun b => (a, b)).filter
      fun q => 0 < q.1 ∧ 0 < q.2 := by
  unfold fitPairs positivePairs
  rw [finite_zip alts ints h]

end

example : ([some 1, none, some 2] : List (Option ℚ)).map Option.isSome = [some 5, none, some 3].map Option.isSome := rfl

/-- C96 in full: every pair used comes from one bin. -/
def PairsFromOneBin : Prop :=
  ∀ (alts ints : List (Option ℚ)) p, alts.length = ints.length → p ∈ fitPairs alts ints →
    ∃ i : ℕ, alts[i]? = some (some p.1) ∧ ints[i]? = some (some p.2)

/-- An intensity that is not finite shifts the intensities against the altitudes. -/
theorem C96_shifted_false : ¬ PairsFromOneBin := by
  intro h
  obtain ⟨i, h1, h2⟩ := h [some 2, some 3] [none, some 5] (2, 5) rfl (by decide +kernel)
  match i, h1, h2 with
  | 0, _, h2 => simp at h2
  | 1, h1, _ => norm_num at h1
  | n + 2, h1, _ => simp at h1

/-! ## C97: parameters of all pixels -/

private theorem flat_get {A : Type} (w : ℕ) : ∀ (rows : List (List A)) (y x : ℕ), (∀ r ∈ rows, r.length = w) → x < w →
    (flatRows rows)[y * w + x]? = (rows[y]?).bind fun r => r[x]?
  | [], y, x, _, _ => by simp [flatRows]
  | r :: rows, 0, x, h, hx => by
    have hr : r.length = w := h r (by simp)
    simp [flatRows, List.getElem?_append_left (show x < r.length by omega)]
  | r :: rows, y + 1, x, h, hx => by
    have hr : r.length = w := h r (by simp)
    have ih := flat_get w rows y x (fun q hq => h q (by simp [hq])) hx
    unfold flatRows at ih ⊢
    rw [List.flatten_cons, List.getElem?_append_right (by rw [hr]; nlinarith), hr]
    have e : (y + 1) * w + x - w = y * w + x := by rw [Nat.succ_mul]; omega
    rw [e, ih]
    simp

/-- C97: the parameters of a channel have `h` rows of `w` entries, and the entry of a pixel is the fit for the distances and
intensities of that pixel in all bins. -/
theorem C97_layout {D I P : Type} (fit : List (Option D) → List (Option I) → P) (h w : ℕ)
    (distances : List (List (List (Option D)))) (images : List (List (List (Option I))))
    (hd : ∀ b ∈ distances, ∀ r ∈ b, r.length = w) (hi : ∀ b ∈ images, ∀ r ∈ b, r.length = w) :
    let params := channelParams fit h w (distances.map flatRows) (images.map flatRows)
    params.length = h ∧ ∀ y x, y < h → x < w → (params[y]?).bind (fun r => r[x]?) =
      some (fit (distances.map fun b => ((b[y]?).bind fun r => r[x]?).join) (images.map fun b => ((b[y]?).bind fun r => r[x]?).join)) := by
  refine ⟨by simp [channelParams, unflatRows], fun y x hy hx => ?_⟩
  have hlt : y * w + x < h * w := by nlinarith
  simp only [channelParams, unflatRows, List.getElem?_map, List.getElem?_range hy, Option.map_some, Option.bind_some]
  rw [List.getElem?_take_of_lt hx, List.getElem?_drop, List.getElem?_map, List.getElem?_range hlt, Option.map_some]
  congr 2
  · rw [List.map_map]
    refine List.map_congr_left fun b hb => ?_
    simp only [Function.comp]
    rw [flat_get w b y x (hd b hb) hx]
  · rw [List.map_map]
    refine List.map_congr_left fun b hb => ?_
    simp only [Function.comp]
    rw [flat_get w b y x (hi b hb) hx]

example : channelParams (fun d i => (d, i)) 2 3 ([[[some 1, some 2, some 3], [some 4, some 5, none]]].map flatRows)
    ([[[some 7, some 8, some 9], [some 10, some 11, some 12]]].map flatRows) =
    [[([some 1], [some 7]), ([some 2], [some 8]), ([some 3], [some 9])],
      [([some 4], [some 10]), ([some 5], [some 11]), ([none], [some 12])]] := by decide

/-! ## C98: the number of jobs -/

/-- C98, on a machine with at least two processors: the fit of a set of images that is not empty runs with at least one
job, and with fewer jobs than processors. -/
theorem C98_jobs_partial (available channels height width images count : ℕ) (h : 0 < channels * height * width * images) (hc : 2 ≤ count) :
    ∃ j, jobCount available channels height width images count = .ok j ∧ 1 ≤ j ∧ j < count ∧ runJobs j = .ok () := by
  have hr : channels * height * width * 4 * images ≠ 0 := by
    have : channels * height * width * 4 * images = 4 * (channels * height * width * images) := by ring
    omega
  unfold jobCount
  simp only [if_neg hr]
  have hq : (0 : ℤ) ≤ ((available / (channels * height * width * 4 * images) : ℕ) : ℤ) := Int.natCast_nonneg _
  generalize ((available / (channels * height * width * 4 * images) : ℕ) : ℤ) = q at hq
  split_ifs with h1 h2
  · refine ⟨_, rfl, by omega, by omega, ?_⟩
    rw [runJobs, if_neg (by omega)]
  · exact ⟨_, rfl, le_rfl, by omega, rfl⟩
  · refine ⟨_, rfl, by omega, by omega, ?_⟩
    rw [runJobs, if_neg (by omega)]

example : (0 : ℕ) < 3 * 1024 * 1280 * 20 ∧ (2 : ℕ) ≤ 4 := by omega

/-- C98 in full: on every machine. -/
def RunsEverywhere : Prop :=
  ∀ available channels height width images count : ℕ, 0 < channels * height * width * images → 1 ≤ count →
    ∃ j, jobCount available channels height width images count = .ok j ∧ runJobs j = .ok ()

/-- With one processor and enough memory there are no jobs, and the program fails. -/
theorem C98_one_processor_false : ¬ RunsEverywhere := by
  intro h
  obtain ⟨j, h1, h2⟩ := h 4 1 1 1 1 1 (by decide) (by decide)
  have e : jobCount 4 1 1 1 1 1 = .ok 0 := rfl
  rw [e] at h1
  obtain rfl := Except.ok.inj h1
  cases h2

/-! ## C99: the altitude of an image that is rescaled -/

section
variable {K : Type} [Field K] [LinearOrder K] [FloorRing K]

/-- C99, if exactly one row has a stem that is part of the image name: the image is rescaled with the altitude of that
row. -/
theorem C99_own_altitude_partial (stem : List Char → List Char) (before after : List (List Char × K)) (row : List Char × K)
    (name : List Char) (method : String) (target fx fy : K) (maintain : Bool) (w h : ℕ) (h1 : stem row.1 <:+: name)
    (h2 : ∀ r ∈ before ++ after, ¬ stem r.1 <:+: name) :
    rescaleImage stem (before ++ row :: after) name method target fx fy maintain w h =
      (rescaleOps method target row.2 fx fy maintain w h).map some := by
  have hmem : ∀ r ∈ before ++ row :: after, (decide (r.1 ∈ ((before ++ row :: after).map Prod.fst).filter fun p => stem p <:+: name)) =
      decide (stem r.1 <:+: name) := by
    intro r hr
    simp only [List.mem_filter, decide_eq_true_eq, decide_eq_decide]
    exact ⟨fun h => h.2, fun h => ⟨List.mem_map_of_mem hr, h⟩⟩
  have e : rescaleAltitudes stem (before ++ row :: after) name = [row.2] := by
    unfold rescaleAltitudes
    simp only [List.contains_eq_mem]
    rw [List.filter_congr hmem, List.filter_append, List.filter_cons_of_pos (by simpa using h1)]
    have hb : (before.filter fun r => decide (stem r.1 <:+: name)) = [] := by
      rw [List.filter_eq_nil_iff]; intro r hr; simpa using h2 r (by simp [hr])
    have ha : (after.filter fun r => decide (stem r.1 <:+: name)) = [] := by
      rw [List.filter_eq_nil_iff]; intro r hr; simpa using h2 r (by simp [hr])
    rw [hb, ha]; rfl
  unfold rescaleImage
  rw [e]

end

private def stem4 (l : List Char) : List Char := l.take (l.length - 4)

example : stem4 "12.png".toList <:+: "12.png".toList ∧ ¬ stem4 "13.png".toList <:+: "12.png".toList := by decide

/-- C99 in full: an image with a row of its own is rescaled with the altitude of that row, and an image without one is
not rescaled. -/
def OwnAltitude : Prop :=
  ∀ (rows : List (List Char × ℚ)) (name : List Char) (target fx fy : ℚ), (rows.map Prod.fst).Nodup →
    (∀ a, (name, a) ∈ rows → rescaleImage stem4 rows name "bicubic" target fx fy true 4 4 =
      (rescaleOps "bicubic" target a fx fy true 4 4).map some) ∧
    (name ∉ rows.map Prod.fst → rescaleImage stem4 rows name "bicubic" target fx fy true 4 4 = .ok none)

/-- Image 12 fails when there is an image 2. -/
theorem C99_several_false : ¬ OwnAltitude := by
  intro h
  have h1 := (h [("12.png".toList, 1), ("2.png".toList, 2)] "12.png".toList 1 1 1 (by decide)).1 1 (by decide)
  have e1 : rescaleImage stem4 [("12.png".toList, (1 : ℚ)), ("2.png".toList, 2)] "12.png".toList "bicubic" 1 1 1 true 4 4 =
      .error .valueError := by rfl
  rw [e1] at h1
  have e2 : ((rescaleOps "bicubic" (1 : ℚ) 1 1 1 true 4 4).map some).toOption.isSome = true := by decide +kernel
  rw [← h1] at e2
  cases e2

/-- Image 12 without an altitude is rescaled with the altitude of image 2. -/
theorem C99_wrong_altitude_false : ∃ (rows : List (List Char × ℚ)) (name : List Char), name ∉ rows.map Prod.fst ∧
    rescaleImage stem4 rows name "bicubic" (1 : ℚ) 1 1 true 4 4 = (rescaleOps "bicubic" (1 : ℚ) 2 1 1 true 4 4).map some :=
  ⟨[("2.png".toList, 2)], "12.png".toList, by decide, by
    have e : ∀ x y : Except Err (Option (List ImgOp)), x.toOption = y.toOption → x.toOption.isSome = true → x = y := by
      intro x y h1 h2
      cases x <;> cases y <;> simp_all [Except.toOption]
    apply e <;> decide +kernel⟩

/-! ## C100: the pixel size of rescaled images -/

section
variable {K : Type} [Field K] [LinearOrder K] [IsStrictOrderedRing K] [FloorRing K]

omit [IsStrictOrderedRing K] in
private theorem trunc_nonneg {x : K} (h : 0 ≤ x) : truncInt x = ⌊x⌋ := by rw [truncInt, if_pos h]

/-- C100: without keeping the size, the new image has as many pixels of the target size as fit into the seafloor that the
image covers, in each direction. -/
theorem C100_pixel_size (method : String) (target altitude fx fy : K) (w h : ℕ) (ht : 0 < target) (ha : 0 ≤ altitude) (hx : 0 < fx)
    (hy : 0 < fy) (ops : List ImgOp) (hr : rescaleOps method target altitude fx fy false w h = .ok ops) :
    ∃ w' h' : ℤ, ops = [.resize w' h'] ∧ 1 ≤ w' ∧ 1 ≤ h' ∧
      (w' : K) * target ≤ w * (altitude / fx) ∧ w * (altitude / fx) < (w' + 1) * target ∧
      (h' : K) * target ≤ h * (altitude / fy) ∧ h * (altitude / fy) < (h' + 1) * target := by
  unfold rescaleOps at hr
  simp only [Bool.false_eq_true, if_false] at hr
  split_ifs at hr with hm
  · have key : ∀ (n : ℕ) (f : K), 0 < f → ((truncInt ((n : K) * (altitude / f / target)) : ℤ) : K) * target ≤ n * (altitude / f) ∧
        n * (altitude / f) < (truncInt ((n : K) * (altitude / f / target)) + 1) * target := by
      intro n f hf
      have h0 : 0 ≤ (n : K) * (altitude / f / target) := by positivity
      rw [trunc_nonneg h0]
      have h1 := Int.floor_le ((n : K) * (altitude / f / target))
      have h2 := Int.lt_floor_add_one ((n : K) * (altitude / f / target))
      have e : (n : K) * (altitude / f / target) * target = n * (altitude / f) := by field_simp
      constructor
      · rw [← e]; exact mul_le_mul_of_nonneg_right h1 ht.le
      · rw [← e]; exact mul_lt_mul_of_pos_right h2 ht
    unfold resizeTo at hr
    split_ifs at hr with hs
    · cases hr
    · simp only [bind, Except.bind] at hr
      obtain rfl := Except.ok.inj hr
      push Not at hs
      exact ⟨_, _, rfl, by omega, by omega, (key w fx hx).1, (key w fx hx).2, (key h fy hy).1, (key h fy hy).2⟩

/-- C100: an image covering at least one pixel of the target size in each direction is rescaled by a supported method. -/
theorem C100_succeeds (method : String) (hm : method ∈ ["bicubic", "bilinear", "nearest_neighbour", "lanczos"])
    (target altitude fx fy : K) (maintain : Bool) (w h : ℕ) (ht : 0 < target)
    (hw : target ≤ w * (altitude / fx)) (hh : target ≤ h * (altitude / fy)) :
    ∃ ops, rescaleOps method target altitude fx fy maintain w h = .ok ops := by
  have hm' : rescaleMethod method = true := by simpa [rescaleMethod] using hm
  have key : ∀ (n : ℕ) (f : K), target ≤ n * (altitude / f) → ¬ truncInt ((n : K) * (altitude / f / target)) ≤ 0 := by
    intro n f hn
    have h1 : (1 : K) ≤ (n : K) * (altitude / f / target) := by rw [← mul_div_assoc, le_div_iff₀ ht]; linarith
    rw [trunc_nonneg (zero_le_one.trans h1)]
    have := Int.le_floor.2 (show ((1 : ℤ) : K) ≤ (n : K) * (altitude / f / target) by simpa using h1)
    omega
  have pos : ∀ (n : ℕ) (f : K), target ≤ n * (altitude / f) → ¬ (n : ℤ) ≤ 0 := by
    intro n f hn h0
    have : n = 0 := by omega
    subst this
    simp only [Nat.cast_zero, zero_mul] at hn
    exact absurd ht (not_lt.2 hn)
  have r1 := resizeTo.eq_1 (truncInt ((w : K) * (altitude / fx / target))) (truncInt ((h : K) * (altitude / fy / target)))
  rw [if_neg (not_or.2 ⟨key w fx hw, key h fy hh⟩)] at r1
  have r2 := resizeTo.eq_1 (w : ℤ) (h : ℤ)
  rw [if_neg (not_or.2 ⟨pos w fx hw, pos h fy hh⟩)] at r2
  unfold rescaleOps
  simp only [hm', r1, r2, bind, Except.bind, Bool.true_eq_false, if_false]
  split_ifs <;> exact ⟨_, rfl⟩

omit [IsStrictOrderedRing K] in
/-- C100: other methods end the program. -/
theorem C100_other_method (method : String) (hm : method ∉ ["bicubic", "bilinear", "nearest_neighbour", "lanczos"])
    (target altitude fx fy : K) (maintain : Bool) (w h : ℕ) :
    rescaleOps method target altitude fx fy maintain w h = .error .quit := by
  have hm' : rescaleMethod method = false := by simpa [rescaleMethod] using hm
  unfold rescaleOps
  simp only [hm', if_true]

/-- C100: keeping the size, an image with pixels larger than the target loses its border: the part in the middle that is
left covers the target size times the number of pixels, up to one pixel, and is brought to the size of the image. -/
theorem C100_maintain_enlarge (method : String) (hm : method ∈ ["bicubic", "bilinear", "nearest_neighbour", "lanczos"])
    (target altitude fx fy : K) (w h : ℕ) (ht : 0 < target) (hx : target ≤ altitude / fx) (hy : target ≤ altitude / fy) :
    ∃ l u r b : ℤ, rescaleOps method target altitude fx fy true w h = .ok [.crop l u r b, .resize w h] ∧
      0 ≤ l ∧ 0 ≤ u ∧ l ≤ r ∧ u ≤ b ∧ l + r = w ∧ u + b = h ∧
      |((r - l : ℤ) : K) * (altitude / fx) - w * target| ≤ altitude / fx ∧
      |((b - u : ℤ) : K) * (altitude / fy) - h * target| ≤ altitude / fy := by
  have hm' : rescaleMethod method = true := by simpa [rescaleMethod] using hm
  have key : ∀ (n : ℕ) (g : K), target ≤ g → ∃ l : ℤ,
      truncInt (((n : ℤ) - truncInt (1 / (g / target) * (n : K)) : ℤ) / 2 : K) = l ∧ 0 ≤ l ∧ l ≤ (n : ℤ) - l ∧
      |(((n : ℤ) - l - l : ℤ) : K) * g - n * target| ≤ g := by
    intro n g hg
    have hg0 : 0 < g := ht.trans_le hg
    have e : 1 / (g / target) * (n : K) = n * target / g := by field_simp
    have h0 : 0 ≤ (n : K) * target / g := by positivity
    rw [e, trunc_nonneg h0]
    obtain ⟨c, hc⟩ : ∃ c, c = ⌊(n : K) * target / g⌋ := ⟨_, rfl⟩
    have f1 : (c : K) ≤ n * target / g := hc ▸ Int.floor_le _
    have f2 : (n : K) * target / g < c + 1 := hc ▸ Int.lt_floor_add_one _
    rw [← hc]
    have c0 : 0 ≤ c := hc ▸ Int.floor_nonneg.2 h0
    rw [le_div_iff₀ hg0] at f1
    rw [div_lt_iff₀ hg0] at f2
    have cn : c ≤ (n : ℤ) := by
      have hn : (0 : K) ≤ n := n.cast_nonneg
      have : (c : K) * g ≤ (n : K) * g := f1.trans (mul_le_mul_of_nonneg_left hg hn)
      have := le_of_mul_le_mul_right this hg0
      exact_mod_cast this
    have d0 : (0 : K) ≤ (((n : ℤ) - c : ℤ) : K) / 2 := by
      have : (0 : K) ≤ (((n : ℤ) - c : ℤ) : K) := by exact_mod_cast (by omega : 0 ≤ (n : ℤ) - c)
      positivity
    have d : ⌊(((n : ℤ) - c : ℤ) : K) / 2⌋ = ((n : ℤ) - c) / 2 := by
      rw [Int.floor_eq_iff]
      obtain ⟨z, hz⟩ : ∃ z, z = (n : ℤ) - c := ⟨_, rfl⟩
      rw [← hz]
      have z1 : ((z / 2 : ℤ) : K) * 2 ≤ z := by exact_mod_cast (by omega : z / 2 * 2 ≤ z)
      have z2 : (z : K) < ((z / 2 : ℤ) : K) * 2 + 2 := by exact_mod_cast (by omega : z < z / 2 * 2 + 2)
      constructor <;> linarith
    rw [trunc_nonneg d0, d]
    refine ⟨_, rfl, by omega, by omega, ?_⟩
    obtain ⟨m, hm⟩ : ∃ m, m = (n : ℤ) - ((n : ℤ) - c) / 2 - ((n : ℤ) - c) / 2 := ⟨_, rfl⟩
    rw [← hm]
    have m1 : c ≤ m := by omega
    have m2 : m ≤ c + 1 := by omega
    have k1 : (c : K) ≤ m := by exact_mod_cast m1
    have k2 : (m : K) ≤ c + 1 := by exact_mod_cast m2
    rw [abs_le]
    constructor
    · nlinarith [mul_le_mul_of_nonneg_right k1 hg0.le]
    · nlinarith [mul_le_mul_of_nonneg_right k2 hg0.le]
  obtain ⟨l, l1, l2, l3, l4⟩ := key w _ hx
  obtain ⟨u, u1, u2, u3, u4⟩ := key h _ hy
  refine ⟨l, u, w - l, h - u, ?_, l2, u2, l3, u3, by ring, by ring, l4, u4⟩
  have n1 : ¬ altitude / fx / target < 1 := by rw [not_lt, le_div_iff₀ ht]; linarith
  have n2 : ¬ altitude / fy / target < 1 := by rw [not_lt, le_div_iff₀ ht]; linarith
  unfold rescaleOps cropMiddle
  simp only [hm', l1, u1, n1, n2, Bool.true_eq_false, if_false, if_true, or_self]

/-- C100: keeping the size, an image with pixels smaller than the target is reduced to the target pixel size and brought
back to its size. -/
theorem C100_maintain_reduce (method : String) (target altitude fx fy : K) (w h : ℕ) (ht : 0 < target)
    (hx : altitude / fx < target ∨ altitude / fy < target) :
    rescaleOps method target altitude fx fy true w h =
      (rescaleOps method target altitude fx fy false w h >>= fun ops =>
        if w = 0 ∨ h = 0 then .error .valueError else .ok (ops ++ [.resize w h])) := by
  have n : altitude / fy / target < 1 ∨ altitude / fx / target < 1 := by
    rw [div_lt_one ht, div_lt_one ht]; exact hx.symm
  have e : resizeTo (w : ℤ) (h : ℤ) = if w = 0 ∨ h = 0 then .error .valueError else .ok (.resize w h) := by
    unfold resizeTo
    simp only [Int.natCast_nonpos_iff]
  unfold rescaleOps
  simp only [n, if_true, e]
  cases hm : rescaleMethod method with
  | false => simp [bind, Except.bind]
  | true =>
    simp only [Bool.true_eq_false, if_false, bind, Except.bind]
    cases resizeTo (truncInt ((w : K) * (altitude / fx / target))) (truncInt ((h : K) * (altitude / fy / target))) with
    | error x => rfl
    | ok a => by_cases h0 : w = 0 ∨ h = 0 <;> simp [h0]

end

example : (rescaleOps "bicubic" (2 / 1000 : ℚ) 4 1000 1000 false 1280 1024).toOption = some [.resize 2560 2048] ∧
    (rescaleOps "bicubic" (2 / 1000 : ℚ) 4 1000 1000 true 1280 1024).toOption = some [.crop 320 256 960 768, .resize 1280 1024] ∧
    (rescaleOps "lanczos" (8 / 1000 : ℚ) 4 1000 1000 true 1280 1024).toOption = some [.resize 640 512, .resize 1280 1024] := by
  decide +kernel

/-! ## C101: debayering -/

section
variable {K : Type} [Field K] [LinearOrder K] [IsStrictOrderedRing K] [FloorRing K]

/-- C101: debayered values are at least 0 and less than 1. -/
theorem C101_unit (cv : BayerCode → List ℕ → List (List ℕ)) (pattern : String) (image : List K) (out : List (List K))
    (hcv : ∀ c px, (∀ n ∈ px, n < 2 ^ 16) → ∀ p ∈ cv c px, ∀ n ∈ p, n < 2 ^ 16)
    (h : debayerImage cv pattern (some image) = .ok (some out)) : ∀ p ∈ out, ∀ v ∈ p, 0 ≤ v ∧ v < 1 := by
  unfold debayerImage at h
  simp only [bind, Except.bind] at h
  cases hb : bayerCode pattern with
  | error e => rw [hb] at h; cases h
  | ok code =>
    rw [hb] at h
    obtain rfl := Option.some.inj (Except.ok.inj h)
    intro p hp v hv
    obtain ⟨q, hq, rfl⟩ := List.mem_map.1 hp
    obtain ⟨n, hn, rfl⟩ := List.mem_map.1 hv
    have hlt := hcv code (image.map toUint16) (by
      intro m hm
      obtain ⟨x, -, rfl⟩ := List.mem_map.1 hm
      unfold toUint16
      have h0 : (0 : K) ≤ min (max (x * (2 ^ 16 - 1)) 0) (2 ^ 16 - 1) := le_min (le_max_right _ _) (by norm_num)
      rw [Nat.floor_lt h0]
      exact lt_of_le_of_lt (min_le_right _ _) (by norm_num)) q hq n hn
    unfold fromUint16
    have : (n : K) < 2 ^ 16 := by exact_mod_cast hlt
    refine ⟨by positivity, ?_⟩
    rw [mul_one_div, div_lt_one (by positivity)]
    exact this

/-- C101: an image of one intensity keeps it, up to 2 / 65536, and does not get brighter, if the conversion keeps
constant images. -/
theorem C101_uniform (cv : BayerCode → List ℕ → List (List ℕ)) (pattern : String) (k : ℕ) (v : K) (h0 : 0 ≤ v) (h1 : v ≤ 1)
    (out : List (List K)) (hcv : ∀ c n, ∀ p ∈ cv c (List.replicate k n), ∀ m ∈ p, m = n)
    (h : debayerImage cv pattern (some (List.replicate k v)) = .ok (some out)) :
    ∀ p ∈ out, ∀ x ∈ p, v - 2 / 65536 < x ∧ x ≤ v := by
  unfold debayerImage at h
  simp only [bind, Except.bind] at h
  cases hb : bayerCode pattern with
  | error e => rw [hb] at h; cases h
  | ok code =>
    rw [hb] at h
    obtain rfl := Option.some.inj (Except.ok.inj h)
    intro p hp x hx
    obtain ⟨q, hq, rfl⟩ := List.mem_map.1 hp
    obtain ⟨n, hn, rfl⟩ := List.mem_map.1 hx
    rw [List.map_replicate] at hq
    rw [hcv _ _ q hq n hn]
    unfold fromUint16 toUint16
    have e : min (max (v * (2 ^ 16 - 1)) 0) (2 ^ 16 - 1) = v * (2 ^ 16 - 1) := by
      rw [max_eq_left (by norm_num; linarith), min_eq_left (by norm_num; linarith)]
    rw [e]
    have g0 : (0 : K) ≤ v * (2 ^ 16 - 1) := by norm_num; linarith
    have f1 := Nat.floor_le g0
    have f2 := Nat.lt_floor_add_one (v * (2 ^ 16 - 1))
    generalize (⌊v * (2 ^ 16 - 1)⌋₊ : K) = n at *
    norm_num at f1 f2 ⊢
    constructor <;> linarith

omit [IsStrictOrderedRing K] in
/-- C101: the conversion belongs to the pattern (OpenCV names it by the second row), in lower or upper case; other
patterns end the program; there is no result without an image. -/
theorem C101_patterns (cv : BayerCode → List ℕ → List (List ℕ)) (pattern : String) (image : List K) :
    (pattern ∈ ["rggb", "RGGB"] → bayerCode pattern = .ok .bg) ∧ (pattern ∈ ["grbg", "GRBG"] → bayerCode pattern = .ok .gb) ∧
    (pattern ∈ ["bggr", "BGGR"] → bayerCode pattern = .ok .rg) ∧ (pattern ∈ ["gbrg", "GBRG"] → bayerCode pattern = .ok .gr) ∧
    (pattern ∉ ["rggb", "RGGB", "grbg", "GRBG", "bggr", "BGGR", "gbrg", "GBRG"] →
      debayerImage cv pattern (some image) = .error .quit) ∧
    debayerImage cv pattern (none : Option (List K)) = .ok none := by
  refine ⟨?_, ?_, ?_, ?_, ?_, rfl⟩
  · intro h; simp only [List.mem_cons, List.not_mem_nil, or_false] at h; rcases h with rfl | rfl <;> rfl
  · intro h; simp only [List.mem_cons, List.not_mem_nil, or_false] at h; rcases h with rfl | rfl <;> rfl
  · intro h; simp only [List.mem_cons, List.not_mem_nil, or_false] at h; rcases h with rfl | rfl <;> rfl
  · intro h; simp only [List.mem_cons, List.not_mem_nil, or_false] at h; rcases h with rfl | rfl <;> rfl
  · intro h
    simp only [List.mem_cons, List.not_mem_nil, or_false, not_or] at h
    have : bayerCode pattern = .error .quit := by simp [bayerCode, h]
    simp only [debayerImage, this, bind, Except.bind]

end

example : (debayerImage (fun _ px => px.map fun n => [n, n, n]) "rggb" (some [(1 / 2 : ℚ), 1])).toOption =
    some (some [[32767 / 65536, 32767 / 65536, 32767 / 65536], [65535 / 65536, 65535 / 65536, 65535 / 65536]]) := by
  decide +kernel

end Oplab.Props
