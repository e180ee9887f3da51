import Verif.Spec.StereoFound
import Verif.Props.CameraCal
import Mathlib.Tactic.Linarith
import Mathlib.Tactic.NormNum
import Mathlib.Tactic.Positivity

/-! # C274: when a stereo calibration is found -/

namespace Oplab.Props
open Oplab.Spec

private theorem distance_eq : ∀ a b : List ℝ, (a.zip b).foldr (fun x s => |x.1 - x.2| + s) 0 = pairDistance a b
  | [], _ => by simp [pairDistance]
  | _ :: _, [] => by simp [pairDistance]
  | a :: as, b :: bs => by simp [pairDistance, distance_eq as bs]

private theorem chosen_distinct {V : Type} (params : V → List ℝ) (common : List V) : DistinctPairs params common (chooseViews params common []) := by
  cases common with
  | nil => exact ⟨by simp [chooseViews], by simp [chooseViews], by simp⟩
  | cons d ds =>
    obtain ⟨h1, h2, h3, h4⟩ := C104_different params d ds
    simp only [distance_eq] at h3 h4
    refine ⟨h1, h3, fun x hx => ?_⟩
    rcases List.mem_cons.1 hx with rfl | hx
    · exact Or.inl (List.mem_of_mem_head? h2)
    · exact h4 x hx

/-! ## Few values are far above the average -/

private theorem sum_shift (l : List ℝ) (m t : ℝ) : (l.map fun x => (x - m + t) ^ 2).sum
    = (l.map fun x => (x - m) ^ 2).sum + 2 * t * (l.sum - l.length * m) + l.length * t ^ 2 := by
  induction l with
  | nil => simp
  | cons a l ih => simp only [List.map_cons, List.sum_cons, List.length_cons, ih]; push_cast; ring

private theorem count_far (l : List ℝ) (m b : ℝ) (t : ℝ) (p : ℝ → Bool) (hp : ∀ x, p x = true → b ≤ (x - m + t) ^ 2) :
    ((l.filter p).length : ℝ) * b ≤ (l.map fun x => (x - m + t) ^ 2).sum := by
  induction l with
  | nil => simp
  | cons a l ih =>
    rw [List.filter_cons]
    split_ifs with h
    · simp only [List.map_cons, List.sum_cons, List.length_cons]; push_cast; have := hp a h; linarith
    · simp only [List.map_cons, List.sum_cons]; have := sq_nonneg (a - m + t); linarith

/-- At most a fifth of the values are two deviations or more above the average, unless all are equal. -/
private theorem few_far (l : List ℝ) (hs : 0 < deviation l) :
    5 * (l.filter fun e => !decide (e < mean l + 2 * deviation l)).length ≤ l.length := by
  have hv : 0 < variance l := Real.sqrt_pos.1 hs
  have hl : l ≠ [] := by rintro rfl; simp [variance] at hv
  have hn : (0 : ℝ) < l.length := by exact_mod_cast List.length_pos_of_ne_nil hl
  have hsq : deviation l ^ 2 = variance l := Real.sq_sqrt hv.le
  have hc := count_far l (mean l) (25 / 4 * variance l) (deviation l / 2) (fun e => !decide (e < mean l + 2 * deviation l)) (by
    intro x hx
    simp only [Bool.not_eq_true', decide_eq_false_iff_not, not_lt] at hx
    have : 5 / 2 * deviation l ≤ x - mean l + deviation l / 2 := by linarith
    calc 25 / 4 * variance l = (5 / 2 * deviation l) ^ 2 := by rw [mul_pow, hsq]; norm_num
      _ ≤ _ := pow_le_pow_left₀ (by positivity) this 2)
  rw [sum_shift] at hc
  have h1 : l.sum - l.length * mean l = 0 := by rw [mean]; field_simp; ring
  have h2 : (l.map fun x => (x - mean l) ^ 2).sum = l.length * variance l := by
    have e : variance l = (l.map fun x => (x - mean l) ^ 2).sum / l.length := rfl
    rw [e]; field_simp
  rw [h1, h2, div_pow, hsq] at hc
  have h3 : ((l.filter fun e => !decide (e < mean l + 2 * deviation l)).length : ℝ) * 5 ≤ l.length := by
    have : ((l.filter fun e => !decide (e < mean l + 2 * deviation l)).length : ℝ) * 5 * variance l ≤ l.length * variance l := by linarith
    exact le_of_mul_le_mul_right this hv
  have : (5 * (l.filter fun e => !decide (e < mean l + 2 * deviation l)).length : ℝ) ≤ l.length := by linarith
  exact_mod_cast this

private theorem kept_many {V : Type} (p : ℝ → Bool) : ∀ (vs : List V) (es : List ℝ), vs.length ≤ es.length →
    vs.length ≤ (((vs.zip es).filter fun x => p x.2).map Prod.fst).length + (es.filter fun e => !p e).length
  | [], es, _ => by simp
  | v :: vs, [], h => by simp at h
  | v :: vs, e :: es, h => by
    have ih := kept_many p vs es (by simpa using h)
    rw [List.zip_cons_cons, List.filter_cons, List.filter_cons]
    cases hp : p e with
    | true => simp only [hp, if_true, List.map_cons, List.length_cons, Bool.not_true, Bool.false_eq_true, if_false] at ih ⊢; omega
    | false => simp only [hp, if_false, Bool.false_eq_true, Bool.not_false, if_true, List.length_cons] at ih ⊢; omega

private theorem kept_sub {V : Type} (p : V × ℝ → Bool) : ∀ (vs : List V) (es : List ℝ), (((vs.zip es).filter p).map Prod.fst).Sublist vs
  | [], es => by simp
  | v :: vs, [] => by simp
  | v :: vs, e :: es => by
    rw [List.zip_cons_cons, List.filter_cons]
    split_ifs
    · exact (kept_sub p vs es).cons_cons v
    · exact (kept_sub p vs es).cons v

private theorem spread {V : Type} (f : V → ℝ) (l : List V) (h : ∃ v ∈ l, ∃ w ∈ l, f v ≠ f w) : 0 < deviation (l.map f) := by
  rw [deviation, Real.sqrt_pos]
  obtain ⟨v, hv, w, hw, hne⟩ := h
  have hl : (0 : ℝ) < (l.map f).length := by rw [List.length_map]; exact_mod_cast List.length_pos_of_mem hv
  rw [variance]
  refine div_pos ?_ hl
  by_contra hc
  have h0 : ∀ x ∈ (l.map f).map (fun x => (x - mean (l.map f)) ^ 2), x = 0 := by
    have hp : ∀ x ∈ (l.map f).map (fun x => (x - mean (l.map f)) ^ 2), (0 : ℝ) ≤ x := by
      intro x hx; obtain ⟨y, -, rfl⟩ := List.mem_map.1 hx; exact sq_nonneg _
    intro x hx
    have := List.single_le_sum hp x hx
    have := hp x hx
    linarith
  have hv' := h0 _ (List.mem_map_of_mem (List.mem_map_of_mem hv))
  have hw' := h0 _ (List.mem_map_of_mem (List.mem_map_of_mem hw))
  have a := pow_eq_zero_iff (two_ne_zero) |>.1 hv'
  have b := pow_eq_zero_iff (two_ne_zero) |>.1 hw'
  exact hne (by linarith)

private theorem cost_eq {V T : Type} (found : T → V → Option ℝ) (t : T) (v : V) : pairError found t v = pairCost found t v := by
  rw [pairError, pairCost]; cases found t v <;> rfl

private theorem choose_all {V : Type} (params : V → List ℝ) : ∀ (l db : List V),
    (db ++ l).Pairwise (fun a b => 12 / 100 < pairDistance (params b) (params a)) → chooseViews params l db = db ++ l := by
  intro l
  induction l with
  | nil => intro db _; simp [chooseViews]
  | cons d ds ih =>
    intro db h
    have hg : goodSample (db.map params) (params d) = true := by
      have hall : ∀ x ∈ db, 12 / 100 < paramDistance (params d) (params x) := by
        intro x hx
        rw [paramDistance, List.sum_eq_foldr, List.foldr_map, distance_eq]
        exact (List.pairwise_append.1 h).2.2 x hx d (by simp)
      unfold goodSample
      split
      · rfl
      · rename_i e es he
        rw [decide_eq_true_eq]
        have hall' : ∀ y ∈ e :: es, (12 / 100 : ℝ) < y := by
          rw [← he]; intro y hy
          simp only [List.map_map, List.mem_map, Function.comp] at hy
          obtain ⟨x, hx, rfl⟩ := hy
          exact hall x hx
        clear he
        have : ∀ (es : List ℝ) (e : ℝ), (∀ y ∈ e :: es, (12 / 100 : ℝ) < y) → 12 / 100 < es.foldl min e := by
          intro es
          induction es with
          | nil => intro e h; exact h e (by simp)
          | cons a es ih => intro e h; exact ih _ (by
              intro y hy
              rcases List.mem_cons.1 hy with rfl | hy
              · exact lt_min (h e (by simp)) (h a (by simp))
              · exact h y (by simp [hy]))
        exact this es e hall'
    rw [chooseViews, if_pos hg, ih _ (by simpa using h)]
    simp

private theorem all_chosen {V : Type} (params : V → List ℝ) (l : List V)
    (h : l.Pairwise fun a b => 12 / 100 < pairDistance (params b) (params a)) : chooseViews params l [] = l := by
  simpa using choose_all params l [] (by simpa using h)

section
variable {V T : Type} (solve : List V → ℝ × T) (epi : T → V → ℝ) (db : List V)

private theorem steps_good (me st : List ℝ → ℝ) : ∀ (n : ℕ) (views : List V) (cals : List (StereoCal ℝ V T)), views.Sublist db →
    stereoIterations solve epi me st db n views = .ok cals →
    (∃ rest, cals = ⟨(solve views).1, (solve views).2, views⟩ :: rest) ∧
    ∀ c ∈ cals, c.views.Sublist db ∧ 8 ≤ c.views.length ∧ solve c.views = (c.error, c.pose) := by
  intro n
  induction n with
  | zero =>
    intro views cals hv h
    unfold stereoIterations at h
    split_ifs at h with h8
    cases h
    exact ⟨⟨[], rfl⟩, by intro c hc; rw [List.mem_singleton] at hc; subst hc; exact ⟨hv, not_lt.1 h8, rfl⟩⟩
  | succ m ih =>
    intro views cals hv h
    unfold stereoIterations at h
    split_ifs at h with h8
    simp only at h
    split_ifs at h with hc
    · simp only [bind, Except.bind] at h
      split at h
      · cases h
      · rename_i rest hr
        cases h
        refine ⟨⟨rest, rfl⟩, fun c hc => ?_⟩
        rcases List.mem_cons.1 hc with rfl | hc
        · exact ⟨hv, not_lt.1 h8, rfl⟩
        · exact (ih _ _ ((kept_sub _ _ _).trans hv) hr).2 c hc
    · cases h
      exact ⟨⟨[], rfl⟩, by intro c hc; rw [List.mem_singleton] at hc; subst hc; exact ⟨hv, not_lt.1 h8, rfl⟩⟩

private theorem best_fold {C : Type} (err : C → ℝ) : ∀ (cs : List C) (b : C),
    let r := cs.foldl (fun b x => if err x < err b then x else b) b
    (r = b ∨ r ∈ cs) ∧ err r ≤ err b := by
  intro cs
  induction cs with
  | nil => intro b; exact ⟨Or.inl rfl, le_rfl⟩
  | cons x cs ih =>
    intro b
    simp only [List.foldl_cons]
    obtain ⟨h1, h2⟩ := ih (if err x < err b then x else b)
    split_ifs at h1 h2 ⊢ with hx
    · exact ⟨Or.inr (h1.elim (fun h => by rw [h]; simp) fun h => List.mem_cons_of_mem _ h), h2.trans hx.le⟩
    · exact ⟨h1.imp id fun h => List.mem_cons_of_mem _ h, h2⟩

private theorem calibrate_good (me st : List ℝ → ℝ) (r : Option (StereoCal ℝ V T) × Option T)
    (h : stereoCalibrate solve epi me st db = .ok r) : ∃ c, r.1 = some c ∧ GoodStereo solve db c := by
  unfold stereoCalibrate at h
  simp only [bind, Except.bind] at h
  split at h
  · cases h
  · rename_i cals hc
    cases h
    obtain ⟨⟨rest, hr⟩, hg⟩ := steps_good solve epi db me st 4 db cals (List.Sublist.refl _) hc
    subst hr
    obtain ⟨h1, h2⟩ := best_fold StereoCal.error rest ⟨(solve db).1, (solve db).2, db⟩
    refine ⟨_, rfl, ?_⟩
    obtain ⟨g1, g2, g3⟩ := hg _ (List.mem_cons.2 h1)
    exact ⟨g1, g2, g3, h2⟩

private theorem steps_ok (hs : ∀ t, 0 < deviation (db.map (epi t))) : ∀ (n : ℕ) (views : List V), views.length ≤ db.length →
    n * db.length + 40 ≤ 5 * views.length → ∃ cals, stereoIterations solve epi mean deviation db n views = .ok cals := by
  intro n
  induction n with
  | zero =>
    intro views _ h8
    unfold stereoIterations
    rw [if_neg (by omega)]
    exact ⟨_, rfl⟩
  | succ m ih =>
    intro views hl h8
    unfold stereoIterations
    rw [if_neg (by rw [add_mul] at h8; omega)]
    simp only
    split_ifs with hc
    · have hf := few_far (db.map (epi (solve views).2)) (hs _)
      have hk := kept_many (fun e => decide (e < mean (db.map (epi (solve views).2)) + 2 * deviation (db.map (epi (solve views).2))))
        views (db.map (epi (solve views).2)) (by simpa using hl)
      rw [List.length_map] at hf
      obtain ⟨cals, hcals⟩ := ih (((views.zip (db.map (epi (solve views).2))).filter fun x =>
        decide (x.2 < mean (db.map (epi (solve views).2)) + 2 * deviation (db.map (epi (solve views).2)))).map Prod.fst)
        ((kept_sub _ _ _).length_le.trans hl) (by rw [add_mul] at h8; omega)
      rw [hcals]
      exact ⟨_, rfl⟩
    · exact ⟨_, rfl⟩

end

/-- C274: if a stereo calibration ends without error, it is computed from at least eight pairs that differ from each other, and its error is at most
that of the calibration from all different pairs. -/
theorem C274_written {V T : Type} (params : V → List ℝ) (solve : List V → ℝ × T) (found : T → V → Option ℝ) (common : List V)
    (r : Option (StereoCal ℝ V T) × Option T) (h : stereoFromJson params solve found mean deviation common = .ok r) :
    ∃ used c, r.1 = some c ∧ DistinctPairs params common used ∧ GoodStereo solve used c := by
  unfold stereoFromJson at h
  split at h
  · cases h
  · obtain ⟨c, h1, h2⟩ := calibrate_good solve _ _ _ _ r h
    exact ⟨_, c, h1, chosen_distinct params _, h2⟩

/-- C274 if 40 different pairs are left of those seen by both cameras: whatever the solver and the errors are, a calibration is found unless the
errors of all pairs are equal. -/
theorem C274_forty_partial {V T : Type} (params : V → List ℝ) (solve : List V → ℝ × T) (found : T → V → Option ℝ) (common : List V) :
    ∃ used, DistinctPairs params common used ∧ (40 ≤ used.length →
      (∀ t, ∃ v ∈ used, ∃ w ∈ used, pairCost found t v ≠ pairCost found t w) →
      ∃ c t, stereoFromJson params solve found mean deviation common = .ok (some c, t) ∧ GoodStereo solve used c) := by
  refine ⟨_, chosen_distinct params common, fun h40 hd => ?_⟩
  cases common with
  | nil => simp [chooseViews] at h40
  | cons d ds =>
    obtain ⟨cals, hc⟩ := steps_ok solve (pairError found) (chooseViews params (d :: ds) [])
      (fun t => spread _ _ (by
        obtain ⟨v, hv, w, hw, hne⟩ := hd t
        exact ⟨v, hv, w, hw, by rw [cost_eq, cost_eq]; exact hne⟩)) 4 (chooseViews params (d :: ds) []) le_rfl (by omega)
    have hok : stereoCalibrate solve (pairError found) mean deviation (chooseViews params (d :: ds) [])
        = .ok (bestOf StereoCal.error cals, cals.getLast?.map StereoCal.pose) := by
      simp only [stereoCalibrate, hc, bind, Except.bind]
    obtain ⟨c, h1, h2⟩ := calibrate_good solve _ _ _ _ _ hok
    simp only at h1
    exact ⟨c, _, by rw [stereoFromJson, hok, h1], h2⟩

/-- C274 if the first calibration is good: eight different pairs are enough, and all are used. -/
theorem C274_good_first_partial {V T : Type} (params : V → List ℝ) (solve : List V → ℝ × T) (found : T → V → Option ℝ) (common : List V)
    (hd : common.Pairwise fun a b => 12 / 100 < pairDistance (params b) (params a)) (h8 : 8 ≤ common.length)
    (he : (solve common).1 ≤ 6 / 10) :
    ∃ c t, stereoFromJson params solve found mean deviation common = .ok (some c, some t) ∧ c.views = common ∧
      (c.error, c.pose) = solve common ∧ t = c.pose := by
  have hu := all_chosen params common hd
  cases common with
  | nil => simp at h8
  | cons d ds =>
    refine ⟨⟨(solve (d :: ds)).1, (solve (d :: ds)).2, d :: ds⟩, (solve (d :: ds)).2, ?_, rfl, rfl, rfl⟩
    rw [stereoFromJson, hu, stereoCalibrate, stereoIterations, if_neg (not_lt.2 h8)]
    simp only [if_neg (not_lt.2 he)]
    rfl

/-- Fewer than eight different pairs are never enough. -/
theorem C274_few {V T : Type} (params : V → List ℝ) (solve : List V → ℝ × T) (found : T → V → Option ℝ) (common : List V) (h8 : common.length < 8) :
    ∃ e, stereoFromJson params solve found mean deviation common = .error e := by
  cases h : stereoFromJson params solve found mean deviation common with
  | error e => exact ⟨e, rfl⟩
  | ok r =>
    obtain ⟨used, c, -, hu, hg⟩ := C274_written params solve found common r h
    have := hg.enough
    have := hg.some_of.length_le
    have := hu.some_of.length_le
    omega

/-- However many pairs there are: if the error of the first calibration is above 0.6 and the pattern is found again in no image, no
calibration is kept, because no error is below the average. -/
theorem C274_undetected {V T : Type} (params : V → List ℝ) (solve : List V → ℝ × T) (common : List V) (hne : common ≠ [])
    (he : ∀ used, 6 / 10 < (solve used).1) :
    stereoFromJson params solve (fun _ _ => none) mean deviation common = .error .quit := by
  obtain ⟨d, ds, rfl⟩ := List.exists_cons_of_ne_nil hne
  rw [stereoFromJson, stereoCalibrate, stereoIterations]
  split_ifs with h8
  · rfl
  · have hz : ∀ (vs : List V) (u : List V), ((vs.zip (u.map (pairError (fun _ _ => none) (solve u).2))).filter fun x : V × ℝ =>
        decide (x.2 < mean (u.map (pairError (fun (_ : T) (_ : V) => none) (solve u).2)) +
          2 * deviation (u.map (pairError (fun (_ : T) (_ : V) => none) (solve u).2)))) = [] := by
      intro vs u
      rw [List.filter_eq_nil_iff]
      rintro ⟨v, e⟩ hx
      have hm := (List.of_mem_zip hx).2
      simp only [pairError, List.mem_map] at hm
      obtain ⟨w, hw, rfl⟩ := hm
      have hl : (0 : ℝ) < u.length := by exact_mod_cast List.length_pos_of_mem hw
      have hmean : mean (u.map fun _ => (1000 : ℝ)) = 1000 := by
        simp only [mean, List.map_const', List.sum_replicate, List.length_replicate, nsmul_eq_mul]; field_simp
      have hdev : deviation (u.map fun _ => (1000 : ℝ)) = 0 := by
        rw [deviation, variance, hmean]; simp
      have hp : pairError (fun (_ : T) (_ : V) => (none : Option ℝ)) (solve u).2 = fun _ => 1000 := rfl
      simp only [decide_eq_true_eq, not_lt]
      rw [hp, hmean, hdev]
      norm_num
    simp only [if_pos (he _), hz, List.map_nil]
    rw [stereoIterations]
    rfl

/-- Eight pairs, of which one has an error of one pixel. -/
private theorem eight_removed : mean ((List.range 8).map (pairError (fun (_ : ℕ) (v : ℕ) => some (if v = 7 then (1 : ℝ) else 0)) 0)) = 1 / 8 ∧
    variance ((List.range 8).map (pairError (fun (_ : ℕ) (v : ℕ) => some (if v = 7 then (1 : ℝ) else 0)) 0)) = 7 / 64 := by
  simp [mean, variance, List.range_succ, pairError]
  norm_num

/-- Eight different pairs and an error of 0.7: one pair is removed, and with seven left the program gives up, although the calibration from
all eight has been computed. -/
theorem C274_eight_false : ¬ EightPairsAreEnough := by
  intro h
  have hd : (List.range 8).Pairwise fun a b : ℕ => 12 / 100 < pairDistance [(b : ℝ)] [(a : ℝ)] := by
    rw [List.pairwise_iff_getElem]; intro i j hi hj hij
    simp only [List.getElem_range, pairDistance, add_zero]
    rw [abs_of_nonneg (by rw [sub_nonneg]; exact_mod_cast hij.le)]
    have : (i : ℝ) + 1 ≤ j := by exact_mod_cast hij
    linarith
  obtain ⟨c, t, hc⟩ := h ℕ ℕ (fun v => [(v : ℝ)]) (fun _ => (7 / 10, 0)) (fun _ v => some (if v = 7 then (1 : ℝ) else 0)) (List.range 8) hd (by simp)
  have hf : ∀ l : List ℕ, l ≠ [] → stereoFromJson (fun v : ℕ => [(v : ℝ)]) (fun _ => ((7 / 10 : ℝ), 0))
      (fun (_ : ℕ) v => some (if v = 7 then (1 : ℝ) else 0)) mean deviation l = stereoCalibrate (fun _ => ((7 / 10 : ℝ), 0))
      (pairError fun (_ : ℕ) v => some (if v = 7 then (1 : ℝ) else 0)) mean deviation (chooseViews (fun v : ℕ => [(v : ℝ)]) l []) := by
    intro l hl; obtain ⟨d, ds, rfl⟩ := List.exists_cons_of_ne_nil hl; rfl
  rw [hf _ (by simp), all_chosen _ _ hd, stereoCalibrate, stereoIterations, if_neg (by simp)] at hc
  obtain ⟨hm, hv⟩ := eight_removed
  have hs : deviation ((List.range 8).map (pairError (fun (_ : ℕ) (v : ℕ) => some (if v = 7 then (1 : ℝ) else 0)) 0)) ≤ 3 / 8 := by
    rw [deviation, hv, Real.sqrt_le_left (by norm_num)]; norm_num
  have hs0 := Real.sqrt_nonneg (variance ((List.range 8).map (pairError (fun (_ : ℕ) (v : ℕ) => some (if v = 7 then (1 : ℝ) else 0)) 0)))
  change 0 ≤ deviation _ at hs0
  simp only [hm] at hc
  rw [if_pos (by norm_num)] at hc
  have hlen : ∀ x : ℝ, 0 ≤ x → x ≤ 3 / 8 → ((((List.range 8).zip ((List.range 8).map (pairError (fun (_ : ℕ) (v : ℕ) => some (if v = 7 then (1 : ℝ) else 0)) 0))).filter
      fun y => decide (y.2 < 1 / 8 + 2 * x)).map Prod.fst).length < 8 := by
    intro x h0 h1
    rw [List.length_map]
    refine lt_of_lt_of_eq (List.length_filter_lt_length_iff_exists.2 ⟨((7 : ℕ), (1 : ℝ)), ?_, ?_⟩) (by simp)
    · simp [List.range_succ, pairError]
    · simp only [decide_eq_true_eq, not_lt]; linarith
  rw [stereoIterations, if_pos (hlen _ hs0 hs)] at hc
  cases hc

/-- Not vacuous: 50 pairs of increasing error; the solver is never satisfied. -/
example : (∀ t : ℕ, ∃ v ∈ List.range 50, ∃ w ∈ List.range 50, pairCost (fun (_ : ℕ) (v : ℕ) => some (v : ℝ)) t v ≠ pairCost (fun (_ : ℕ) (v : ℕ) => some (v : ℝ)) t w) ∧
    40 ≤ (List.range 50).length :=
  ⟨fun _ => ⟨0, by simp, 1, by simp, by simp [pairCost]⟩, by simp⟩

end Oplab.Props
