import Verif.Spec.TempFiles
import Mathlib.Tactic

/-! # C249: temporary files of the computation of attenuation parameters -/

namespace Oplab.Props
open Oplab Oplab.Spec

variable {F : Type} [DecidableEq F]

private theorem mem_make (locked : F → Bool) (fs : List F) (g f : F) :
    f ∈ tempApply locked fs (.make g) ↔ f ∈ fs ∨ f = g := by
  simp only [tempApply]
  split_ifs with h
  · exact ⟨Or.inl, fun h' => h'.elim id (fun e => e ▸ h)⟩
  · simp

private theorem mem_drop (locked : F → Bool) (fs : List F) (g f : F) :
    f ∈ tempApply locked fs (.drop g) ↔ f ∈ fs ∧ (f ≠ g ∨ locked g = true) := by
  simp only [tempApply]
  split_ifs with h
  · simp [h]
  · simp [h]

private theorem stacks_iff (s : String) : stacking s = true ↔ s ∈ ["mean_trimmed", "median", "ransac_mean"] := by
  simp [stacking, or_assoc]

omit [DecidableEq F] in
/-- The steps of a stacking bin. -/
private theorem acts_stack {r : TempRun F} {b count : ℕ} (hc : r.counts[b]? = some count) (h10 : 10 ≤ count)
    (hs : r.smoothing ∈ ["mean_trimmed", "median", "ransac_mean"]) :
    binActs r b = [.work, .make (r.binFile b)] ++ List.replicate (min count r.maxBin) .work ++
      [.work, .drop (r.binFile b), .work, .work] := by
  have hne : r.smoothing ≠ "mean" := by
    intro e
    rw [e] at hs
    revert hs
    decide
  have hu : binUsed r count = min count r.maxBin := by unfold binUsed; split_ifs <;> omega
  simp only [binActs, hc, if_neg (show ¬ count < 10 by omega), if_neg hne, if_pos ((stacks_iff _).mpr hs), hu]

omit [DecidableEq F] in
/-- Steps of other bins do nothing to files. -/
private theorem acts_other {r : TempRun F} {b : ℕ}
    (h : ¬ ∃ count, r.counts[b]? = some count ∧ 10 ≤ count ∧ r.smoothing ∈ ["mean_trimmed", "median", "ransac_mean"]) :
    ∀ a ∈ binActs r b, a = .work ∨ a = .raise := by
  unfold binActs
  cases hc : r.counts[b]? with
  | none => simp
  | some count =>
    have h' : ¬ (10 ≤ count ∧ r.smoothing ∈ ["mean_trimmed", "median", "ransac_mean"]) := fun hh => h ⟨count, hc, hh⟩
    simp only
    split_ifs with h1 h2 h3
    · simp
    · simp
    · exact absurd ⟨by omega, (stacks_iff _).mp h3⟩ h'
    · simp

omit [DecidableEq F] in
/-- Where the steps of a stacking bin are. -/
private theorem stack_at (f : F) (n p : ℕ) :
    ([.work, .make f] ++ List.replicate n .work ++ [.work, .drop f, .work, .work] : List (TempAct F))[p]? =
      if p = 1 then some (.make f) else if p = n + 3 then some (.drop f) else if p < n + 6 then some .work else none := by
  rcases Nat.lt_or_ge p 2 with h | h
  · interval_cases p
    · simp
    · simp
  · obtain ⟨q, rfl⟩ : ∃ q, p = q + 2 := ⟨p - 2, by omega⟩
    simp only [List.cons_append, List.nil_append, List.getElem?_cons_succ]
    rcases Nat.lt_or_ge q n with hq | hq
    · rw [List.getElem?_append_left (by simpa using hq), List.getElem?_replicate, if_pos hq, if_neg (by omega), if_neg (by omega),
        if_pos (by omega)]
    · rw [List.getElem?_append_right (by simpa using hq), List.length_replicate]
      obtain ⟨k, rfl⟩ : ∃ k, q = n + k := ⟨q - n, by omega⟩
      rw [Nat.add_sub_cancel_left]
      rcases k with _ | _ | _ | _ | k
      · simp
      · simp
      · simp
      · simp
      · simp

private theorem bins_inv {r : TempRun F} {fs : List F} (hn : FreshNames r fs) (order : List ℕ) (f : F) :
    f ∈ (tempBins r fs order).2 ↔ f ∈ fs ∨ f = r.imagesFile ∨ f = r.distancesFile ∨
      ∃ b, f = r.binFile b ∧ (InUse r b ((tempBins r fs order).1 b) ∨
        (r.locked f = true ∧ ∃ count, r.counts[b]? = some count ∧ 10 ≤ count ∧
          r.smoothing ∈ ["mean_trimmed", "median", "ransac_mean"] ∧ 2 ≤ (tempBins r fs order).1 b)) := by
  unfold tempBins
  induction order using List.reverseRecOn generalizing f with
  | nil =>
    have hI : ∀ b, ¬ InUse r b 0 := by
      rintro b ⟨_, _, _, _, h, _⟩
      omega
    simp only [List.foldl_nil, tempFold, tempBefore, List.foldl_cons, mem_make, hI, false_or]
    constructor
    · rintro ((h | h) | h)
      · exact Or.inl h
      · exact Or.inr (Or.inl h)
      · exact Or.inr (Or.inr (Or.inl h))
    · rintro (h | h | h | ⟨b, -, -, _, _, _, _, h⟩)
      · exact Or.inl (Or.inl h)
      · exact Or.inl (Or.inr h)
      · exact Or.inr h
      · omega
  | append_singleton order c ih =>
    rw [List.foldl_append, List.foldl_cons, List.foldl_nil]
    generalize List.foldl (binStep r) (fun _ => 0, tempFold r fs (tempBefore r)) order = s at ih
    obtain ⟨pc, files⟩ := s
    dsimp only at ih
    by_cases hst : ∃ count, r.counts[c]? = some count ∧ 10 ≤ count ∧ r.smoothing ∈ ["mean_trimmed", "median", "ransac_mean"]
    · obtain ⟨count, hc, h10, hs⟩ := hst
      have hU : ∀ p, InUse r c p ↔ 2 ≤ p ∧ p ≤ min count r.maxBin + 3 := by
        intro p
        constructor
        · rintro ⟨count', hc', _, _, h1, h2⟩
          rw [hc] at hc'
          cases hc'
          exact ⟨h1, h2⟩
        · rintro ⟨h1, h2⟩
          exact ⟨count, hc, h10, hs, h1, h2⟩
      have hL : ∀ p, (∃ count, r.counts[c]? = some count ∧ 10 ≤ count ∧
          r.smoothing ∈ ["mean_trimmed", "median", "ransac_mean"] ∧ 2 ≤ p) ↔ 2 ≤ p :=
        fun p => ⟨fun ⟨_, _, _, _, h⟩ => h, fun h => ⟨count, hc, h10, hs, h⟩⟩
      have hcases : ∀ (pc : ℕ → ℕ) (f : F), (∃ b, f = r.binFile b ∧ (InUse r b (pc b) ∨
          (r.locked f = true ∧ ∃ count, r.counts[b]? = some count ∧ 10 ≤ count ∧
          r.smoothing ∈ ["mean_trimmed", "median", "ransac_mean"] ∧ 2 ≤ pc b))) ↔
          (f = r.binFile c ∧ 2 ≤ pc c ∧ (pc c ≤ min count r.maxBin + 3 ∨ r.locked f = true)) ∨
          (∃ b, b ≠ c ∧ f = r.binFile b ∧ (InUse r b (pc b) ∨
          (r.locked f = true ∧ ∃ count, r.counts[b]? = some count ∧ 10 ≤ count ∧
          r.smoothing ∈ ["mean_trimmed", "median", "ransac_mean"] ∧ 2 ≤ pc b))) := by
        intro pc f
        constructor
        · rintro ⟨b, hb, h⟩
          by_cases hbc : b = c
          · subst hbc
            rw [hU, hL] at h
            left
            refine ⟨hb, ?_⟩
            tauto
          · exact Or.inr ⟨b, hbc, hb, h⟩
        · rintro (⟨hb, h⟩ | ⟨b, -, hb, h⟩)
          · refine ⟨c, hb, ?_⟩
            rw [hU, hL]
            tauto
          · exact ⟨b, hb, h⟩
      have hother : ∀ f, (∃ b, b ≠ c ∧ f = r.binFile b ∧ (InUse r b (Function.update pc c (pc c + 1) b) ∨
          (r.locked f = true ∧ ∃ count, r.counts[b]? = some count ∧ 10 ≤ count ∧
          r.smoothing ∈ ["mean_trimmed", "median", "ransac_mean"] ∧ 2 ≤ Function.update pc c (pc c + 1) b))) ↔
          (∃ b, b ≠ c ∧ f = r.binFile b ∧ (InUse r b (pc b) ∨
          (r.locked f = true ∧ ∃ count, r.counts[b]? = some count ∧ 10 ≤ count ∧
          r.smoothing ∈ ["mean_trimmed", "median", "ransac_mean"] ∧ 2 ≤ pc b))) := by
        intro f
        refine exists_congr fun b => and_congr_right fun hbc => ?_
        rw [Function.update_of_ne hbc]
      have hnot : ∀ f, f = r.binFile c → f ∉ fs ∧ f ≠ r.imagesFile ∧ f ≠ r.distancesFile ∧
          ¬ (∃ b, b ≠ c ∧ f = r.binFile b ∧ (InUse r b (pc b) ∨
          (r.locked f = true ∧ ∃ count, r.counts[b]? = some count ∧ 10 ≤ count ∧
          r.smoothing ∈ ["mean_trimmed", "median", "ransac_mean"] ∧ 2 ≤ pc b))) := by
        rintro f rfl
        refine ⟨hn.bins c, hn.imagesBin c, hn.distancesBin c, ?_⟩
        rintro ⟨b, hbc, hb, -⟩
        exact hbc (hn.binsDiffer _ _ hb).symm
      have hat := stack_at (r.binFile c) (min count r.maxBin) (pc c)
      rw [← acts_stack hc h10 hs] at hat
      have ih := ih f
      rw [hcases pc f] at ih
      have hN := hnot f
      simp only [binStep]
      rw [hcases]
      split_ifs at hat with h1 h2 h3
      · simp only [hat]
        rw [mem_make, hother, Function.update_self, ih]
        have : min count r.maxBin + 3 ≥ 2 := by omega
        constructor
        · rintro (h | h)
          · rcases h with h | h | h | ⟨-, h, -⟩ | h
            · exact Or.inl h
            · exact Or.inr (Or.inl h)
            · exact Or.inr (Or.inr (Or.inl h))
            · omega
            · exact Or.inr (Or.inr (Or.inr (Or.inr h)))
          · exact Or.inr (Or.inr (Or.inr (Or.inl ⟨h, by omega, Or.inl (by omega)⟩)))
        · rintro (h | h | h | ⟨h, -⟩ | h)
          · exact Or.inl (Or.inl h)
          · exact Or.inl (Or.inr (Or.inl h))
          · exact Or.inl (Or.inr (Or.inr (Or.inl h)))
          · exact Or.inr h
          · exact Or.inl (Or.inr (Or.inr (Or.inr (Or.inr h))))
      · simp only [hat]
        rw [mem_drop, hother, Function.update_self, ih]
        by_cases hf : f = r.binFile c
        · obtain ⟨n1, n2, n3, n4⟩ := hN hf
          constructor
          · rintro ⟨h | h | h | ⟨-, h, -⟩ | h, hk | hk⟩
            · exact absurd h n1
            · exact absurd h n1
            · exact absurd h n2
            · exact absurd h n2
            · exact absurd h n3
            · exact absurd h n3
            · exact absurd hf hk
            · exact Or.inr (Or.inr (Or.inr (Or.inl ⟨hf, by omega, Or.inr (hf ▸ hk)⟩)))
            · exact absurd h n4
            · exact absurd h n4
          · rintro (h | h | h | ⟨-, -, h | h⟩ | h)
            · exact absurd h n1
            · exact absurd h n2
            · exact absurd h n3
            · omega
            · exact ⟨Or.inr (Or.inr (Or.inr (Or.inl ⟨hf, by omega, Or.inr h⟩))), Or.inr (hf ▸ h)⟩
            · exact absurd h n4
        · simp only [hf, ne_eq, not_false_eq_true, true_or, and_true, false_and, false_or]
      · simp only [hat]
        rw [show tempApply r.locked files TempAct.work = files from rfl, hother, Function.update_self, ih]
        have : 2 ≤ pc c ∧ (pc c ≤ min count r.maxBin + 3 ∨ r.locked f = true) ↔
            2 ≤ pc c + 1 ∧ (pc c + 1 ≤ min count r.maxBin + 3 ∨ r.locked f = true) := by
          rw [show (2 ≤ pc c + 1) ↔ 2 ≤ pc c by omega]
          rw [show (pc c + 1 ≤ min count r.maxBin + 3) ↔ pc c ≤ min count r.maxBin + 3 by omega]
        rw [this]
      · simp only [hat]
        rw [ih]
    · have hact := acts_other hst
      have hI : ∀ p, ¬ InUse r c p := fun p ⟨count, h1, h2, h3, _⟩ => hst ⟨count, h1, h2, h3⟩
      have hI2 : ∀ p, ¬ ∃ count, r.counts[c]? = some count ∧ 10 ≤ count ∧
          r.smoothing ∈ ["mean_trimmed", "median", "ransac_mean"] ∧ 2 ≤ p := fun p ⟨count, h1, h2, h3, _⟩ => hst ⟨count, h1, h2, h3⟩
      simp only [binStep]
      cases hg : (binActs r c)[pc c]? with
      | none => exact ih f
      | some a =>
        rcases hact a (List.mem_of_getElem? hg) with rfl | rfl
        · simp only
          rw [show tempApply r.locked files TempAct.work = files from rfl, ih f]
          refine or_congr_right (or_congr_right (or_congr_right (exists_congr fun b => and_congr_right fun _ => ?_)))
          by_cases hb : b = c
          · subst hb
            rw [iff_false_intro (hI _), iff_false_intro (hI _), iff_false_intro (hI2 _), iff_false_intro (hI2 _)]
          · rw [Function.update_of_ne hb]
        · exact ih f

omit [DecidableEq F] in
private theorem done_of {r : TempRun F} {pc : ℕ → ℕ} (h : binsDone r pc = true) {b count : ℕ} (hc : r.counts[b]? = some count)
    (h10 : 10 ≤ count) (hs : r.smoothing ∈ ["mean_trimmed", "median", "ransac_mean"]) : pc b = min count r.maxBin + 6 := by
  have hb : b < r.counts.length := (List.getElem?_eq_some_iff.mp hc).1
  have := List.all_eq_true.mp h b (List.mem_range.mpr hb)
  rw [decide_eq_true_eq, acts_stack hc h10 hs] at this
  rw [this]
  simp

private theorem done_files {r : TempRun F} {fs : List F} (hn : FreshNames r fs) (hl : ∀ f, r.locked f = false) {order : List ℕ}
    (hd : binsDone r (tempBins r fs order).1 = true) (f : F) :
    f ∈ (tempBins r fs order).2 ↔ f ∈ fs ∨ f = r.imagesFile ∨ f = r.distancesFile := by
  rw [bins_inv hn]
  have : ¬ ∃ b, f = r.binFile b ∧ (InUse r b ((tempBins r fs order).1 b) ∨
        (r.locked f = true ∧ ∃ count, r.counts[b]? = some count ∧ 10 ≤ count ∧
          r.smoothing ∈ ["mean_trimmed", "median", "ransac_mean"] ∧ 2 ≤ (tempBins r fs order).1 b)) := by
    rintro ⟨b, -, ⟨count, hc, h10, hs, h1, h2⟩ | ⟨h, -⟩⟩
    · have := done_of hd hc h10 hs
      omega
    · rw [hl] at h
      cases h
  simp only [this, or_false]

/-- C249: while the bins are computed, in whatever order their processes take steps, the folder holds the files that were there, the two maps
and the stacking of those bins that have made theirs and have not yet removed it. -/
theorem C249_during {r : TempRun F} {fs : List F} (hn : FreshNames r fs) (hl : ∀ f, r.locked f = false) (order : List ℕ) (f : F) :
    f ∈ tempFiles r fs (.bins order) ↔
      f ∈ fs ∨ f = r.imagesFile ∨ f = r.distancesFile ∨ ∃ b, f = r.binFile b ∧ InUse r b ((tempBins r fs order).1 b) := by
  unfold tempFiles
  rw [bins_inv hn]
  simp only [hl, Bool.false_eq_true, false_and, or_false]

/-- C249: a run without errors leaves no temporary file, for every smoothing method and every order of steps of the processes: the folder holds
what it held before. -/
theorem C249_finished {r : TempRun F} {fs : List F} (hn : FreshNames r fs) (hl : ∀ f, r.locked f = false) {order : List ℕ}
    (hd : binsDone r (tempBins r fs order).1 = true) (f : F) : f ∈ tempFiles r fs (.finished order) ↔ f ∈ fs := by
  simp only [tempFiles, hd, if_true, tempFold, tempAfter, tempCleanup, List.cons_append, List.nil_append, List.foldl_cons, List.foldl_nil,
    mem_drop, show ∀ l : List F, tempApply r.locked l TempAct.work = l from fun _ => rfl, done_files hn hl hd f, hl, Bool.false_eq_true, or_false]
  constructor
  · rintro ⟨⟨⟨⟨h | h | h, h1⟩, h2⟩, -⟩, -⟩
    · exact h
    · exact absurd h h1
    · exact absurd h h2
  · intro h
    have h1 : f ≠ r.imagesFile := fun e => hn.images (e ▸ h)
    have h2 : f ≠ r.distancesFile := fun e => hn.distances (e ▸ h)
    exact ⟨⟨⟨⟨Or.inl h, h1⟩, h2⟩, h1⟩, h2⟩

/-- C249 (part of: no files are left however a run ends): a run that ends after the maps were removed leaves nothing; one that ends before,
after the bins, leaves the two maps. -/
theorem C249_after_partial {r : TempRun F} {fs : List F} (hn : FreshNames r fs) (hl : ∀ f, r.locked f = false) {order : List ℕ}
    (hd : binsDone r (tempBins r fs order).1 = true) (f : F) :
    (∀ k ≤ 3, f ∈ tempFiles r fs (.after order k) ↔ f ∈ fs ∨ f = r.imagesFile ∨ f = r.distancesFile) ∧
    (∀ k, 5 ≤ k → (f ∈ tempFiles r fs (.after order k) ↔ f ∈ fs)) := by
  have hw : ∀ l : List F, tempApply r.locked l TempAct.work = l := fun _ => rfl
  constructor
  · intro k hk
    interval_cases k <;>
    · simp only [tempFiles, hd, if_true, tempFold, tempAfter, List.take_zero, List.take_succ_cons, List.foldl_cons, List.foldl_nil, hw]
      exact done_files hn hl hd f
  · intro k hk
    obtain ⟨j, rfl⟩ : ∃ j, k = j + 5 := ⟨k - 5, by omega⟩
    have hfold : ∀ (j : ℕ) (l : List F), List.foldl (tempApply r.locked) l (List.take j [TempAct.work, TempAct.work]) = l := by
      intro j l
      rcases j with _ | _ | j <;> simp [hw]
    simp only [tempFiles, hd, if_true, tempFold, tempAfter, List.take_succ_cons, List.foldl_cons, hw, hfold, mem_drop, done_files hn hl hd f, hl,
      Bool.false_eq_true, or_false]
    constructor
    · rintro ⟨⟨h | h | h, h1⟩, h2⟩
      · exact h
      · exact absurd h h1
      · exact absurd h h2
    · intro h
      exact ⟨⟨Or.inl h, fun e => hn.images (e ▸ h)⟩, fun e => hn.distances (e ▸ h)⟩

/-- C249: however a run ends, and whatever may not be removed, no file that was in the folder before is removed. -/
theorem C249_kept {r : TempRun F} {fs : List F} (hn : FreshNames r fs) (e : TempEnd) {f : F} (h : f ∈ fs) : f ∈ tempFiles r fs e := by
  have h1 : f ≠ r.imagesFile := fun e => hn.images (e ▸ h)
  have h2 : f ≠ r.distancesFile := fun e => hn.distances (e ▸ h)
  have hfold : ∀ (l : List (TempAct F)) (fs' : List F), f ∈ fs' → (∀ g, TempAct.drop g ∈ l → f ≠ g) → f ∈ tempFold r fs' l := by
    intro l
    induction l with
    | nil => intro fs' h' _; exact h'
    | cons a l ih =>
      intro fs' h' hd
      refine ih _ ?_ (fun g hg => hd g (List.mem_cons_of_mem _ hg))
      cases a with
      | make g => exact (mem_make _ _ _ _).mpr (Or.inl h')
      | drop g => exact (mem_drop _ _ _ _).mpr ⟨h', Or.inl (hd g (List.mem_cons_self ..))⟩
      | work => exact h'
      | raise => exact h'
  have hb : ∀ order, f ∈ (tempBins r fs order).2 := fun order => (bins_inv hn order f).mpr (Or.inl h)
  cases e with
  | opening k => exact hfold _ _ h (fun g hg => absurd (List.mem_of_mem_take hg) (by simp [tempBefore]))
  | bins order => exact hb order
  | after order k =>
    simp only [tempFiles]
    split_ifs
    · refine hfold _ _ (hb order) (fun g hg => ?_)
      have := List.mem_of_mem_take hg
      simp only [tempAfter, List.mem_cons, reduceCtorEq, false_or, TempAct.drop.injEq, List.not_mem_nil, or_false] at this
      rcases this with rfl | rfl
      · exact h1
      · exact h2
    · exact hb order
  | finished order =>
    simp only [tempFiles]
    split_ifs
    · refine hfold _ _ (hb order) (fun g hg => ?_)
      simp only [tempAfter, tempCleanup, List.cons_append, List.nil_append, List.mem_cons, reduceCtorEq, false_or, TempAct.drop.injEq,
        List.not_mem_nil, or_false] at hg
      rcases hg with rfl | rfl | rfl | rfl
      · exact h1
      · exact h2
      · exact h1
      · exact h2
    · exact hb order

/-- C249: with a smoothing method that the program does not know, a bin with ten images is never completed, so no run finishes. -/
theorem C249_unknown {r : TempRun F} {fs : List F} (h : r.smoothing ∉ ["mean", "mean_trimmed", "median", "ransac_mean"]) {b count : ℕ}
    (hc : r.counts[b]? = some count) (h10 : 10 ≤ count) (order : List ℕ) : binsDone r (tempBins r fs order).1 = false := by
  have hacts : binActs r b = [.work, .raise] := by
    have hne : r.smoothing ≠ "mean" := fun e => h (by simp [e])
    have hns : stacking r.smoothing = false := by
      rw [Bool.eq_false_iff]
      intro hs
      exact h (List.mem_cons_of_mem _ ((stacks_iff _).mp hs))
    simp only [binActs, hc, if_neg (show ¬ count < 10 by omega), if_neg hne, hns, Bool.false_eq_true, if_false]
  have hpc : ((tempBins r fs order).1 b) ≤ 1 := by
    unfold tempBins
    induction order using List.reverseRecOn with
    | nil => simp
    | append_singleton order c ih =>
      rw [List.foldl_append, List.foldl_cons, List.foldl_nil]
      generalize List.foldl (binStep r) (fun _ => 0, tempFold r fs (tempBefore r)) order = s at ih
      obtain ⟨pc, files⟩ := s
      dsimp only at ih
      by_cases hbc : c = b
      · subst hbc
        simp only [binStep, hacts]
        have : pc c = 0 ∨ pc c = 1 := by omega
        rcases this with h0 | h0
        · simp [h0]
        · simp [h0]
      · simp only [binStep]
        split
        · exact ih
        · exact ih
        · simpa [Function.update_of_ne (Ne.symm hbc)] using ih
  rw [Bool.eq_false_iff]
  intro hd
  have := List.all_eq_true.mp hd b (List.mem_range.mpr (List.getElem?_eq_some_iff.mp hc).1)
  rw [decide_eq_true_eq, hacts] at this
  simp at this
  omega

/-- Two bins of ten and three images, with the median. -/
private def sampleRun : TempRun ℕ := ⟨"median", [10, 3], 100, 0, 1, (· + 2), fun _ => false⟩

private theorem sample_fresh : FreshNames sampleRun [] :=
  ⟨by simp, by simp, by simp, by decide, fun b => by simp [sampleRun], fun b => by simp [sampleRun], fun a b h => by simpa [sampleRun] using h⟩

example : binsDone sampleRun (tempBins sampleRun [] (List.replicate 16 0)).1 = true := by decide

example : tempFiles sampleRun [] (.finished (List.replicate 16 0)) = [] := by decide

/-- C249: it is not so that a run leaves no files however it ends: one that fails while an image is loaded leaves the maps and the stack. -/
theorem C249_left_false : ¬ NoFilesLeft := by
  intro h
  have := (h sampleRun [] (.bins (List.replicate 5 0)) sample_fresh (fun _ => rfl) 0).mp (by decide)
  simp at this

/-- C249: it is not so that `cleanup`, if it were called after a failure, removes all files: the corrector does not know of those that the
processes of the bins made. -/
theorem C249_cleanup_false : ¬ CleanupRemoves := by
  intro h
  have := (h sampleRun [] (.bins (List.replicate 5 0)) sample_fresh (fun _ => rfl) 2).mp (by decide)
  simp at this

/-- C249: a stack holds the images of the list in its order, resized if their size differs, and is made exactly if every image is given and can
be loaded. -/
theorem C249_stack {P I : Type} (load : P → Res I) (fits : I → Bool) (resize : I → I) (ps : List (Option P)) (out : List I) :
    stackAll load fits resize ps = .ok out ↔
      List.Forall₂ (fun p i => ∃ q im, p = some q ∧ load q = .ok im ∧ i = if fits im then im else resize im) ps out := by
  induction ps generalizing out with
  | nil =>
    simp only [stackAll, List.forall₂_nil_left_iff, Except.ok.injEq]
    exact eq_comm
  | cons p ps ih =>
    rw [List.forall₂_cons_left_iff]
    have hone : ∀ i, stackOne load fits resize p = .ok i ↔
        ∃ q im, p = some q ∧ load q = .ok im ∧ i = if fits im then im else resize im := by
      intro i
      cases p with
      | none => simp [stackOne]
      | some q =>
        cases hq : load q with
        | error e => simp [stackOne, hq, bind, Except.bind]
        | ok im =>
          simp only [stackOne, hq, bind, Except.bind, Except.ok.injEq, Option.some.injEq]
          constructor
          · intro e
            exact ⟨q, im, rfl, hq, e.symm⟩
          · rintro ⟨q', im', rfl, h1, h2⟩
            rw [hq] at h1
            cases h1
            exact h2.symm
    constructor
    · intro h
      cases h1 : stackOne load fits resize p with
      | error e => rw [stackAll, h1] at h; cases h
      | ok i =>
        cases h2 : stackAll load fits resize ps with
        | error e => rw [stackAll, h1, h2] at h; cases h
        | ok is =>
          rw [stackAll, h1, h2] at h
          cases h
          exact ⟨i, is, (hone i).mp h1, (ih is).mp h2, rfl⟩
    · rintro ⟨i, is, h1, h2, rfl⟩
      rw [stackAll, (hone i).mpr h1, (ih is).mpr h2]
      rfl

example : stackAll (fun n : ℕ => (.ok (n * 10) : Res ℕ)) (· < 15) (fun _ => 0) [some 1, some 2] = .ok [10, 0] := rfl
example : stackAll (fun n : ℕ => (.ok (n * 10) : Res ℕ)) (· < 15) (fun _ => 0) [some 1, none] = .error .quit := rfl

end Oplab.Props
