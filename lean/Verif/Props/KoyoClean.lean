import Verif.Spec.KoyoClean
import Verif.Lemmas.Seek

/-!
C208: missing values and wrong positions in the log of the ship.
-/

namespace Oplab.Props
open Oplab Oplab.Spec Oplab.Seek

section
variable {K : Type} [Field K] [LinearOrder K]

private theorem fill_len (ts vs : List K) (i : ℕ) : (fillStep ts vs i).length = vs.length := by
  unfold fillStep
  split
  · split <;> simp
  · rfl

private theorem fill_other (ts vs : List K) (i j : ℕ) (h : j ≠ i) : (fillStep ts vs i)[j]? = vs[j]? := by
  unfold fillStep
  split
  · split
    · rw [List.getElem?_set_ne (Ne.symm h)]
    · rfl
  · rfl

private theorem fill_valid (ts vs : List K) (i : ℕ) (h : vs[i]? ≠ some 0) : fillStep ts vs i = vs := by
  unfold fillStep
  rw [if_neg h]

private def upto (ts vs : List K) (k : ℕ) : List K := (List.range k).foldl (fillStep ts) vs

private theorem upto_succ (ts vs : List K) (k : ℕ) : upto ts vs (k + 1) = fillStep ts (upto ts vs k) k := by
  simp [upto, List.range_succ]

private theorem upto_len (ts vs : List K) (k : ℕ) : (upto ts vs k).length = vs.length := by
  induction k with
  | zero => rfl
  | succ k ih => rw [upto_succ, fill_len, ih]

private theorem upto_later (ts vs : List K) (k j : ℕ) (h : k ≤ j) : (upto ts vs k)[j]? = vs[j]? := by
  induction k with
  | zero => rfl
  | succ k ih => rw [upto_succ, fill_other _ _ _ _ (by omega), ih (by omega)]

private theorem upto_stable (ts vs : List K) (j k : ℕ) (h : j < k) : (upto ts vs k)[j]? = (upto ts vs (j + 1))[j]? := by
  induction k with
  | zero => omega
  | succ k ih =>
    by_cases e : j = k
    · rw [e]
    · rw [upto_succ, fill_other _ _ _ _ e, ih (by omega)]

/-- C208: valid values and the last value are left as they are. -/
theorem C208_valid (ts vs : List K) (i : ℕ) (h : vs[i]? ≠ some 0 ∨ vs.length ≤ i + 1) : (fillMissing ts vs)[i]? = vs[i]? := by
  show (upto ts vs (vs.length - 1))[i]? = _
  by_cases hi : vs.length - 1 ≤ i
  · exact upto_later ts vs _ i hi
  · have h' : vs[i]? ≠ some 0 := by
      rcases h with h | h
      · exact h
      · omega
    rw [upto_stable ts vs i _ (by omega), upto_succ, fill_valid _ _ _ (by rw [upto_later ts vs i i (le_refl _)]; exact h'),
      upto_later ts vs i i (le_refl _)]

/-- C208: a missing value becomes the value on the line from the record before, as it is filled, to the record after, as it
is in the log. -/
theorem C208_filled (ts vs : List K) (i : ℕ) (hi : i + 2 < vs.length) (t tl tu vl vu : K) (ht : ts[i + 1]? = some t)
    (htl : ts[i]? = some tl) (htu : ts[i + 2]? = some tu) (hv : vs[i + 1]? = some 0) (hvl : (fillMissing ts vs)[i]? = some vl)
    (hvu : vs[i + 2]? = some vu) (hne : tl ≠ tu) :
    ∃ v, (fillMissing ts vs)[i + 1]? = some v ∧ Collinear3 tl vl tu vu t v := by
  change (upto ts vs (vs.length - 1))[i]? = some vl at hvl
  show ∃ v, (upto ts vs (vs.length - 1))[i + 1]? = some v ∧ _
  rw [upto_stable ts vs i _ (by omega), ← upto_stable ts vs i (i + 1) (by omega)] at hvl
  rw [upto_stable ts vs (i + 1) _ (by omega), upto_succ]
  have e0 : (upto ts vs (i + 1))[i + 1]? = some 0 := by rw [upto_later ts vs _ _ (le_refl _), hv]
  have e1 : (upto ts vs (i + 1))[i + 1 + 1]? = some vu := by rw [upto_later ts vs _ _ (by omega)]; exact hvu
  have hc : ((i + 1 : ℕ) : ℤ) - 1 = (i : ℤ) := by push_cast; ring
  have htu' : ts[i + 1 + 1]? = some tu := htu
  refine ⟨interpolate t tl tu vl vu, ?_, ?_⟩
  · unfold fillStep
    rw [if_pos e0, hc, ht, pyGet_nat _ _ _ htl, htu', pyGet_nat _ _ _ hvl, e1]
    simp only
    rw [List.getElem?_set_self (by rw [upto_len]; omega)]
  · unfold Collinear3 interpolate
    rw [if_neg (Ne.symm hne)]
    have : tu - tl ≠ 0 := sub_ne_zero.mpr (Ne.symm hne)
    field_simp
    ring

/-- C208: a missing first value becomes the value on the line through the last and the second record. -/
theorem C208_first (ts vs : List K) (h2 : 2 ≤ vs.length) (t0 t1 tn v1 vn : K) (ht0 : ts[0]? = some t0)
    (ht1 : ts[1]? = some t1) (htn : ts.getLast? = some tn) (hv0 : vs[0]? = some 0) (hv1 : vs[1]? = some v1) (hvn : vs.getLast? = some vn)
    (hne : tn ≠ t1) : ∃ v, (fillMissing ts vs)[0]? = some v ∧ Collinear3 tn vn t1 v1 t0 v := by
  show ∃ v, (upto ts vs (vs.length - 1))[0]? = some v ∧ _
  rw [upto_stable ts vs 0 _ (by omega), upto_succ]
  have e0 : upto ts vs 0 = vs := rfl
  rw [e0]
  refine ⟨interpolate t0 tn t1 vn v1, ?_, ?_⟩
  · unfold fillStep
    have hc : ((0 : ℕ) : ℤ) - 1 = -1 := by norm_num
    rw [if_pos hv0, hc, ht0, pyGet_last _ _ htn, pyGet_last _ _ hvn]
    simp only [Nat.zero_add, ht1, hv1]
    rw [List.getElem?_set_self (by omega)]
  · unfold Collinear3 interpolate
    rw [if_neg (Ne.symm hne)]
    have : t1 - tn ≠ 0 := sub_ne_zero.mpr (Ne.symm hne)
    field_simp
    ring

/-- C208: a single missing value between two valid records is interpolated between them. -/
theorem C208_single_partial (ts vs : List K) (i : ℕ) (hinc : ts.Pairwise (· < ·)) (hn : NextValid vs i (i + 2))
    (ta tb va vb t : K) (hta : ts[i]? = some ta) (htb : ts[i + 2]? = some tb) (hva : vs[i]? = some va) (hvb : vs[i + 2]? = some vb)
    (ht : ts[i + 1]? = some t) : ∃ v, (fillMissing ts vs)[i + 1]? = some v ∧ Collinear3 ta va tb vb t v := by
  obtain ⟨_, ⟨v, hv, hv0⟩, ⟨w, hw, _⟩, hz⟩ := hn
  have hb : i + 2 < vs.length := by
    by_contra hc
    rw [List.getElem?_eq_none (by omega)] at hw
    simp at hw
  have hne : ta ≠ tb := by
    obtain ⟨h1, e1⟩ := List.getElem?_eq_some_iff.mp hta
    obtain ⟨h2, e2⟩ := List.getElem?_eq_some_iff.mp htb
    have := List.pairwise_iff_getElem.mp hinc i (i + 2) h1 h2 (by omega)
    rw [e1, e2] at this
    exact ne_of_lt this
  refine C208_filled ts vs i hb t ta tb va vb ht hta htb (hz (i + 1) (by omega) (by omega)) ?_ hvb hne
  rw [C208_valid ts vs i (Or.inl ?_), hva]
  rw [hv]
  simpa using hv0

end

/-- C208: not in general: the first of two missing values is taken half way towards zero. -/
theorem C208_between_false : ¬ FilledBetween := by
  intro h
  have := h [0, 1, 2, 3] [10, 0, 0, 10] 0 3 1 0 3 10 10 1 5 rfl (by decide +kernel)
    ⟨by omega, ⟨10, rfl, by norm_num⟩, ⟨10, rfl, by norm_num⟩, fun k h1 h2 => by
      have : k = 1 ∨ k = 2 := by omega
      rcases this with rfl | rfl <;> rfl⟩ (by omega) (by omega) rfl rfl rfl rfl rfl (by decide +kernel)
  norm_num [Collinear3] at this

/-- C208: nor are there always values: a missing last one remains, with consequences for those before it. -/
theorem C208_missing_false : ¬ NoneMissing := by
  intro h
  have := h [0, 1, 2] [10, 10, 0] 0 1 rfl (by decide +kernel) (by decide +kernel)
    ⟨by omega, ⟨10, rfl, by norm_num⟩, ⟨10, rfl, by norm_num⟩, fun k h1 h2 => by omega⟩ 0 (by decide +kernel)
  exact lt_irrefl _ this

/-! ## Positions -/

private theorem fast_iff (a b : ShipPos) (h : a.t ≤ b.t) : tooFast a b = true ↔ ¬ Reachable a b := by
  classical
  unfold tooFast Reachable
  have hm : 111139 * Real.sqrt ((b.lat - a.lat) ^ 2 + (b.lon - a.lon) ^ 2) = metres a b := rfl
  simp only [hm]
  by_cases e : b.t - a.t = 0
  · rw [if_pos e, e]
    simp
  · rw [if_neg e]
    have : 0 < b.t - a.t := lt_of_le_of_ne (by linarith) (Ne.symm e)
    rw [decide_eq_true_iff, lt_div_iff₀ this, not_le]

private theorem loop_sub (cur : ShipPos) (l : List ShipPos) : (speedLoop cur l).Sublist l := by
  induction l generalizing cur with
  | nil => exact List.Sublist.refl _
  | cons p rest ih =>
    unfold speedLoop
    split
    · exact (ih cur).cons _
    · exact (ih p).cons_cons _

private theorem loop_chain (cur : ShipPos) (l : List ShipPos) (hs : (cur :: l).Pairwise (fun a b => a.t ≤ b.t)) :
    List.IsChain Reachable (cur :: speedLoop cur l) := by
  induction l generalizing cur with
  | nil => exact List.isChain_singleton _
  | cons p rest ih =>
    have h1 : cur.t ≤ p.t := (List.pairwise_cons.mp hs).1 p (by simp)
    unfold speedLoop
    by_cases hc : tooFast cur p = true
    · rw [if_pos hc]
      refine ih cur (List.pairwise_cons.mpr ⟨fun a ha => (List.pairwise_cons.mp hs).1 a (by simp [ha]), ?_⟩)
      exact (List.pairwise_cons.mp (List.pairwise_cons.mp hs).2).2
    · rw [if_neg hc]
      refine List.isChain_cons_cons.mpr ⟨?_, ih p (List.pairwise_cons.mp hs).2⟩
      by_contra hr
      exact hc ((fast_iff cur p h1).mpr hr)

/-- C208: for records in order of time, those that remain are some of them, in their order, the first among them, and each can
be reached from the one before. -/
theorem C208_speed (p : ShipPos) (l : List ShipPos) (hs : (p :: l).Pairwise (fun a b => a.t ≤ b.t)) :
    ∃ out, filterBad (p :: l) = .ok (p :: out) ∧ out.Sublist l ∧ List.IsChain Reachable (p :: out) :=
  ⟨speedLoop p l, rfl, loop_sub p l, loop_chain p l hs⟩

/-- C208: nothing is removed from records each of which can be reached from the one before. -/
theorem C208_nothing (p : ShipPos) (l : List ShipPos) (hs : (p :: l).Pairwise (fun a b => a.t ≤ b.t))
    (hr : List.IsChain Reachable (p :: l)) : filterBad (p :: l) = .ok (p :: l) := by
  show Except.ok (p :: speedLoop p l) = _
  congr 2
  induction l generalizing p with
  | nil => rfl
  | cons q rest ih =>
    have h1 : p.t ≤ q.t := (List.pairwise_cons.mp hs).1 q (by simp)
    have h2 := List.isChain_cons_cons.mp hr
    unfold speedLoop
    rw [if_neg (fun hc => (fast_iff p q h1).mp hc h2.1), ih q (List.pairwise_cons.mp hs).2 h2.2]

private theorem loop_right (right : ShipPos → Bool) (cur : ShipPos) (l : List ShipPos) (hs : (cur :: l).Pairwise (fun a b => a.t ≤ b.t))
    (hc : right cur = true)
    (h1 : ∀ a ∈ cur :: l, ∀ b ∈ cur :: l, a.t ≤ b.t → right a = true → right b = true → Reachable a b)
    (h2 : ∀ a ∈ cur :: l, ∀ b ∈ cur :: l, right a = true → right b = false → ¬ Reachable a b) : speedLoop cur l = l.filter right := by
  induction l generalizing cur with
  | nil => rfl
  | cons p rest ih =>
    have ht : cur.t ≤ p.t := (List.pairwise_cons.mp hs).1 p (by simp)
    have hs2 := (List.pairwise_cons.mp hs).2
    unfold speedLoop
    cases hp : right p with
    | true =>
      rw [if_neg (fun h => (fast_iff cur p ht).mp h (h1 cur (by simp) p (by simp) ht hc hp)), List.filter_cons_of_pos hp]
      congr 1
      exact ih p hs2 hp (fun a ha b hb => h1 a (List.mem_cons_of_mem _ ha) b (List.mem_cons_of_mem _ hb))
        (fun a ha b hb => h2 a (List.mem_cons_of_mem _ ha) b (List.mem_cons_of_mem _ hb))
    | false =>
      rw [if_pos ((fast_iff cur p ht).mpr (h2 cur (by simp) p (by simp) hc hp)), List.filter_cons_of_neg (by simp [hp])]
      have hm : ∀ a ∈ cur :: rest, a ∈ cur :: p :: rest := fun a ha => by
        rcases List.mem_cons.mp ha with h | h
        · exact List.mem_cons.mpr (Or.inl h)
        · exact List.mem_cons_of_mem _ (List.mem_cons_of_mem _ h)
      exact ih cur (List.pairwise_cons.mpr ⟨fun a ha => (List.pairwise_cons.mp hs).1 a (List.mem_cons_of_mem _ ha), (List.pairwise_cons.mp hs2).2⟩)
        hc (fun a ha b hb => h1 a (hm a ha) b (hm b hb)) (fun a ha b hb => h2 a (hm a ha) b (hm b hb))

/-- C208: exactly the right records remain, however many wrong ones follow each other, if the first record is right. -/
theorem C208_right_partial (p : ShipPos) (l : List ShipPos) (right : ShipPos → Bool) (hp : right p = true)
    (hs : (p :: l).Pairwise (fun a b => a.t ≤ b.t))
    (h1 : ∀ a ∈ p :: l, ∀ b ∈ p :: l, a.t ≤ b.t → right a = true → right b = true → Reachable a b)
    (h2 : ∀ a ∈ p :: l, ∀ b ∈ p :: l, right a = true → right b = false → ¬ Reachable a b) :
    filterBad (p :: l) = .ok ((p :: l).filter right) := by
  rw [List.filter_cons_of_pos hp]
  show Except.ok (p :: speedLoop p l) = _
  rw [loop_right right p l hs hp h1 h2]

private theorem far (t t' a b : ℝ) (hd : 20 * (t' - t) < 111139 * |b - a|) : ¬ Reachable ⟨t, a, 0⟩ ⟨t', b, 0⟩ := by
  unfold Reachable metres
  simp only [sub_zero, ne_eq, OfNat.ofNat_ne_zero, not_false_eq_true, zero_pow, add_zero, Real.sqrt_sq_eq_abs]
  linarith

/-- C208: a wrong first record removes all right ones. -/
theorem C208_right_false : ¬ RightRemain := by
  classical
  intro h
  have key := h [⟨0, 1, 0⟩, ⟨1, 0, 0⟩, ⟨2, 0, 0⟩] [⟨0, 1, 0⟩] (fun p => decide (p.lat = 0))
    (by simp)
    (by
      intro a ha b hb ht h1 h2
      have e1 := of_decide_eq_true h1
      have e2 := of_decide_eq_true h2
      have l0 : a.lon = 0 := by simp at ha; rcases ha with rfl | rfl | rfl <;> rfl
      have l1 : b.lon = 0 := by simp at hb; rcases hb with rfl | rfl | rfl <;> rfl
      unfold Reachable metres
      rw [e1, e2, l0, l1]
      simp
      exact ht)
    (by
      intro a ha b hb hne hr
      simp only [List.mem_cons, List.not_mem_nil, or_false] at ha hb
      rcases ha with rfl | rfl | rfl <;> rcases hb with rfl | rfl | rfl <;>
        first
          | exact hne rfl
          | (simp at hne; done)
          | exact far _ _ _ _ (by norm_num) hr)
    (by
      have f1 : tooFast ⟨0, 1, 0⟩ ⟨1, 0, 0⟩ = true := (fast_iff _ _ (by norm_num)).mpr (far _ _ _ _ (by norm_num))
      have f2 : tooFast ⟨0, 1, 0⟩ ⟨2, 0, 0⟩ = true := (fast_iff _ _ (by norm_num)).mpr (far _ _ _ _ (by norm_num))
      simp [filterBad, speedLoop, f1, f2])
  have := congrArg List.length key
  simp at this

/-- C208: outputs are written if none exists, or if overwriting is forced, and then the existing ones are named; otherwise the
run ends before anything is written. -/
theorem C208_outputs (forcing : Bool) (files : List (String × Bool)) :
    koyoOutputs forcing files =
      if forcing = true ∨ ∀ f ∈ files, f.2 = false then .ok ((files.filter (·.2)).map Prod.fst) else .error .assertion := by
  induction files with
  | nil => simp [koyoOutputs]
  | cons f rest ih =>
    obtain ⟨name, there⟩ := f
    unfold koyoOutputs
    cases there <;> cases forcing <;> simp_all [bind, Except.bind]
    exact if_congr (by simp) rfl rfl

/-- One missing altitude. -/
example : fillMissing [(0 : ℚ), 1, 2, 3] [10, 0, 14, 9] = [10, 12, 14, 9] := by decide +kernel

example : koyoOutputs false [("a", false), ("b", true)] = .error .assertion := rfl

end Oplab.Props
