import Verif.Model.Particle
import Mathlib.Algebra.Order.Floor.Ring
import Mathlib.Algebra.Order.BigOperators.Group.List
import Mathlib.Data.List.Sort
import Mathlib.Tactic.Linarith
import Mathlib.Tactic.FieldSimp
import Mathlib.Tactic.NormNum
import Mathlib.Tactic.Positivity

/-! C36 (particle weights), C37 (resampling), C69 (fixes used by the particle filter), C70 (particle movement). -/

namespace Oplab.Props
open Oplab

variable {K : Type} [Field K] [LinearOrder K] [IsStrictOrderedRing K] {α : Type}

/-- Sum of the weights. -/
def totalWeight (ps : List (Particle K α)) : K := (ps.map (·.weight)).sum

/-- Bayes' rule: every weight times its likelihood, divided by the sum of these products. -/
def bayes (like : α → K) (ps : List (Particle K α)) : List (Particle K α) :=
  ps.map (fun p => { p with weight := p.weight * like p.state /
    (ps.map (fun p => p.weight * like p.state)).sum })

omit [IsStrictOrderedRing K] in
private theorem reweigh_perm (like : α → K) (ps : List (Particle K α)) :
    (reweigh like ps).Perm (ps.map (fun p => { p with weight := p.weight * like p.state })) :=
  List.mergeSort_perm _ _

omit [IsStrictOrderedRing K] in
private theorem reweigh_sum (like : α → K) (ps : List (Particle K α)) :
    ((reweigh like ps).map (·.weight)).sum = (ps.map (fun p => p.weight * like p.state)).sum := by
  rw [((reweigh_perm like ps).map _).sum_eq, List.map_map]
  rfl

omit [IsStrictOrderedRing K] in
private theorem reweigh_sorted (like : α → K) (ps : List (Particle K α)) :
    (reweigh like ps).Pairwise (fun a b => b.weight ≤ a.weight) := by
  have := List.pairwise_mergeSort (le := fun a b : Particle K α => decide (b.weight ≤ a.weight))
    (fun a b c h1 h2 => by simp at *; exact h2.trans h1)
    (fun a b => by simpa using le_total b.weight a.weight)
    (ps.map (fun p => { p with weight := p.weight * like p.state }))
  exact this.imp (fun h => by simpa using h)

private theorem normalize_eq (ps : List (Particle K α)) :
    ∃ N : K, normalizeWeights ps = ps.map (fun p => { p with weight := p.weight / N }) ∧
      totalWeight ps ≤ N ∧ (1 / 10 ^ 20 ≤ totalWeight ps → N = totalWeight ps) ∧
      (0 ≤ totalWeight ps → 0 < N) := by
  have h20 : (0 : K) < 1 / 10 ^ 20 := by positivity
  by_cases h : totalWeight ps < 1 / 10 ^ 20
  · refine ⟨totalWeight ps + 1 / 10 ^ 20, ?_, by linarith, fun h' => absurd h (not_lt.mpr h'),
      fun h' => by linarith⟩
    unfold totalWeight at h
    simp only [normalizeWeights, if_pos h, totalWeight]
  · refine ⟨totalWeight ps, ?_, le_refl _, fun _ => rfl, fun _ => lt_of_lt_of_le h20 (not_lt.mp h)⟩
    unfold totalWeight at h
    simp only [normalizeWeights, if_neg h, totalWeight]

omit [LinearOrder K] [IsStrictOrderedRing K] in
private theorem sum_div (l : List K) (N : K) : (l.map (fun x => x / N)).sum = l.sum / N := by
  induction l with
  | nil => simp
  | cons x xs ih => rw [List.map_cons, List.sum_cons, ih, List.sum_cons, add_div]

/-- C36: a measurement update keeps all particles, in any case gives non-negative weights
with sum at most one, and orders the particles by weight. -/
theorem C36_measure (like : α → K) (ps : List (Particle K α)) (hw : ∀ p ∈ ps, 0 ≤ p.weight)
    (hl : ∀ p ∈ ps, 0 ≤ like p.state) :
    (pfMeasure like ps).length = ps.length ∧ (∀ p ∈ pfMeasure like ps, 0 ≤ p.weight) ∧
    totalWeight (pfMeasure like ps) ≤ 1 ∧
    (pfMeasure like ps).Pairwise (fun a b => b.weight ≤ a.weight) ∧
    ((pfMeasure like ps).map (fun p => (p.time, p.state, p.traj))).Perm
      (ps.map (fun p => (p.time, p.state, p.traj))) := by
  obtain ⟨N, hN, hle, _, hpos⟩ := normalize_eq (reweigh like ps)
  have hT : totalWeight (reweigh like ps) = (ps.map (fun p => p.weight * like p.state)).sum :=
    reweigh_sum like ps
  have hnn : 0 ≤ totalWeight (reweigh like ps) := by
    rw [hT]
    apply List.sum_nonneg
    intro x hx
    obtain ⟨p, hp, rfl⟩ := List.mem_map.mp hx
    exact mul_nonneg (hw p hp) (hl p hp)
  have hNp := hpos hnn
  have hm : pfMeasure like ps = (reweigh like ps).map (fun p => { p with weight := p.weight / N }) := hN
  have hperm := reweigh_perm like ps
  rw [hm]
  refine ⟨by simpa using hperm.length_eq, ?_, ?_, ?_, ?_⟩
  · intro p hp
    obtain ⟨q, hq, rfl⟩ := List.mem_map.mp hp
    obtain ⟨r, hr, rfl⟩ := List.mem_map.mp (hperm.mem_iff.mp hq)
    exact div_nonneg (mul_nonneg (hw r hr) (hl r hr)) hNp.le
  · have : totalWeight ((reweigh like ps).map (fun p => { p with weight := p.weight / N }))
        = totalWeight (reweigh like ps) / N := by
      rw [totalWeight, totalWeight, ← sum_div, List.map_map, List.map_map]
      rfl
    rw [this, div_le_one hNp]
    exact hle
  · rw [List.pairwise_map]
    exact (reweigh_sorted like ps).imp fun h => by
      simpa using div_le_div_of_nonneg_right h hNp.le
  · rw [List.map_map]
    have := hperm.map (fun p => (p.time, p.state, p.traj))
    rw [List.map_map] at this
    exact this

/-- C36: if the weighted likelihoods do not underflow (sum at least 1e-20), the new weights
are those of Bayes' rule and sum to one.  Below that they do not, see
`C36_underflow_false`. -/
theorem C36_bayes_partial (like : α → K) (ps : List (Particle K α))
    (hs : 1 / 10 ^ 20 ≤ (ps.map (fun p => p.weight * like p.state)).sum) :
    totalWeight (pfMeasure like ps) = 1 ∧ (pfMeasure like ps).Perm (bayes like ps) := by
  obtain ⟨N, hN, _, heq, _⟩ := normalize_eq (reweigh like ps)
  have hT : totalWeight (reweigh like ps) = (ps.map (fun p => p.weight * like p.state)).sum :=
    reweigh_sum like ps
  have hNe := heq (by rw [hT]; exact hs)
  have hm : pfMeasure like ps = (reweigh like ps).map (fun p => { p with weight := p.weight / N }) := hN
  have h20 : (0 : K) < 1 / 10 ^ 20 := by positivity
  have hpos : (0 : K) < N := by rw [hNe, hT]; linarith
  constructor
  · have : totalWeight ((reweigh like ps).map (fun p => { p with weight := p.weight / N }))
        = totalWeight (reweigh like ps) / N := by
      rw [totalWeight, totalWeight, ← sum_div, List.map_map, List.map_map]
      rfl
    rw [hm, this, ← hNe, div_self hpos.ne']
  · rw [hm, bayes]
    have := (reweigh_perm like ps).map (fun p => ({ p with weight := p.weight / N } : Particle K α))
    rw [List.map_map, hNe, hT] at this
    rw [hNe, hT]
    exact this

/-- Non-vacuity: two particles, one twice as likely. -/
example : (1 : ℚ) / 10 ^ 20 ≤ ([⟨1 / 2, 0, 1, []⟩, ⟨1 / 2, 0, 2, []⟩].map
    (fun p : Particle ℚ Nat => p.weight * ((p.state : ℚ) / 2))).sum := by norm_num

/-- The likelihood of a Gaussian observation is positive. -/
theorem C36_likelihood_pos (mu sigma x : ℝ) (h : sigma ≠ 0) : 0 < gaussianPdf mu sigma x := by
  have := Real.pi_pos
  have h2 : 0 < sigma ^ 2 := by positivity
  exact div_pos (Real.exp_pos _) (Real.sqrt_pos.mpr (by positivity))

/-- C36 is false when the likelihoods underflow: a single particle 15 standard deviations
away from the observation ends up with a weight below one. -/
theorem C36_underflow_false :
    ∃ (ps : List (Particle ℝ ℝ)), totalWeight ps = 1 ∧ (∀ p ∈ ps, 0 ≤ p.weight) ∧
      totalWeight (pfMeasure (fun d => gaussianPdf 0 1 d) ps) < 1 := by
  refine ⟨[⟨1, 0, 15, []⟩], by simp [totalWeight], by simp, ?_⟩
  have hpos : 0 < gaussianPdf 0 1 15 := C36_likelihood_pos 0 1 15 one_ne_zero
  have hlt : gaussianPdf 0 1 15 < 1 / 10 ^ 20 := by
    have h1 : (1 : ℝ) ≤ Real.sqrt (2 * Real.pi * 1 ^ 2) := by
      rw [Real.one_le_sqrt]; nlinarith [Real.two_le_pi]
    have h2 : Real.exp (-((0 - 15) ^ 2) / 1 ^ 2 / 2) < 1 / 10 ^ 20 := by
      have h3 : (2 : ℝ) ≤ Real.exp 1 := by
        have := Real.add_one_le_exp (1 : ℝ); linarith
      have h4 : (2 : ℝ) ^ 100 ≤ Real.exp 100 := by
        have := pow_le_pow_left₀ (by norm_num) h3 100
        rw [← Real.exp_nat_mul] at this
        simpa using this
      have h5 : Real.exp (-((0 - 15) ^ 2) / 1 ^ 2 / 2) ≤ Real.exp (-100) :=
        Real.exp_le_exp.mpr (by norm_num)
      have h6 : Real.exp (-100) ≤ 1 / 2 ^ 100 := by
        rw [Real.exp_neg, ← one_div]
        exact one_div_le_one_div_of_le (by norm_num) h4
      have h7 : (1 : ℝ) / 2 ^ 100 < 1 / 10 ^ 20 := by norm_num
      linarith
    unfold gaussianPdf
    calc _ ≤ Real.exp (-((0 - 15) ^ 2) / 1 ^ 2 / 2) := div_le_self (Real.exp_pos _).le h1
      _ < _ := h2
  have : pfMeasure (fun d => gaussianPdf 0 1 d) [⟨1, 0, 15, []⟩]
      = [⟨gaussianPdf 0 1 15 / (gaussianPdf 0 1 15 + 1 / 10 ^ 20), 0, (15 : ℝ), []⟩] := by
    simp only [pfMeasure, reweigh, List.map_cons, List.map_nil, one_mul, List.mergeSort_singleton,
      normalizeWeights, List.sum_cons, List.sum_nil, add_zero, if_pos hlt]
  rw [this]
  simp only [totalWeight, List.map_cons, List.map_nil, List.sum_cons, List.sum_nil, add_zero]
  rw [div_lt_one (by positivity)]
  have : (0 : ℝ) < 1 / 10 ^ 20 := by positivity
  linarith

/-! ### Resampling -/

/-- Cumulative weight up to and including particle `j`. -/
def cumWeight (ws : List K) (j : Nat) : K := (ws.take (j + 1)).sum

/-- `j` is the particle at position `p` of the cumulative distribution. -/
def DrawnAt (ws : List K) (p : K) (j : Nat) : Prop :=
  j < ws.length ∧ (p ≤ cumWeight ws j ∨ j = ws.length - 1) ∧ ∀ k, k < j → cumWeight ws k < p

omit [LinearOrder K] [IsStrictOrderedRing K] in
private theorem cum_succ (ws : List K) (j : Nat) (h : j + 1 < ws.length) :
    cumWeight ws (j + 1) = cumWeight ws j + ws[j + 1] := by
  rw [cumWeight, cumWeight, List.take_succ_eq_append_getElem h, List.sum_append]
  simp

omit [IsStrictOrderedRing K] in
private theorem advance_spec (ws : List K) (p : K) : ∀ (cum : K) (idx : Nat), idx < ws.length →
    cum = cumWeight ws idx → (∀ k, k < idx → cumWeight ws k < p) →
    (advance ws p cum idx).1 = cumWeight ws (advance ws p cum idx).2 ∧
    idx ≤ (advance ws p cum idx).2 ∧ DrawnAt ws p (advance ws p cum idx).2 := by
  intro cum idx
  fun_induction advance ws p cum idx with
  | case1 cum idx hgt h ih =>
    intro hi hc hk
    obtain ⟨a, b, c⟩ := ih h (by rw [cum_succ ws idx h, hc]) (fun k hk' => by
      rcases Nat.lt_succ_iff_lt_or_eq.mp hk' with h1 | h1
      · exact hk k h1
      · rw [h1, ← hc]; exact hgt)
    exact ⟨a, by omega, c⟩
  | case2 cum idx hgt h =>
    intro hi hc hk
    have : idx = ws.length - 1 := by omega
    subst this
    exact ⟨hc, le_refl _, by omega, Or.inr rfl, hk⟩
  | case3 cum idx hle =>
    intro hi hc hk
    exact ⟨hc, le_refl _, hi, Or.inl (by rw [← hc]; exact not_lt.mp hle), hk⟩

private theorem loop_spec (ws : List K) (start inv : K) (hinv : 0 ≤ inv) :
    ∀ (ds : List Nat) (cum : K) (idx : Nat), idx < ws.length → cum = cumWeight ws idx →
    ds.Pairwise (· ≤ ·) → (∀ d ∈ ds, ∀ k, k < idx → cumWeight ws k < start + inv * (d : K)) →
    List.Forall₂ (fun (d : Nat) j => DrawnAt ws (start + inv * (d : K)) j ∧ idx ≤ j) ds
      (resampleLoop ws start inv ds cum idx) ∧
    (resampleLoop ws start inv ds cum idx).Pairwise (· ≤ ·) := by
  intro ds
  induction ds with
  | nil => intro cum idx _ _ _ _; exact ⟨List.Forall₂.nil, List.Pairwise.nil⟩
  | cons d ds ih =>
    intro cum idx hi hc hds hk
    rw [List.pairwise_cons] at hds
    obtain ⟨a, b, c⟩ := advance_spec ws (start + inv * (d : K)) cum idx hi hc (hk d (by simp))
    have ht := ih _ _ c.1 a hds.2 (fun d' hd' k hk' => by
      have h1 := c.2.2 k hk'
      have h2 : inv * (d : K) ≤ inv * (d' : K) :=
        mul_le_mul_of_nonneg_left (by exact_mod_cast hds.1 d' hd') hinv
      linarith)
    refine ⟨List.Forall₂.cons ⟨c, b⟩ (ht.1.imp fun x y h => ⟨h.1, b.trans h.2⟩), ?_⟩
    rw [resampleLoop, List.pairwise_cons]
    refine ⟨fun j hj => ?_, ht.2⟩
    obtain ⟨i, hi', rfl⟩ := List.mem_iff_getElem.mp hj
    exact (List.forall₂_iff_get.mp ht.1).2 i (by rw [ht.1.length_eq]; exact hi') hi' |>.2

private theorem indices_spec (ws : List K) (u : K) (hne : ws ≠ []) :
    ∃ idx, resampleIndices ws u = .ok idx ∧
      List.Forall₂ (fun (d : Nat) j => DrawnAt ws ((u + (d : K)) / (ws.length : K)) j)
        (List.range ws.length) idx ∧ idx.Pairwise (· ≤ ·) := by
  obtain ⟨w, t, rfl⟩ := List.exists_cons_of_ne_nil hne
  have hn : (0 : K) < ((w :: t).length : K) := by
    have : 0 < (w :: t).length := by simp
    exact_mod_cast this
  have h := loop_spec (w :: t) (u * (1 / ((w :: t).length : K))) (1 / ((w :: t).length : K))
    (by positivity) (List.range (w :: t).length) (0 + w) 0 (by simp) (by simp [cumWeight])
    (by
      have := List.pairwise_lt_range (n := (w :: t).length)
      exact this.imp fun h => h.le) (fun _ _ k hk => absurd hk (by omega))
  refine ⟨_, rfl, h.1.imp fun d j hj => ?_, h.2⟩
  have e : u * (1 / ((w :: t).length : K)) + 1 / ((w :: t).length : K) * (d : K)
      = (u + (d : K)) / ((w :: t).length : K) := by field_simp
  rw [← e]
  exact hj.1

/-- C37: for any weights and any offset, resampling gives as many particles
as before, in the order of the weighted set, the `i`-th being the one at position
`(u + i) / N` of the cumulative distribution. -/
theorem C37_resample (ps : List (Particle K α)) (u : K) (hne : ps ≠ []) :
    ∃ idx : List Nat, resample ps u = .ok (idx.filterMap (fun i => ps[i]?)) ∧
      idx.length = ps.length ∧ (∀ i ∈ idx, i < ps.length) ∧ idx.Pairwise (· ≤ ·) ∧
      ∀ i, ∀ h : i < idx.length,
        DrawnAt (ps.map (·.weight)) ((u + (i : K)) / (ps.length : K)) idx[i] := by
  obtain ⟨idx, h1, h2, h3⟩ := indices_spec (ps.map (·.weight)) u (by simpa using hne)
  have hlen : idx.length = ps.length := by rw [← h2.length_eq]; simp
  have hd : ∀ i, ∀ h : i < idx.length,
        DrawnAt (ps.map (·.weight)) ((u + (i : K)) / (ps.length : K)) idx[i] := by
    intro i h
    have := (List.forall₂_iff_get.mp h2).2 i (by simp; omega) h
    simpa using this
  refine ⟨idx, ?_, hlen, ?_, h3, hd⟩
  · simp only [resample, h1, bind, Except.bind, pure, Except.pure]
  · intro j hj
    obtain ⟨i, hi, rfl⟩ := List.mem_iff_getElem.mp hj
    have := (hd i hi).1
    simpa using this

/-- Number of offsets `d < n` with `u + d ≤ x`. -/
private theorem count_le [FloorRing K] (n : Nat) (u x : K) (hu : 0 < u) (hu1 : u < 1) (hx : 0 ≤ x)
    (hxn : x ≤ n) :
    ((List.range n).countP (fun d : Nat => decide (u + (d : K) ≤ x)) : Int) = ⌊x - u⌋ + 1 := by
  have h1 : -1 ≤ ⌊x - u⌋ := by
    rw [Int.le_floor]; push_cast; linarith
  obtain ⟨m, hm⟩ : ∃ m : Nat, ⌊x - u⌋ + 1 = m := ⟨(⌊x - u⌋ + 1).toNat, by omega⟩
  have hmn : m ≤ n := by
    have : ⌊x - u⌋ < (n : Int) := by
      rw [Int.floor_lt]; push_cast; linarith
    omega
  have hc : ∀ k, (List.range k).countP (fun d : Nat => decide (u + (d : K) ≤ x)) = min k m := by
    intro k
    induction k with
    | zero => simp
    | succ k ih =>
      rw [List.range_succ, List.countP_append, ih, List.countP_singleton]
      have : (u + (k : K) ≤ x) ↔ k < m := by
        have e : u + (k : K) ≤ x ↔ ((k : Int) : K) ≤ x - u := by push_cast; constructor <;> intro <;> linarith
        rw [e, ← Int.le_floor]
        omega
      by_cases hk : k < m
      · simp [this, hk]; omega
      · simp [this, hk]; omega
  rw [hm, hc n]
  simp [hmn]

/-- C37: with weights that sum to one and an offset strictly between 0 and 1, particle `j`
is drawn `⌊N w⌋` or `⌈N w⌉` times.  (`uniform` can return 0, see `C37_zero_offset_false`;
weights are not equal afterwards, see `C37_equal_weights_false`.) -/
theorem C37_counts_partial [FloorRing K] (ws : List K) (u : K) (hu : 0 < u) (hu1 : u < 1)
    (hw : ∀ w ∈ ws, 0 ≤ w) (hs : ws.sum = 1) :
    ∃ idx, resampleIndices ws u = .ok idx ∧ ∀ j, ∀ h : j < ws.length,
      ⌊(ws.length : K) * ws[j]⌋ ≤ (idx.count j : Int) ∧
      (idx.count j : Int) ≤ ⌈(ws.length : K) * ws[j]⌉ := by
  have hne : ws ≠ [] := by rintro rfl; simp at hs
  obtain ⟨idx, h1, h2, _⟩ := indices_spec ws u hne
  refine ⟨idx, h1, fun j hj => ?_⟩
  have hnpos : 0 < ws.length := List.length_pos_iff.mpr hne
  have hn : (0 : K) < (ws.length : K) := by exact_mod_cast hnpos
  have hmono : ∀ a b, a ≤ b → (ws.take a).sum ≤ (ws.take b).sum := by
    intro a b hab
    have : ws.take b = ws.take a ++ (ws.take b).drop a := by
      conv_lhs => rw [← List.take_append_drop a (ws.take b), List.take_take, min_eq_left hab]
    rw [this, List.sum_append]
    have : 0 ≤ ((ws.take b).drop a).sum :=
      List.sum_nonneg fun x hx => hw x (List.mem_of_mem_take (List.mem_of_mem_drop hx))
    linarith
  have htot : (ws.take ws.length).sum = 1 := by rw [List.take_length, hs]
  -- the drawn index is `j` exactly when the position lies in its interval
  have hiff : ∀ d k, d < ws.length → DrawnAt ws ((u + (d : K)) / (ws.length : K)) k →
      (k = j ↔ (ws.length : K) * (ws.take j).sum < u + d ∧
        u + (d : K) ≤ (ws.length : K) * (ws.take (j + 1)).sum) := by
    intro d k hd hk
    have hlt1 : (u + (d : K)) / (ws.length : K) ≤ 1 := by
      rw [div_le_one hn]
      have : (d : K) + 1 ≤ (ws.length : K) := by exact_mod_cast hd
      linarith
    have hkk : (u + (d : K)) / (ws.length : K) ≤ cumWeight ws k := by
      rcases hk.2.1 with h | h
      · exact h
      · rw [cumWeight, h, Nat.sub_add_cancel hnpos, htot]; exact hlt1
    have hlow : ∀ i, i ≤ k → (ws.length : K) * (ws.take i).sum < u + d := by
      intro i hi
      rcases Nat.eq_zero_or_pos i with h0 | h0
      · subst h0
        simp only [List.take_zero, List.sum_nil, mul_zero]
        have : (0 : K) ≤ (d : K) := Nat.cast_nonneg d
        linarith
      · have := hk.2.2 (i - 1) (by omega)
        rw [cumWeight, Nat.sub_add_cancel h0, lt_div_iff₀ hn] at this
        linarith [mul_comm (ws.length : K) (ws.take i).sum]
    rw [cumWeight, div_le_iff₀ hn] at hkk
    constructor
    · rintro rfl
      exact ⟨hlow k (le_refl _), by linarith [mul_comm (ws.length : K) (ws.take (k + 1)).sum]⟩
    · rintro ⟨ha, hb⟩
      by_contra hne'
      rcases Nat.lt_or_gt_of_ne hne' with h | h
      · have := hmono (k + 1) j h
        have : (ws.length : K) * (ws.take (k + 1)).sum ≤ (ws.length : K) * (ws.take j).sum :=
          mul_le_mul_of_nonneg_left this hn.le
        linarith [mul_comm (ws.length : K) (ws.take (k + 1)).sum]
      · have := hlow (j + 1) h
        linarith
  -- so the count is the number of offsets in the interval
  have hcount : idx.count j = (List.range ws.length).countP (fun d : Nat =>
      decide ((ws.length : K) * (ws.take j).sum < u + d ∧
        u + (d : K) ≤ (ws.length : K) * (ws.take (j + 1)).sum)) := by
    have : ∀ (ds : List Nat) (js : List Nat), (∀ d ∈ ds, d < ws.length) →
        List.Forall₂ (fun (d : Nat) k => DrawnAt ws ((u + (d : K)) / (ws.length : K)) k) ds js →
        js.count j = ds.countP (fun d : Nat =>
          decide ((ws.length : K) * (ws.take j).sum < u + d ∧
            u + (d : K) ≤ (ws.length : K) * (ws.take (j + 1)).sum)) := by
      intro ds js hds hf
      induction hf with
      | nil => rfl
      | cons hd _ ih =>
        rename_i d k ds' js' _
        rw [List.count_cons, List.countP_cons, ih fun x hx => hds x (by simp [hx])]
        have := hiff d k (hds d (by simp)) hd
        by_cases hkj : k = j
        · simp [hkj, this.mp hkj]
        · have h2 := mt this.mpr hkj
          simp only [beq_iff_eq, hkj, if_false, decide_eq_true_eq, h2]
    exact this _ _ (fun d hd => List.mem_range.mp hd) h2
  have hsplit : ∀ l : List Nat,
      (l.countP (fun d : Nat => decide (u + (d : K) ≤ (ws.length : K) * (ws.take (j + 1)).sum)) : Int)
      = l.countP (fun d : Nat => decide (u + (d : K) ≤ (ws.length : K) * (ws.take j).sum))
        + l.countP (fun d : Nat => decide ((ws.length : K) * (ws.take j).sum < u + d ∧
          u + (d : K) ≤ (ws.length : K) * (ws.take (j + 1)).sum)) := by
    intro l
    have hle : (ws.length : K) * (ws.take j).sum ≤ (ws.length : K) * (ws.take (j + 1)).sum :=
      mul_le_mul_of_nonneg_left (hmono j (j + 1) (by omega)) hn.le
    induction l with
    | nil => simp
    | cons d ds ih =>
      simp only [List.countP_cons, Nat.cast_add, ih]
      by_cases h1 : u + (d : K) ≤ (ws.length : K) * (ws.take j).sum
      · have h3 := h1.trans hle
        simp [h1, h3, not_lt.mpr h1]; ring
      · by_cases h3 : u + (d : K) ≤ (ws.length : K) * (ws.take (j + 1)).sum
        · simp [h1, h3, not_le.mp h1]; ring
        · simp [h1, h3]
  have hb0 : ∀ i, 0 ≤ (ws.length : K) * (ws.take i).sum := fun i =>
    mul_nonneg hn.le (List.sum_nonneg fun x hx => hw x (List.mem_of_mem_take hx))
  have hbn : ∀ i, (ws.length : K) * (ws.take i).sum ≤ (ws.length : K) := by
    intro i
    have : (ws.take i).sum ≤ 1 := by
      rw [← hs]
      conv_rhs => rw [← List.take_append_drop i ws, List.sum_append]
      have : 0 ≤ (ws.drop i).sum := List.sum_nonneg fun x hx => hw x (List.mem_of_mem_drop hx)
      linarith
    nlinarith
  have hfin := hsplit (List.range ws.length)
  rw [count_le _ u _ hu hu1 (hb0 _) (hbn _), count_le _ u _ hu hu1 (hb0 _) (hbn _), ← hcount] at hfin
  have hstep : (ws.length : K) * (ws.take (j + 1)).sum - u
      = ((ws.length : K) * (ws.take j).sum - u) + (ws.length : K) * ws[j] := by
    rw [List.take_succ_eq_append_getElem hj, List.sum_append]
    simp; ring
  rw [hstep] at hfin
  have h3 := Int.le_floor_add ((ws.length : K) * (ws.take j).sum - u) ((ws.length : K) * ws[j])
  have h4 : ⌊((ws.length : K) * (ws.take j).sum - u) + (ws.length : K) * ws[j]⌋
      ≤ ⌊(ws.length : K) * (ws.take j).sum - u⌋ + ⌈(ws.length : K) * ws[j]⌉ := by
    rw [← Int.floor_add_intCast]
    exact Int.floor_le_floor (by linarith [Int.le_ceil ((ws.length : K) * ws[j])])
  constructor <;> omega

/-- Non-vacuity: the hypotheses hold for the weights 1/2, 1/3, 1/6 and the offset 1/4. -/
example : (0 : ℚ) < 1 / 4 ∧ (1 / 4 : ℚ) < 1 ∧ (∀ w ∈ [(1 / 2 : ℚ), 1 / 3, 1 / 6], 0 ≤ w) ∧
    [(1 / 2 : ℚ), 1 / 3, 1 / 6].sum = 1 := by norm_num

/-- C37 is false for the offset 0: of two particles with weights 1/2 the first is drawn
twice, although its share is exactly one. -/
theorem C37_zero_offset_false :
    ∃ (ws : List ℚ) (idx : List Nat), ws.sum = 1 ∧ (∀ w ∈ ws, 0 ≤ w) ∧
      resampleIndices ws 0 = .ok idx ∧ ∃ h : 0 < ws.length, (idx.count 0 : ℚ) > ws.length * ws[0] ∧
        ⌈(ws.length : ℚ) * ws[0]⌉ < (idx.count 0 : Int) := by
  refine ⟨[1 / 2, 1 / 2], [0, 0], by norm_num, by norm_num, ?_, by simp, by norm_num, by norm_num⟩
  rw [resampleIndices]
  simp only [List.length_cons, List.length_nil, List.range, List.range.loop, resampleLoop]
  repeat rw [advance]
  norm_num

/-- C37 is false about the weights: resampled particles keep the weight of the particle
they were drawn from. -/
theorem C37_equal_weights_false :
    ∃ (ps : List (Particle ℚ Nat)) (u : ℚ) (r : List (Particle ℚ Nat)), totalWeight ps = 1 ∧
      0 < u ∧ u < 1 ∧ resample ps u = .ok r ∧ ∃ p ∈ r, ∃ q ∈ r, p.weight ≠ q.weight := by
  refine ⟨[⟨3 / 4, 0, 0, []⟩, ⟨1 / 4, 0, 1, []⟩], 3 / 4, [⟨3 / 4, 0, 0, []⟩, ⟨1 / 4, 0, 1, []⟩],
    by norm_num [totalWeight], by norm_num, by norm_num, ?_, ⟨3 / 4, 0, 0, []⟩, by simp,
    ⟨1 / 4, 0, 1, []⟩, by simp, by norm_num⟩
  have : resampleIndices [(3 / 4 : ℚ), 1 / 4] (3 / 4) = .ok [0, 1] := by
    rw [resampleIndices]
    simp only [List.length_cons, List.length_nil, List.range, List.range.loop, resampleLoop]
    have h1 : advance [(3 / 4 : ℚ), 1 / 4] (3 / 4 * (1 / ((0 + 1 + 1 : ℕ) : ℚ))
        + 1 / ((0 + 1 + 1 : ℕ) : ℚ) * ((0 : ℕ) : ℚ)) (0 + 3 / 4) 0 = (3 / 4, 0) := by
      rw [advance]; norm_num
    rw [h1]
    have h2 : advance [(3 / 4 : ℚ), 1 / 4] (3 / 4 * (1 / ((0 + 1 + 1 : ℕ) : ℚ))
        + 1 / ((0 + 1 + 1 : ℕ) : ℚ) * ((1 : ℕ) : ℚ)) (3 / 4) 0 = (1, 1) := by
      rw [advance, if_pos (by norm_num), dif_pos (by simp), advance, if_neg (by norm_num)]
      norm_num
    rw [h2]
  simp only [resample, List.map_cons, List.map_nil, this]
  rfl

/-! ### The run of the filter -/

variable {μ ω : Type}

omit [Field K] [LinearOrder K] [IsStrictOrderedRing K] in
private theorem filterMap_get (ps : List (Particle K α)) : ∀ idx : List Nat,
    (∀ i ∈ idx, i < ps.length) → (idx.filterMap (fun i => ps[i]?)).length = idx.length := by
  intro idx
  induction idx with
  | nil => intro _; rfl
  | cons i t ih =>
    intro h
    have hi := h i (by simp)
    rw [List.filterMap_cons, List.getElem?_eq_getElem hi]
    simp [ih fun j hj => h j (by simp [hj])]

/-- C37: a resampled set has the same size and contains only particles of the set before. -/
theorem C37_size (ps : List (Particle K α)) (u : K) (hne : ps ≠ []) :
    ∃ r, resample ps u = .ok r ∧ r.length = ps.length ∧ ∀ p ∈ r, p ∈ ps := by
  obtain ⟨idx, h1, h2, h3, _, _⟩ := C37_resample ps u hne
  refine ⟨_, h1, by rw [filterMap_get ps idx h3, h2], fun p hp => ?_⟩
  obtain ⟨i, _, hi⟩ := List.mem_filterMap.mp hp
  exact List.mem_of_getElem? hi

omit [Field K] [LinearOrder K] [IsStrictOrderedRing K] in
private theorem overwriteLast_stamps (tr : List (K × α)) (w : α) :
    (overwriteLast tr w).map (·.1) = tr.map (·.1) := by
  rcases List.eq_nil_or_concat tr with rfl | ⟨l, x, rfl⟩
  · rfl
  · simp [overwriteLast]

omit [LinearOrder K] [IsStrictOrderedRing K] in
private theorem mem_propagate (wr : Nat → α → α) (adv : α → α) (dt : K) (ps : List (Particle K α))
    (p : Particle K α) (hp : p ∈ propagateAll wr adv dt ps) :
    ∃ q ∈ ps, p.weight = q.weight ∧ p.time = q.time + dt ∧
      p.traj.map (·.1) = q.traj.map (·.1) ++ [q.time + dt] := by
  rw [propagateAll, List.mem_mapIdx] at hp
  obtain ⟨i, hi, rfl⟩ := hp
  exact ⟨ps[i], List.getElem_mem hi, rfl, rfl, by simp [overwriteLast_stamps]⟩

/-- All particles of the filter have gone through the same time stamps, the last of which
is the time of the filter. -/
def SameStamps (s : Pf K α μ ω) (T : List K) : Prop :=
  ∀ p ∈ s.ps, 0 ≤ p.weight ∧ p.time = s.lastT ∧ p.traj.map (·.1) = T

omit [IsStrictOrderedRing K] in
private theorem dr_step (env : PfEnv K α μ ω) (s : Pf K α μ ω) (T : List K) (d : K × μ)
    (h : SameStamps s T) : SameStamps (pfDr env s d) (T ++ [d.1]) ∧
      (pfDr env s d).ps.length = s.ps.length := by
  refine ⟨fun p hp => ?_, by simp [pfDr, propagateAll]⟩
  obtain ⟨q, hq, h1, h2, h3⟩ := mem_propagate _ _ _ _ p hp
  obtain ⟨a, b, c⟩ := h q hq
  have e : q.time + (d.1 - s.lastT) = d.1 := by rw [b]; ring
  exact ⟨h1 ▸ a, by rw [h2, e]; rfl, by rw [h3, c, e]⟩

private theorem usbl_step (env : PfEnv K α μ ω) (hl : ∀ o a, 0 ≤ env.like o a) (s : Pf K α μ ω)
    (T : List K) (o : K × ω) (hb : env.bad o.2 = false) (h : SameStamps s T) (hne : s.ps ≠ []) :
    ∃ s', pfUsbl env s o = .ok s' ∧ SameStamps s' (T ++ [o.1]) ∧ s'.ps.length = s.ps.length := by
  have hp : ∀ p ∈ propagateAll (env.wr s.k s.move) (env.adv (o.1 - s.lastT)) (o.1 - s.lastT) s.ps,
      0 ≤ p.weight ∧ p.time = o.1 ∧ p.traj.map (·.1) = T ++ [o.1] := by
    intro p hp
    obtain ⟨q, hq, h1, h2, h3⟩ := mem_propagate _ _ _ _ p hp
    obtain ⟨a, b, c⟩ := h q hq
    have e : q.time + (o.1 - s.lastT) = o.1 := by rw [b]; ring
    exact ⟨h1 ▸ a, by rw [h2, e], by rw [h3, c, e]⟩
  obtain ⟨m1, m2, _, _, m5⟩ := C36_measure (env.like o.2) _ (fun p h' => (hp p h').1)
    (fun p _ => hl o.2 p.state)
  have hq : ∀ p ∈ pfMeasure (env.like o.2)
        (propagateAll (env.wr s.k s.move) (env.adv (o.1 - s.lastT)) (o.1 - s.lastT) s.ps),
      0 ≤ p.weight ∧ p.time = o.1 ∧ p.traj.map (·.1) = T ++ [o.1] := by
    intro p h'
    have := m5.mem_iff.mp (List.mem_map_of_mem (f := fun p => (p.time, p.state, p.traj)) h')
    obtain ⟨q, hq, e⟩ := List.mem_map.mp this
    simp only [Prod.mk.injEq] at e
    obtain ⟨_, b, c⟩ := hp q hq
    exact ⟨m2 p h', by rw [← e.1, b], by rw [← e.2.2, c]⟩
  have hlen : (pfMeasure (env.like o.2)
        (propagateAll (env.wr s.k s.move) (env.adv (o.1 - s.lastT)) (o.1 - s.lastT) s.ps)).length
      = s.ps.length := by rw [m1]; simp [propagateAll]
  unfold pfUsbl
  rw [hb]
  simp only [Bool.false_eq_true, if_false]
  split_ifs with hr
  · obtain ⟨r, r1, r2, r3⟩ := C37_size (pfMeasure (env.like o.2)
        (propagateAll (env.wr s.k s.move) (env.adv (o.1 - s.lastT)) (o.1 - s.lastT) s.ps))
      (env.u s.k) (by
        intro h0
        rw [h0] at hlen
        exact hne (List.length_eq_zero_iff.mp hlen.symm))
    rw [r1]
    exact ⟨_, rfl, fun p h' => hq p (r3 p h'), by simpa [r2] using hlen⟩
  · exact ⟨_, rfl, fun p h' => hq p h', hlen⟩

/-- The time stamps of dead reckoning and of the fixes, merged. -/
def mergedStamps : List K → List K → List K
  | [], _ => []
  | d :: ds, [] => d :: mergedStamps ds []
  | d :: ds, o :: os => if d < o then d :: mergedStamps ds (o :: os) else o :: mergedStamps (d :: ds) os
termination_by ds os => ds.length + os.length

theorem particle_loop (env : PfEnv K α μ ω) (hl : ∀ o a, 0 ≤ env.like o a) :
    ∀ (ds : List (K × μ)) (os : List (K × ω)) (s : Pf K α μ ω) (T : List K), (∀ o ∈ os, env.bad o.2 = false) →
    SameStamps s T → s.ps ≠ [] →
    ∃ s', pfLoop env ds os s = .ok s' ∧
      SameStamps s' (T ++ mergedStamps (ds.map (·.1)) (os.map (·.1))) ∧
      s'.ps.length = s.ps.length := by
  intro ds os s
  fun_induction pfLoop env ds os s with
  | case1 os s => intro T hb h hne; exact ⟨s, rfl, by simpa [mergedStamps] using h, rfl⟩
  | case2 d ds s ih =>
    intro T hb h hne
    obtain ⟨h1, h2⟩ := dr_step env s T d h
    obtain ⟨s', a, b, c⟩ := ih (T ++ [d.1]) hb h1 (by
      intro h0; rw [h0] at h2; exact hne (List.length_eq_zero_iff.mp h2.symm))
    exact ⟨s', a, by simpa [mergedStamps] using b, c.trans h2⟩
  | case3 d ds o os s hlt ih =>
    intro T hb h hne
    obtain ⟨h1, h2⟩ := dr_step env s T d h
    obtain ⟨s', a, b, c⟩ := ih (T ++ [d.1]) hb h1 (by
      intro h0; rw [h0] at h2; exact hne (List.length_eq_zero_iff.mp h2.symm))
    exact ⟨s', a, by simpa [mergedStamps, hlt] using b, c.trans h2⟩
  | case4 d ds o os s hlt ih =>
    intro T hb h hne
    obtain ⟨s1, e, h1, h2⟩ := usbl_step env hl s T o (hb o (by simp)) h hne
    obtain ⟨s', a, b, c⟩ := ih s1 (T ++ [o.1]) (fun x hx => hb x (by simp [hx])) h1 (by
      intro h0; rw [h0] at h2; exact hne (List.length_eq_zero_iff.mp h2.symm))
    refine ⟨s', ?_, by simpa [mergedStamps, hlt] using b, c.trans h2⟩
    rw [e]; exact a

/-- C36: throughout any run, whatever the random draws, the number of particles stays the
same and no weight is negative. -/
theorem C36_run (env : PfEnv K α μ ω) (hl : ∀ o a, 0 ≤ env.like o a) (n : Nat) (hn : 0 < n)
    (t : K) (prior : α) (m0 : μ) (ds : List (K × μ)) (os : List (K × ω)) (hb : ∀ o ∈ os, env.bad o.2 = false) :
    ∃ s', pfLoop env ds os ⟨setPrior n ⟨0, t, prior, []⟩, m0, t, 0, []⟩ = .ok s' ∧
      s'.ps.length = n ∧ ∀ p ∈ s'.ps, 0 ≤ p.weight := by
  obtain ⟨s', a, b, c⟩ := particle_loop env hl ds os ⟨setPrior n ⟨0, t, prior, []⟩, m0, t, 0, []⟩ [] hb
    (fun p hp => by
      have := List.eq_of_mem_replicate hp
      subst this
      exact ⟨by positivity, rfl, rfl⟩) (by simp [setPrior]; omega)
  exact ⟨s', a, by rw [c]; simp [setPrior], fun p hp => (b p hp).1⟩

/-- C36: every step of a run has draws of its own: there are as many as entries of dead reckoning and fixes that were used. -/
theorem C36_draws (env : PfEnv K α μ ω) (ds : List (K × μ)) (os : List (K × ω)) (s s' : Pf K α μ ω) (h : pfLoop env ds os s = .ok s') :
    s'.k = s.k + (mergedStamps (ds.map (·.1)) (os.map (·.1))).length := by
  fun_induction pfLoop env ds os s with
  | case1 os s => obtain rfl := Except.ok.inj h; simp [mergedStamps]
  | case2 d ds s ih =>
    rw [ih h]
    simp only [pfDr, List.map_cons, List.map_nil, mergedStamps, List.length_cons]
    omega
  | case3 d ds o os s hlt ih =>
    rw [ih h]
    simp only [pfDr, List.map_cons, mergedStamps, hlt, if_true, List.length_cons]
    omega
  | case4 d ds o os s hlt ih =>
    cases hu : pfUsbl env s o with
    | error e => rw [hu] at h; cases h
    | ok s1 =>
      rw [hu] at h
      have hk : s1.k = s.k + 1 := by
        unfold pfUsbl at hu
        split at hu
        · cases hu
        · dsimp only at hu
          split at hu
          · cases hr : resample (pfMeasure (env.like o.2) (propagateAll (env.wr s.k s.move) (env.adv (o.1 - s.lastT)) (o.1 - s.lastT) s.ps))
              (env.u s.k) with
            | error e => rw [hr] at hu; cases hu
            | ok ps => rw [hr] at hu; obtain rfl := Except.ok.inj hu; rfl
          · obtain rfl := Except.ok.inj hu; rfl
      rw [ih s1 h, hk]
      simp only [List.map_cons, mergedStamps, hlt, if_false, List.length_cons]
      omega

/-! ### C69 -/

/-- What the stamps of the trajectory should be: those of dead reckoning, together with
those of the fixes not later than the last dead reckoning entry, in order. -/
structure Interleaved (ds os T : List K) : Prop where
  sorted : T.Pairwise (· ≤ ·)
  complete : T.Perm (ds ++ os.filter (fun o => ds.any (fun d => decide (o ≤ d))))

omit [Field K] [IsStrictOrderedRing K] in
private theorem filter_true_of_cons (d : K) (ds os : List K) (hd : ∀ x ∈ ds, d ≤ x) (hne : ds ≠ []) :
    os.filter (fun o => (d :: ds).any (fun d => decide (o ≤ d)))
      = os.filter (fun o => ds.any (fun d => decide (o ≤ d))) := by
  apply List.filter_congr
  intro o _
  obtain ⟨x, t, rfl⟩ := List.exists_cons_of_ne_nil hne
  rw [List.any_cons]
  by_cases h : o ≤ d
  · have : o ≤ x := h.trans (hd x (by simp))
    simp [h, this]
  · simp [h]

omit [Field K] [IsStrictOrderedRing K] in
theorem mergedStamps_spec : ∀ (ds os : List K), ds.Pairwise (· ≤ ·) → os.Pairwise (· ≤ ·) →
    Interleaved ds os (mergedStamps ds os) := by
  intro ds os
  fun_induction mergedStamps ds os with
  | case1 os => intro _ _; exact ⟨List.Pairwise.nil, by simp⟩
  | case2 d ds ih =>
    intro hd ho
    rw [List.pairwise_cons] at hd
    obtain ⟨a, b⟩ := ih hd.2 ho
    refine ⟨List.pairwise_cons.mpr ⟨fun x hx => ?_, a⟩, ?_⟩
    · have := b.mem_iff.mp hx
      simp at this
      exact hd.1 x this
    · simp at b ⊢; exact b
  | case3 d ds o os hlt ih =>
    intro hd ho
    rw [List.pairwise_cons] at hd
    obtain ⟨a, b⟩ := ih hd.2 ho
    have ho' := List.pairwise_cons.mp ho
    refine ⟨List.pairwise_cons.mpr ⟨fun x hx => ?_, a⟩, ?_⟩
    · rcases List.mem_append.mp (b.mem_iff.mp hx) with h | h
      · exact hd.1 x h
      · have := (List.mem_filter.mp h).1
        rcases List.mem_cons.mp this with h1 | h1
        · rw [h1]; exact hlt.le
        · exact hlt.le.trans (ho'.1 x h1)
    · by_cases hne : ds = []
      · subst hne
        have : (o :: os).filter (fun o => [d].any (fun d => decide (o ≤ d))) = [] := by
          rw [List.filter_eq_nil_iff]
          intro x hx
          have : d < x := by
            rcases List.mem_cons.mp hx with h1 | h1
            · rw [h1]; exact hlt
            · exact hlt.trans_le (ho'.1 x h1)
          simp [this]
        rw [this]
        simp [mergedStamps]
      · rw [filter_true_of_cons d ds _ hd.1 hne]
        exact b.cons d
  | case4 d ds o os hlt ih =>
    intro hd ho
    rw [List.pairwise_cons] at ho
    obtain ⟨a, b⟩ := ih hd ho.2
    have hod := not_lt.mp hlt
    have hd' := List.pairwise_cons.mp hd
    refine ⟨List.pairwise_cons.mpr ⟨fun x hx => ?_, a⟩, ?_⟩
    · rcases List.mem_append.mp (b.mem_iff.mp hx) with h | h
      · rcases List.mem_cons.mp h with h1 | h1
        · rw [h1]; exact hod
        · exact hod.trans (hd'.1 x h1)
      · exact ho.1 x (List.mem_filter.mp h).1
    · have : (o :: os).filter (fun o => (d :: ds).any (fun d => decide (o ≤ d)))
          = o :: os.filter (fun o => (d :: ds).any (fun d => decide (o ≤ d))) := by
        rw [List.filter_cons]; simp [hod]
      rw [this]
      exact (b.cons o).trans List.perm_middle.symm

/-- C69, partial: if the first fix is not earlier than dead reckoning, the trajectory has
one point for every dead reckoning entry and one for every fix up to the last of them, in
order of time, and all of these fixes are used.  When the first fix is earlier, the wrong
number of fixes is skipped, see `C69_fixes_skipped_false`. -/
theorem C69_stamps_partial (env : PfEnv K α μ ω) (hl : ∀ o a, 0 ≤ env.like o a) (n : Nat)
    (hn : 0 < n) (m0 : μ) (prior : α) (ds : List (K × μ)) (os : List (K × ω))
    (hd : (ds.map (·.1)).Pairwise (· ≤ ·)) (ho : (os.map (·.1)).Pairwise (· ≤ ·))
    (h2 : 2 ≤ ds.length) (hne : os ≠ []) (hb : ∀ o ∈ os, env.bad o.2 = false)
    (hfirst : ∀ o ∈ os.head?, ∀ d ∈ ds.head?, d.1 ≤ o.1) :
    ∃ traj resampled, runPf env n m0 prior ds os = .ok (traj, resampled) ∧
      Interleaved (ds.map (·.1)) (os.map (·.1)) (traj.map (·.1)) := by
  match ds, h2, os, hne with
  | d :: d' :: ds, _, o :: os, _ =>
    have hle : d.1 ≤ o.1 := hfirst o (by simp) d (by simp)
    have hskip : priorSkip ((o :: os).map (·.1)) ((d :: d' :: ds).map (·.1)) = .ok 0 := by
      simp only [List.map_cons, priorSkip]
      rw [skipUsbl, dif_neg (by rintro ⟨_, h⟩; exact absurd h (not_lt.mpr hle))]
    obtain ⟨s', a, b, c⟩ := particle_loop env hl (d :: d' :: ds) (o :: os)
      ⟨setPrior n ⟨0, d.1, prior, []⟩, m0, d.1, 0, []⟩ [] hb
      (fun p hp => by
        have := List.eq_of_mem_replicate hp
        subst this
        exact ⟨by positivity, rfl, rfl⟩) (by simp [setPrior]; omega)
    have hlen : s'.ps.length = n := by rw [c]; simp [setPrior]
    have hps : ∃ best t, s'.ps = best :: t := by
      apply List.exists_cons_of_ne_nil
      intro h0; rw [h0] at hlen; simp at hlen; omega
    obtain ⟨best, t, hps⟩ := hps
    refine ⟨best.traj, s'.resampled, ?_, ?_⟩
    · simp only [runPf, hskip, bind, Except.bind, List.drop_zero, a, hps]
      rfl
    · have := (b best (by rw [hps]; simp)).2.2
      rw [this, List.nil_append]
      exact mergedStamps_spec _ _ hd ho

/-- Non-vacuity of `C69_stamps_partial`. -/
example : ([(0 : ℚ), 1, 2].Pairwise (· ≤ ·)) ∧ ([(1 / 2 : ℚ), 3].Pairwise (· ≤ ·)) ∧
    mergedStamps [(0 : ℚ), 1, 2] [1 / 2, 3] = [0, 1 / 2, 1, 2] := by
  norm_num [mergedStamps]

/-- C69 is false: with dead reckoning at 1, 10, 20 and fixes at 0, 5, 11, all three fixes
are skipped, although two of them were taken during dead reckoning. -/
theorem C69_fixes_skipped_false :
    ∃ (ds os : List ℚ), ds.Pairwise (· ≤ ·) ∧ os.Pairwise (· ≤ ·) ∧
      (∃ o ∈ os, ∃ d ∈ ds, ∃ e ∈ ds, d ≤ o ∧ o ≤ e) ∧ priorSkip os ds = .ok os.length := by
  refine ⟨[1, 10, 20], [0, 5, 11], by norm_num, by norm_num,
    ⟨11, by simp, 1, by simp, 20, by simp, by norm_num, by norm_num⟩, ?_⟩
  norm_num [priorSkip, skipUsbl]

/-- C69 is false: fixes taken before dead reckoning may make the filter fail, when there are
more of them than dead reckoning entries. -/
theorem C69_early_fixes_false :
    ∃ (ds os : List ℚ), 2 ≤ ds.length ∧ ds.Pairwise (· ≤ ·) ∧ os.Pairwise (· ≤ ·) ∧
      priorSkip os ds = .error .indexError := by
  refine ⟨[10, 11], [1, 2, 3], by simp, by norm_num, by norm_num, ?_⟩
  norm_num [priorSkip, skipUsbl]

/-- C36: the filter starts with `n` particles, all with the given state and time, of equal weights that sum to one. -/
theorem C36_start (n : Nat) (hn : 0 < n) (prior : Particle K α) :
    (setPrior n prior).length = n ∧ totalWeight (setPrior n prior) = 1 ∧
    (∀ p ∈ setPrior n prior, ∀ q ∈ setPrior n prior, p.weight = q.weight) ∧
    ∀ p ∈ setPrior n prior, p.state = prior.state ∧ p.time = prior.time ∧ p.traj = prior.traj := by
  have hk : (n : K) ≠ 0 := by exact_mod_cast hn.ne'
  refine ⟨by simp [setPrior], ?_, fun p hp q hq => ?_, fun p hp => ?_⟩
  · simp only [totalWeight, setPrior, List.map_replicate, List.sum_replicate, nsmul_eq_mul]
    field_simp
  · rw [List.eq_of_mem_replicate hp, List.eq_of_mem_replicate hq]
  · rw [List.eq_of_mem_replicate hp]
    exact ⟨rfl, rfl, rfl⟩

/-- C37: the particles are drawn again exactly if the effective number of particles, one over the sum of the squares of
the weights, is below half of their number. -/
theorem C37_when (ps : List (Particle K α)) :
    shouldResample ps = true ↔ 2 < (ps.length : K) * (ps.map (fun p => p.weight ^ 2)).sum := by
  have hs : 0 ≤ (ps.map (fun p => p.weight ^ 2)).sum :=
    List.sum_nonneg (by intro x hx; obtain ⟨p, _, rfl⟩ := List.mem_map.mp hx; positivity)
  simp only [shouldResample, decide_eq_true_eq]
  rcases hs.eq_or_lt with h0 | h0
  · rw [← h0]; simp
  · rw [div_lt_div_iff₀ h0 (by norm_num)]
    simp [h0.ne']

/-- C37: equal weights are left alone, and if one of more than two particles has all the weight they are drawn again. -/
theorem C37_when_extremes (n : Nat) (prior : Particle K α) (k m : Nat) (p : Particle K α) (h1 : p.weight = 1)
    (z : Particle K α) (h0 : z.weight = 0) :
    shouldResample (setPrior n prior) = false ∧
    (2 < k + 1 + m → shouldResample (List.replicate k z ++ p :: List.replicate m z) = true) := by
  constructor
  · rw [← Bool.not_eq_true, C37_when]
    simp only [setPrior, List.length_replicate, List.map_replicate, List.sum_replicate, nsmul_eq_mul, not_lt]
    rcases Nat.eq_zero_or_pos n with rfl | hn
    · simp
    · have hk : (n : K) ≠ 0 := by exact_mod_cast hn.ne'
      have : (n : K) * ((n : K) * (1 / (n : K)) ^ 2) = 1 := by field_simp
      rw [this]; norm_num
  · intro h
    rw [C37_when]
    have hc : (2 : K) < ((k + 1 + m : Nat) : K) := by exact_mod_cast h
    simp only [List.map_append, List.map_cons, List.map_replicate, List.sum_append, List.sum_cons, h1, h0,
      List.length_append, List.length_cons, List.length_replicate]
    simp only [ne_eq, OfNat.ofNat_ne_zero, not_false_eq_true, zero_pow, List.sum_replicate, smul_zero, one_pow, zero_add,
      add_zero, mul_one]
    have e : k + (m + 1) = k + 1 + m := by omega
    rw [e]; exact hc

/-! ### C70 -/

/-- C70: without noise a particle moves, in the horizontal plane, by the time step times
the body velocity rotated to the inertial frame, as dead reckoning does, and takes the
measured attitude and velocity.  Depth and altitude do not follow, see the next two
theorems. -/
theorem C70_horizontal_partial (depth alt roll pitch yaw : ℝ) (vel : V3 ℝ) (dt : ℝ) (p : PState) :
    let m : PMove := ⟨depth, ⟨roll * degToRad, pitch * degToRad, yaw * degToRad⟩, vel, alt⟩
    let q := propagateState m 0 ⟨0, 0, 0⟩ ⟨0, 0, 0⟩ dt p
    q.pos.x = p.pos.x + dt * (bodyToInertial roll pitch yaw vel).x ∧
    q.pos.y = p.pos.y + dt * (bodyToInertial roll pitch yaw vel).y ∧
    q.rpy = m.rpy ∧ q.vel = vel := by
  refine ⟨?_, ?_, ?_, ?_⟩
  · simp only [propagateState, advanceState, writeState, bodyToInertial, add_zero]; ring
  · simp only [propagateState, advanceState, writeState, bodyToInertial, add_zero]; ring
  · simp [propagateState, advanceState, writeState]
  · simp [propagateState, advanceState, writeState]

/-- C70 is false about depth: the vertical motion since the last step is added to the depth
measured after it, so a vehicle at a measured depth of 5 is put at 6. -/
theorem C70_depth_false :
    ∃ (m : PMove) (dt : ℝ) (p : PState),
      (propagateState m 0 ⟨0, 0, 0⟩ ⟨0, 0, 0⟩ dt p).pos.z ≠ m.depth := by
  refine ⟨⟨5, ⟨0, 0, 0⟩, ⟨0, 0, 1⟩, 0⟩, 1, ⟨⟨0, 0, 4⟩, ⟨0, 0, 0⟩, ⟨0, 0, 1⟩, 0⟩, ?_⟩
  norm_num [propagateState, advanceState, writeState]

/-- C70: the depth is the measured one when the vehicle has no vertical motion. -/
theorem C70_depth_partial (depth alt roll pitch yaw : ℝ) (vel : V3 ℝ) (dt : ℝ) (p : PState)
    (h : (bodyToInertial roll pitch yaw vel).z = 0) :
    (propagateState ⟨depth, ⟨roll * degToRad, pitch * degToRad, yaw * degToRad⟩, vel, alt⟩
      0 ⟨0, 0, 0⟩ ⟨0, 0, 0⟩ dt p).pos.z = depth := by
  have : (propagateState ⟨depth, ⟨roll * degToRad, pitch * degToRad, yaw * degToRad⟩, vel, alt⟩
      0 ⟨0, 0, 0⟩ ⟨0, 0, 0⟩ dt p).pos.z = depth + dt * (bodyToInertial roll pitch yaw vel).z := by
    simp only [propagateState, advanceState, writeState, bodyToInertial, add_zero]; ring
  rw [this, h, mul_zero, add_zero]

/-- C70 is false about altitude: whatever is measured and whatever the noise, a particle
keeps the altitude it started with. -/
theorem C70_altitude_false (moves : List (PMove × ℝ × V3 ℝ × V3 ℝ × ℝ)) (p : PState) :
    (moves.foldl (fun p m => propagateState m.1 m.2.1 m.2.2.1 m.2.2.2.1 m.2.2.2.2 p) p).alt = p.alt := by
  induction moves generalizing p with
  | nil => rfl
  | cons m ms ih => rw [List.foldl_cons, ih]; rfl

/-- C70: noise acts as errors of the measurements: a particle moves as it would without noise if depth, attitude and
velocity had been measured with these errors. -/
theorem C70_noise (m : PMove) (nz : ℝ) (na nv : V3 ℝ) (dt : ℝ) (p : PState) :
    propagateState m nz na nv dt p = propagateState
      ⟨m.depth + nz, ⟨m.rpy.x + na.x, m.rpy.y + na.y, m.rpy.z + na.z⟩, ⟨m.vel.x + nv.x, m.vel.y + nv.y, m.vel.z + nv.z⟩,
        m.alt⟩ 0 ⟨0, 0, 0⟩ ⟨0, 0, 0⟩ dt p := by
  simp only [propagateState, writeState, add_zero]

end Oplab.Props
