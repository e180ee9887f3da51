import Verif.Model.AlrTime
import Verif.Spec.AlrTime
import Verif.Lemmas.Split
import Mathlib.Algebra.Order.Field.Basic
import Mathlib.Tactic.Ring
import Mathlib.Tactic.Linarith
import Mathlib.Tactic.FieldSimp
import Mathlib.Tactic.NormNum

/-! # C197: times of the vehicle in the clock of BioCam -/

namespace Oplab.Props
open Oplab Oplab.Spec
variable {K : Type} [Field K] [LinearOrder K]

private theorem sortedNat_iff : ∀ l : List ℕ, sortedNat l = true ↔ l.Pairwise (· ≤ ·)
  | [] => by simp [sortedNat]
  | [a] => by simp [sortedNat]
  | a :: b :: l => by
    rw [sortedNat, Bool.and_eq_true, decide_eq_true_iff, sortedNat_iff (b :: l), List.pairwise_cons (a := a)]
    constructor
    · rintro ⟨h, hp⟩
      refine ⟨?_, hp⟩
      intro c hc
      rcases List.mem_cons.mp hc with rfl | hc
      · exact h
      · exact le_trans h ((List.pairwise_cons.mp hp).1 c hc)
    · rintro ⟨h, hp⟩
      exact ⟨h b (List.mem_cons_self ..), hp⟩

private theorem pollSlopes_ok : ∀ (pts : List (K × K)) (r : List K), pollSlopes pts = .ok r → r.length = pts.length - 1 ∧
    ∀ (i : ℕ) (p q : K × K), pts[i]? = some p → pts[i + 1]? = some q → q.1 - p.1 ≠ 0 ∧ r[i]? = some ((q.2 - p.2) / (q.1 - p.1))
  | [], r, h => by
    cases h
    simp
  | [a], r, h => by
    cases h
    simp
  | a :: b :: l, r, h => by
    rw [pollSlopes] at h
    by_cases h0 : b.1 - a.1 = 0
    · rw [if_pos h0] at h
      cases h
    · rw [if_neg h0] at h
      cases hr : pollSlopes (b :: l) with
      | error e =>
        rw [hr] at h
        cases h
      | ok r' =>
        rw [hr] at h
        simp only [bind, Except.bind, Except.ok.injEq] at h
        obtain ⟨hl, hi⟩ := pollSlopes_ok (b :: l) r' hr
        subst h
        refine ⟨by simpa using hl, ?_⟩
        intro i p q hp hq
        cases i with
        | zero =>
          simp only [List.getElem?_cons_zero, Option.some.injEq, zero_add, List.getElem?_cons_succ] at hp hq
          subst hp hq
          exact ⟨h0, rfl⟩
        | succ i =>
          rw [List.getElem?_cons_succ] at hp hq ⊢
          exact hi i p q hp hq

private theorem pollSlopes_total : ∀ pts : List (K × K), (pts.map Prod.fst).Pairwise (· < ·) → ∃ r, pollSlopes pts = .ok r
  | [], _ => ⟨_, rfl⟩
  | [_], _ => ⟨_, rfl⟩
  | a :: b :: l, h => by
    rw [List.map_cons, List.pairwise_cons] at h
    have hab : a.1 < b.1 := h.1 _ (by simp)
    obtain ⟨r, hr⟩ := pollSlopes_total (b :: l) h.2
    refine ⟨(b.2 - a.2) / (b.1 - a.1) :: r, ?_⟩
    rw [pollSlopes, if_neg (sub_ne_zero.mpr (ne_of_gt hab)), hr]
    rfl

private theorem lastIndex (p : ℕ → Prop) [DecidablePred p] (n : ℕ) :
    let r := (List.range n).foldl (fun j i => if p i then i else j) 0
    (∀ i < n, p i → i ≤ r) ∧ (r = 0 ∨ (r < n ∧ p r)) := by
  induction n with
  | zero => simp
  | succ n ih =>
    simp only [List.range_succ, List.foldl_append, List.foldl_cons, List.foldl_nil] at ih ⊢
    by_cases hn : p n
    · rw [if_pos hn]
      exact ⟨fun i hi _ => by omega, Or.inr ⟨by omega, hn⟩⟩
    · rw [if_neg hn]
      refine ⟨?_, ?_⟩
      · intro i hi hp
        rcases Nat.lt_succ_iff_lt_or_eq.mp hi with h | rfl
        · exact ih.1 i h hp
        · exact absurd hp hn
      · rcases ih.2 with h | h
        · exact Or.inl h
        · exact Or.inr ⟨by omega, h.2⟩

private theorem fitClocks_ok {polls : List ClockPoll} {f : ClockFit K} (h : fitClocks polls = .ok f) :
    polls ≠ [] ∧ (polls.map ClockPoll.bc0).Pairwise (· ≤ ·) ∧ (polls.map ClockPoll.alr).Pairwise (· ≤ ·) ∧
      f.times = polls.map vehicleTime ∧ f.offsets = polls.map biocamMid ∧ pollSlopes (polls.map pollPoint) = .ok f.slopes := by
  rw [fitClocks] at h
  by_cases h0 : polls = []
  · rw [if_pos h0] at h; cases h
  by_cases h1 : sortedNat (polls.map ClockPoll.bc0) = false
  · rw [if_neg h0, if_pos h1] at h; cases h
  by_cases h2 : sortedNat (polls.map ClockPoll.alr) = false
  · rw [if_neg h0, if_neg h1, if_pos h2] at h; cases h
  rw [if_neg h0, if_neg h1, if_neg h2] at h
  cases hr : pollSlopes (polls.map (pollPoint (K := K))) with
  | error e =>
    rw [hr] at h
    cases h
  | ok r =>
    rw [hr] at h
    simp only [bind, Except.bind, Except.ok.injEq] at h
    subst h
    exact ⟨h0, (sortedNat_iff _).mp (by simpa using h1), (sortedNat_iff _).mp (by simpa using h2), rfl, rfl, rfl⟩

variable [IsStrictOrderedRing K]

/-- C197: the polls give a correction exactly if there are some, the BioCam times do not decrease and the vehicle times increase. -/
theorem C197_fit_iff (polls : List ClockPoll) : (∃ f : ClockFit K, fitClocks polls = .ok f) ↔
    polls ≠ [] ∧ (polls.map ClockPoll.bc0).Pairwise (· ≤ ·) ∧ (polls.map ClockPoll.alr).Pairwise (· < ·) := by
  constructor
  · rintro ⟨f, h⟩
    obtain ⟨h0, h1, h2, -, -, h3⟩ := fitClocks_ok h
    refine ⟨h0, h1, ?_⟩
    rw [List.pairwise_iff_getElem] at h2 ⊢
    simp only [List.length_map, List.getElem_map] at h2 ⊢
    intro i j hi hj hij
    have hs := (pollSlopes_ok _ _ h3).2 i (pollPoint polls[i]) (pollPoint (polls[i + 1]'(by omega)))
      (by rw [List.getElem?_map, List.getElem?_eq_getElem hi]; rfl) (by rw [List.getElem?_map, List.getElem?_eq_getElem (by omega)]; rfl)
    have h12 : polls[i].alr < (polls[i + 1]'(by omega)).alr := by
      refine lt_of_le_of_ne (h2 i (i + 1) hi (by omega) (by omega)) ?_
      intro he
      refine hs.1 ?_
      simp only [pollPoint, he, sub_self]
    rcases Nat.lt_or_ge (i + 1) j with h | h
    · exact lt_of_lt_of_le h12 (h2 (i + 1) j (by omega) hj h)
    · obtain rfl : j = i + 1 := by omega
      exact h12
  · rintro ⟨h0, h1, h2⟩
    have hp : ((polls.map (pollPoint (K := K))).map Prod.fst).Pairwise (· < ·) := by
      rw [List.map_map, List.pairwise_map]
      rw [List.pairwise_map] at h2
      refine h2.imp ?_
      intro a b hab
      simpa [pollPoint] using hab
    obtain ⟨r, hr⟩ := pollSlopes_total _ hp
    have hs0 : sortedNat (polls.map ClockPoll.bc0) = true := (sortedNat_iff _).mpr h1
    have hs1 : sortedNat (polls.map ClockPoll.alr) = true := (sortedNat_iff _).mpr (h2.imp le_of_lt)
    refine ⟨⟨polls.map vehicleTime, polls.map biocamMid, r⟩, ?_⟩
    rw [fitClocks, if_neg h0, if_neg (by simp [hs0]), if_neg (by simp [hs1]), hr]
    rfl

/-- Non-vacuity: three polls. -/
example : ∃ f : ClockFit ℚ, fitClocks [⟨0, 1000, 2⟩, ⟨1000, 2010, 1004⟩, ⟨1000, 2011, 1006⟩] = .ok f :=
  (C197_fit_iff _).mpr (by refine ⟨by simp, ?_, ?_⟩ <;> decide)

/-- C197 (partial): with at least two polls of increasing vehicle time, every time is put on the straight line through the polls around it.
Missing: a single poll and equal vehicle times, see `C197_usable_false`. -/
theorem C197_line_partial (polls : List ClockPoll) (f : ClockFit K) (h : fitClocks polls = .ok f) (h2 : 2 ≤ polls.length) (divisions stamp : K) :
    ∃ y, correctStamp f divisions stamp = .ok y ∧ OnClockLine polls (stamp / divisions) y := by
  obtain ⟨-, -, -, ht, ho, hs⟩ := fitClocks_ok h
  have hlen : f.times.length = polls.length := by rw [ht, List.length_map]
  have hx := lastIndex (fun i => (f.times[i]?).getD 0 ≤ stamp / divisions) (polls.length - 1)
  have hj : pollIndex f.times (stamp / divisions) =
      (List.range (polls.length - 1)).foldl (fun j i => if (f.times[i]?).getD 0 ≤ stamp / divisions then i else j) 0 := by
    rw [pollIndex, hlen]
  simp only [correctStamp, hj]
  simp only at hx
  generalize (List.range (polls.length - 1)).foldl (fun j i => if (f.times[i]?).getD 0 ≤ stamp / divisions then i else j) 0 = j at hx ⊢
  generalize stamp / divisions = t at *
  have hj1 : j + 1 < polls.length := by
    rcases hx.2 with h | h <;> omega
  have hp : polls[j]? = some (polls[j]'(by omega)) := List.getElem?_eq_getElem _
  have hq : polls[j + 1]? = some (polls[j + 1]'hj1) := List.getElem?_eq_getElem _
  generalize (polls[j]'(by omega)) = p at hp
  generalize (polls[j + 1]'hj1) = q at hq
  have hm := (pollSlopes_ok _ _ hs).2 j (pollPoint p) (pollPoint q) (by rw [List.getElem?_map, hp]; rfl) (by rw [List.getElem?_map, hq]; rfl)
  have htp : f.times[j]? = some (vehicleTime p) := by rw [ht, List.getElem?_map, hp]; rfl
  have htq : f.times[j + 1]? = some (vehicleTime q) := by rw [ht, List.getElem?_map, hq]; rfl
  have hop : f.offsets[j]? = some (biocamMid p) := by rw [ho, List.getElem?_map, hp]; rfl
  rw [pyGet_of_getElem? _ _ _ htp, pyGet_of_getElem? _ _ _ hop, pyGet_of_getElem? _ _ _ hm.2]
  refine ⟨_, rfl, j, p, q, hp, hq, ?_, ?_, ?_⟩
  · rcases hx.2 with h | h
    · exact Or.inl h
    · right
      simpa [htp] using h.2
  · by_cases hl : j + 2 = polls.length
    · exact Or.inl hl
    · right
      by_contra hc
      have := hx.1 (j + 1) (by omega) (by simpa [htq] using hc)
      omega
  · have h0 : ((q.alr : K) - (p.alr : K)) ≠ 0 := hm.1
    simp only [pollPoint, vehicleTime, biocamMid]
    field_simp
    ring

/-- Non-vacuity: between the first two polls the clock of BioCam runs at half the speed. -/
example : ((fitClocks [⟨0, 1000, 0⟩, ⟨1000, 3000, 1000⟩] : Res (ClockFit ℚ)).bind fun f => correctStamp f 1000 2500).toOption = some (3 / 4) := by
  decide +kernel

/-- C197: a time at which the clocks were compared is corrected to what BioCam showed, the middle of the two readings. -/
theorem C197_at_polls (polls : List ClockPoll) (f : ClockFit K) (h : fitClocks polls = .ok f) (h2 : 2 ≤ polls.length) (p : ClockPoll) (hp : p ∈ polls)
    (divisions : K) (hd : divisions ≠ 0) : correctStamp f divisions (vehicleTime p * divisions) = .ok (biocamMid p) := by
  obtain ⟨y, hy, i, a, b, ha, hb, h0, h1, hl⟩ := C197_line_partial polls f h h2 divisions (vehicleTime p * divisions)
  rw [mul_div_cancel_right₀ _ hd] at h0 h1 hl
  rw [hy]
  refine congrArg Except.ok ?_
  have hs := ((C197_fit_iff (K := K) polls).mp ⟨f, h⟩).2.2
  rw [List.pairwise_map, List.pairwise_iff_getElem] at hs
  obtain ⟨k, hk, rfl⟩ := List.getElem_of_mem hp
  obtain ⟨hi, rfl⟩ := List.getElem?_eq_some_iff.mp ha
  obtain ⟨hi1, rfl⟩ := List.getElem?_eq_some_iff.mp hb
  have lt : ∀ (m n : ℕ) (hm : m < polls.length) (hn : n < polls.length), m < n → (vehicleTime polls[m] : K) < vehicleTime polls[n] := by
    intro m n hm hn hmn
    have h3 := hs m n hm hn hmn
    simp only [vehicleTime]
    have h4 : (polls[m].alr : K) < (polls[n].alr : K) := by exact_mod_cast h3
    linarith
  have hab := lt i (i + 1) hi hi1 (by omega)
  have hki : k = i ∨ k = i + 1 := by
    by_contra hc
    rcases Nat.lt_or_ge k i with hlt | hge
    · rcases h0 with h0 | h0
      · omega
      · exact absurd (lt k i hk hi hlt) (not_lt.mpr h0)
    · rcases h1 with h1 | h1
      · omega
      · exact absurd (lt (i + 1) k hi1 hk (by omega)) (not_lt.mpr h1.le)
  have hne : (vehicleTime polls[i + 1] : K) - vehicleTime polls[i] ≠ 0 := (sub_pos.mpr hab).ne'
  rcases hki with rfl | rfl
  · have : (y - biocamMid polls[k]) * (vehicleTime polls[k + 1] - vehicleTime polls[k]) = 0 := by rw [hl]; ring
    rcases mul_eq_zero.mp this with h | h
    · linarith
    · exact absurd h hne
  · have : (y - biocamMid polls[i + 1]) * (vehicleTime polls[i + 1] - vehicleTime polls[i]) = 0 := by
      linear_combination hl
    rcases mul_eq_zero.mp this with h | h
    · linarith
    · exact absurd h hne

/-- C197 (partial): later stays later if the BioCam times of the polls, the middles of the two readings, increase. Missing: the readings after the
answer are not checked, see `C197_order_false`. -/
theorem C197_order_partial (polls : List ClockPoll) (f : ClockFit K) (h : fitClocks polls = .ok f) (h2 : 2 ≤ polls.length)
    (hb : (polls.map (biocamMid (K := K))).Pairwise (· < ·)) (divisions : K) (hd : 0 < divisions) (s s' y y' : K) (hss : s < s')
    (hy : correctStamp f divisions s = .ok y) (hy' : correctStamp f divisions s' = .ok y') : y < y' := by
  obtain ⟨z, hz, i, a, b, ha, hb1, h0, h1, hl⟩ := C197_line_partial polls f h h2 divisions s
  obtain ⟨z', hz', j, c, d, hc, hd1, k0, k1, hl'⟩ := C197_line_partial polls f h h2 divisions s'
  rw [hz] at hy
  rw [hz'] at hy'
  cases hy
  cases hy'
  have htt : s / divisions < s' / divisions := div_lt_div_of_pos_right hss hd
  generalize s / divisions = t at *
  generalize s' / divisions = t' at *
  have hs := ((C197_fit_iff (K := K) polls).mp ⟨f, h⟩).2.2
  rw [List.pairwise_map, List.pairwise_iff_getElem] at hs hb
  obtain ⟨hi, rfl⟩ := List.getElem?_eq_some_iff.mp ha
  obtain ⟨hi1, rfl⟩ := List.getElem?_eq_some_iff.mp hb1
  obtain ⟨hj, rfl⟩ := List.getElem?_eq_some_iff.mp hc
  obtain ⟨hj1, rfl⟩ := List.getElem?_eq_some_iff.mp hd1
  have lt : ∀ (m n : ℕ) (hm : m < polls.length) (hn : n < polls.length), m < n → (vehicleTime polls[m] : K) < vehicleTime polls[n] := by
    intro m n hm hn hmn
    have h3 := hs m n hm hn hmn
    simp only [vehicleTime]
    have h4 : (polls[m].alr : K) < (polls[n].alr : K) := by exact_mod_cast h3
    linarith
  have le : ∀ (m n : ℕ) (hm : m < polls.length) (hn : n < polls.length), m ≤ n →
      (vehicleTime polls[m] : K) ≤ vehicleTime polls[n] ∧ (biocamMid polls[m] : K) ≤ biocamMid polls[n] := by
    intro m n hm hn hmn
    rcases Nat.lt_or_ge m n with h | h
    · exact ⟨(lt m n hm hn h).le, (hb m n hm hn h).le⟩
    · obtain rfl : m = n := by omega
      exact ⟨le_refl _, le_refl _⟩
  have hA := sub_pos.mpr (lt i (i + 1) hi hi1 (by omega))
  have hB := sub_pos.mpr (hb i (i + 1) hi hi1 (by omega))
  have hC := sub_pos.mpr (lt j (j + 1) hj hj1 (by omega))
  have hD := sub_pos.mpr (hb j (j + 1) hj hj1 (by omega))
  rcases Nat.lt_trichotomy i j with hij | rfl | hij
  · -- the value at the end of the earlier segment separates them
    have e1 : t < vehicleTime polls[i + 1] := by
      rcases h1 with h1 | h1
      · omega
      · exact h1
    have e2 : vehicleTime polls[j] ≤ t' := by
      rcases k0 with k0 | k0
      · omega
      · exact k0
    have f1 : y < biocamMid polls[i + 1] := by
      by_contra hcon
      have : (biocamMid polls[i + 1] - biocamMid polls[i] : K) * (vehicleTime polls[i + 1] - vehicleTime polls[i]) ≤
          (y - biocamMid polls[i]) * (vehicleTime polls[i + 1] - vehicleTime polls[i]) := by
        apply mul_le_mul_of_nonneg_right _ hA.le
        linarith
      have h3 : (t - vehicleTime polls[i]) * (biocamMid polls[i + 1] - biocamMid polls[i]) <
          (vehicleTime polls[i + 1] - vehicleTime polls[i]) * (biocamMid polls[i + 1] - biocamMid polls[i]) := by
        apply mul_lt_mul_of_pos_right _ hB
        linarith
      linarith
    have f2 : biocamMid polls[j] ≤ y' := by
      by_contra hcon
      have : (y' - biocamMid polls[j]) * (vehicleTime polls[j + 1] - vehicleTime polls[j]) < 0 :=
        mul_neg_of_neg_of_pos (by linarith) hC
      have h3 : 0 ≤ (t' - vehicleTime polls[j]) * (biocamMid polls[j + 1] - biocamMid polls[j]) := mul_nonneg (by linarith) hD.le
      linarith
    have := (le (i + 1) j hi1 hj (by omega)).2
    linarith
  · by_contra hcon
    have h3 : (t - vehicleTime polls[i]) * (biocamMid polls[i + 1] - biocamMid polls[i]) <
        (t' - vehicleTime polls[i]) * (biocamMid polls[i + 1] - biocamMid polls[i]) := by
      apply mul_lt_mul_of_pos_right _ hB
      linarith
    have h4 : (y' - biocamMid polls[i]) * (vehicleTime polls[i + 1] - vehicleTime polls[i]) ≤
        (y - biocamMid polls[i]) * (vehicleTime polls[i + 1] - vehicleTime polls[i]) := by
      apply mul_le_mul_of_nonneg_right _ hA.le
      linarith
    linarith
  · exfalso
    have e1 : vehicleTime polls[i] ≤ t := by
      rcases h0 with h0 | h0
      · omega
      · exact h0
    have e2 : t' < vehicleTime polls[j + 1] := by
      rcases k1 with k1 | k1
      · omega
      · exact k1
    have := (le (j + 1) i hj1 hi (by omega)).1
    linarith

/-- Non-vacuity: the middles 1 and 1002. -/
example : ([⟨0, 1000, 2⟩, ⟨1000, 2010, 1004⟩].map (biocamMid (K := ℚ))).Pairwise (· < ·) := by
  norm_num [biocamMid]

/-- C197 is false for a log with a single poll and for two polls at the same vehicle time. -/
theorem C197_usable_false : ¬ AllPollsUsable ℚ ∧
    (fitClocks [⟨0, 1000, 2⟩, ⟨1000, 1000, 1004⟩] : Res (ClockFit ℚ)) = .error .zeroDivision ∧
    ∀ (p : ClockPoll) (s : ℚ), ((fitClocks [p] : Res (ClockFit ℚ)).bind fun f => correctStamp f 1 s) = .error .indexError := by
  have h1 : ∀ (p : ClockPoll) (s : ℚ), ((fitClocks [p] : Res (ClockFit ℚ)).bind fun f => correctStamp f 1 s) = .error .indexError := by
    intro p s
    rfl
  refine ⟨?_, ?_, h1⟩
  · intro h
    obtain ⟨f, hf, hy⟩ := h [⟨0, 0, 0⟩] (by simp) (by simp) (by simp)
    obtain ⟨y, hy⟩ := hy 0
    have := h1 ⟨0, 0, 0⟩ 0
    rw [hf] at this
    simp only [Except.bind] at this
    rw [hy] at this
    cases this
  · simp [fitClocks, sortedNat, pollSlopes, pollPoint, bind, Except.bind]

/-- C197 is false if the second reading of the first poll came so late that the middles decrease: the checks pass, but later times are corrected to
earlier ones. -/
theorem C197_order_false : ¬ CorrectionKeepsOrder ℚ := by
  intro h
  have hf : fitClocks [⟨0, 0, 10000⟩, ⟨1, 1000, 1⟩] = .ok (⟨[0, 1], [5, 1 / 1000], [-4999 / 1000]⟩ : ClockFit ℚ) := by
    rw [fitClocks, if_neg (by simp)]
    norm_num [sortedNat, pollSlopes, pollPoint, bind, Except.bind]
  have := h _ _ hf 0 1 5 (1 / 1000) (by norm_num) (by norm_num [correctStamp, pollIndex, pyGet, bind, Except.bind])
    (by norm_num [correctStamp, pollIndex, pyGet, bind, Except.bind])
  norm_num at this

/-! ## Lines and files -/

private theorem stripDigits (w n : ℕ) : stripBlanks (padDigits w n) = padDigits w n ∧
    (0 < w → stripBlanks (padDigits w n ++ ['\n']) = padDigits w n) := by
  have hd : ∀ c ∈ padDigits w n, isBlank c = false := by
    intro c hc
    have := List.all_eq_true.mp (padDigits_all w n) c hc
    by_contra hb
    rw [Bool.not_eq_false] at hb
    simp only [isBlank, decide_eq_true_eq] at hb
    rcases hb with rfl | rfl | rfl | rfl <;> revert this <;> decide
  have h1 : ∀ c ∈ (padDigits w n).head?, isBlank c = false := fun c hc => hd c (List.mem_of_mem_head? hc)
  have h2 : ∀ c ∈ (padDigits w n).getLast?, isBlank c = false := fun c hc => hd c (List.mem_of_getLast? hc)
  refine ⟨stripBlanks_id _ h1 h2, fun hw => stripBlanks_line _ ?_ h1 h2⟩
  intro h
  have := padDigits_length w n
  rw [h] at this
  simp at this
  omega

private theorem pollLine_text (marked : List Char → Bool) (l : PollText) (hg : l.Good) (hm : marked l.text = true) :
    pollLine marked l.text = .ok (some l.poll) := by
  obtain ⟨hw, h0, h1, h2, hf⟩ := hg
  have hc : (fun c : Char => decide (c = ',')) ',' = true := rfl
  have hno : ∀ f : List Char, ',' ∉ f → splitAtSep (fun c => decide (c = ',')) f = [f] := by
    intro f hf
    refine splitSep_none _ f ?_
    intro c hcf
    by_contra h
    rw [Bool.not_eq_false, decide_eq_true_eq] at h
    exact hf (h ▸ hcf)
  have hdig : ∀ n, ',' ∉ padDigits l.w n := by
    intro n hmem
    have := List.all_eq_true.mp (padDigits_all l.w n) _ hmem
    revert this
    decide
  have hlast : ',' ∉ padDigits l.w l.poll.bc1 ++ ['\n'] := by
    intro h
    rcases List.mem_append.mp h with h | h
    · exact hdig _ h
    · revert h
      decide
  have hs : splitAtSep (fun c => decide (c = ',')) l.text = [l.head, padDigits l.w l.poll.bc0, l.f2, l.f3, l.f4, padDigits l.w l.poll.alr, l.f6,
      padDigits l.w l.poll.bc1 ++ ['\n']] := by
    simp only [PollText.text]
    rw [splitSep_append _ ',' hc, splitSep_append _ ',' hc, splitSep_append _ ',' hc, splitSep_append _ ',' hc, splitSep_append _ ',' hc,
      splitSep_append _ ',' hc, splitSep_append _ ',' hc, hno _ (hf l.head (by simp)), hno _ (hdig _), hno _ (hf l.f2 (by simp)),
      hno _ (hf l.f3 (by simp)), hno _ (hf l.f4 (by simp)), hno _ (hdig _), hno _ (hf l.f6 (by simp)), hno _ hlast]
    rfl
  rw [pollLine, if_pos hm]
  simp only [hs]
  have e1 := (stripDigits l.w l.poll.bc0).1
  have e2 := (stripDigits l.w l.poll.alr).1
  have e3 := (stripDigits l.w l.poll.bc1).2 hw
  have g1 : ∀ a b c d e f g h : List Char, pyGet [a, b, c, d, e, f, g, h] 1 = .ok b := fun _ _ _ _ _ _ _ _ => rfl
  have g5 : ∀ a b c d e f g h : List Char, pyGet [a, b, c, d, e, f, g, h] 5 = .ok f := fun _ _ _ _ _ _ _ _ => rfl
  have g7 : ∀ a b c d e f g h : List Char, pyGet [a, b, c, d, e, f, g, h] 7 = .ok h := fun _ _ _ _ _ _ _ _ => rfl
  simp only [g1, g5, g7, bind, Except.bind, e1, e2, e3, pyInt_padDigits _ _ hw h0, pyInt_padDigits _ _ hw h1, pyInt_padDigits _ _ hw h2]

/-- C197: every line of the logs that is marked as a poll gives the poll it states, in order; all other lines are skipped. -/
theorem C197_polls (marked : List Char → Bool) (lines : List (PollText ⊕ List Char))
    (h : ∀ x ∈ lines, x.elim (fun l => l.Good ∧ marked l.text = true) (fun t => marked t = false)) :
    pollLines marked (lines.map (Sum.elim PollText.text id)) = .ok (lines.filterMap fun x => x.elim (fun l => some l.poll) fun _ => none) := by
  induction lines with
  | nil => rfl
  | cons x lines ih =>
    have ih := ih fun y hy => h y (List.mem_cons_of_mem _ hy)
    have hx := h x (List.mem_cons_self ..)
    rw [List.map_cons, pollLines, ih]
    cases x with
    | inl l =>
      simp only [Sum.elim_inl] at hx ⊢
      rw [pollLine_text marked l hx.1 hx.2]
      rfl
    | inr t =>
      simp only [Sum.elim_inr, id_eq] at hx ⊢
      rw [pollLine, if_neg (by simp [hx])]
      rfl

/-- Non-vacuity: a poll. -/
example : (PollText.mk ['p'] [] [] [] ['b'] 4 ⟨17, 1000, 23⟩).Good ∧
    (PollText.mk ['p'] [] [] [] ['b'] 4 ⟨17, 1000, 23⟩).text = "p,0017,,,,1000,b,0023\n".toList := by
  refine ⟨⟨by norm_num, by norm_num, by norm_num, by norm_num, ?_⟩, by decide +kernel⟩
  simp

private theorem replaceCsv_length : ∀ f : List Char, f.length ≤ (replaceCsv f).length := by
  intro f
  induction f using replaceCsv.induct with
  | case1 l ih =>
    rw [replaceCsv]
    simp only [List.length_cons, List.length_append, List.length_nil]
    omega
  | case2 c l h ih =>
    rw [replaceCsv]
    · simpa using ih
    · exact h
  | case3 => simp [replaceCsv]

private theorem replaceCsv_append (post : List Char) : ∀ f : List Char, (∀ a b, f ≠ a ++ (['.', 'c', 's', 'v'] ++ b)) →
    replaceCsv (f ++ (['.', 'c', 's', 'v'] ++ post)) = f ++ replaceCsv (['.', 'c', 's', 'v'] ++ post)
  | [], _ => rfl
  | c :: f, h => by
    have ih := replaceCsv_append post f fun a b hab => h (c :: a) b (by rw [hab]; rfl)
    rw [List.cons_append, replaceCsv, ih]
    · rfl
    · rintro l rfl hl
      rcases f with _ | ⟨d, _ | ⟨e, _ | ⟨g, f⟩⟩⟩
      · simp at hl
      · simp at hl
      · simp at hl
      · simp only [List.cons_append, List.cons.injEq] at hl
        obtain ⟨rfl, rfl, rfl, -⟩ := hl
        exact h [] f rfl

private theorem outputFiles_ok {ex : List Char → Bool} {force : Bool} {groups : List (List (List Char))} {l : List (List Char × List Char)}
    (h : outputFiles ex force groups = .ok l) :
    (∀ f ∈ groups.filterMap List.head?, f.drop (f.length - 4) = ['.', 'c', 's', 'v']) ∧
    (force = false → ∀ f ∈ groups.filterMap List.head?, ex (replaceCsv f) = false) ∧
    l = (groups.filterMap List.head?).map fun f => (f, replaceCsv f) := by
  simp only [outputFiles] at h
  by_cases h0 : ((groups.filterMap List.head?).all fun f => decide (f.drop (f.length - 4) = ['.', 'c', 's', 'v'])) = true
  · rw [if_pos h0] at h
    by_cases h1 : force = false ∧ ((groups.filterMap List.head?).any fun f => ex (replaceCsv f)) = true
    · rw [if_pos h1] at h
      cases h
    · rw [if_neg h1] at h
      cases h
      refine ⟨?_, ?_, rfl⟩
      · intro f hf
        simpa using List.all_eq_true.mp h0 f hf
      · intro hforce f hf
        by_contra hc
        exact h1 ⟨hforce, List.any_eq_true.mpr ⟨f, hf, by simpa using hc⟩⟩
  · rw [if_neg h0] at h
    cases h

/-- C197: no input is overwritten, and without `-f` no file that exists. -/
theorem C197_no_overwrite (ex : List Char → Bool) (force : Bool) (groups : List (List (List Char))) (l : List (List Char × List Char))
    (h : outputFiles ex force groups = .ok l) : ∀ x ∈ l, x.2 ≠ x.1 ∧ (force = false → ex x.2 = false) := by
  obtain ⟨h0, h1, rfl⟩ := outputFiles_ok h
  intro x hx
  obtain ⟨f, hf, rfl⟩ := List.mem_map.mp hx
  refine ⟨?_, fun hfo => h1 hfo f hf⟩
  have hlong : ∀ g : List Char, g.drop (g.length - 4) = ['.', 'c', 's', 'v'] → g.length < (replaceCsv g).length := by
    intro g
    induction g using replaceCsv.induct with
    | case1 l ih =>
      intro _
      rw [replaceCsv]
      have := replaceCsv_length l
      simp only [List.length_cons, List.length_append, List.length_nil]
      omega
    | case2 c l hne ih =>
      intro hg
      rw [replaceCsv]
      · have hlen := congrArg List.length hg
        simp only [List.length_drop, List.length_cons, List.length_nil] at hlen
        by_cases h3 : l.length = 3
        · have : (c :: l).length - 4 = 0 := by simp [h3]
          rw [this, List.drop_zero] at hg
          injection hg with hc hl
          exact absurd hl (hne [] hc)
        · have h5 : (c :: l).length - 4 = (l.length - 4) + 1 := by
            simp only [List.length_cons]
            omega
          rw [h5, List.drop_succ_cons] at hg
          have := ih hg
          simpa using this
      · exact hne
    | case3 =>
      intro hg
      simp at hg
  intro he
  have h2 := hlong f (h0 f hf)
  simp only at he
  rw [he] at h2
  exact lt_irrefl _ h2

/-- C197 (partial): with one file after each `-a`, whose path has ".csv" only at its end, each is corrected into the file named as promised.
Missing: see `C197_files_false`. -/
theorem C197_files_partial (bases : List (List Char)) (h : ∀ b ∈ bases, ∀ x y, b ≠ x ++ (['.', 'c', 's', 'v'] ++ y)) :
    outputFiles (fun _ => false) false (bases.map fun b => [b ++ ['.', 'c', 's', 'v']]) =
      .ok (bases.map fun b => (b ++ ['.', 'c', 's', 'v'], b ++ ['_', 'c', 'o', 'r', 'r', 'e', 'c', 't', 'e', 'd', '.', 'c', 's', 'v'])) := by
  have hf : (bases.map fun b => [b ++ ['.', 'c', 's', 'v']]).filterMap List.head? = bases.map fun b => b ++ ['.', 'c', 's', 'v'] := by
    rw [List.filterMap_map]
    exact congrFun (List.filterMap_eq_map (f := fun b : List Char => b ++ ['.', 'c', 's', 'v'])) bases
  simp only [outputFiles, hf]
  rw [if_pos, if_neg]
  · rw [List.map_map]
    refine congrArg Except.ok (List.map_congr_left ?_)
    intro b hb
    have := replaceCsv_append [] b (h b hb)
    rw [List.append_nil] at this
    simp only [Function.comp, this]
    rfl
  · simp
  · simp

/-- Non-vacuity: two files. -/
example : outputFiles (fun _ => false) false [["a.csv".toList], ["b.csv".toList]] =
    .ok [("a.csv".toList, "a_corrected.csv".toList), ("b.csv".toList, "b_corrected.csv".toList)] := by rfl

/-- C197 is false: of several files after one `-a` only the first is corrected, and ".csv" is replaced in the name of a folder as well. -/
theorem C197_files_false : ¬ AllFilesCorrected ∧
    outputFiles (fun _ => false) false [["a.csv".toList, "b.csv".toList]] = .ok [("a.csv".toList, "a_corrected.csv".toList)] ∧
    outputFiles (fun _ => false) false [["d.csv/a.csv".toList]] = .ok [("d.csv/a.csv".toList, "d_corrected.csv/a_corrected.csv".toList)] := by
  have h1 : outputFiles (fun _ => false) false [["a.csv".toList, "b.csv".toList]] = .ok [("a.csv".toList, "a_corrected.csv".toList)] := by rfl
  refine ⟨?_, h1, by rfl⟩
  intro h
  have := congrArg List.length (h _ _ h1)
  simp at this

/-! ## C243: a run of the script -/

section
variable {K : Type} [Field K] [LinearOrder K]

private theorem correctFiles_other (f : ClockFit K) (d : K) (col : List Char) : ∀ (files : List (List Char × List Char)) (s : AlrDisk K) (x : List Char),
    (∀ p ∈ files, p.2 ≠ x) → (correctFiles f d col files s).1 x = s x
  | [], _, _, _ => rfl
  | p :: rest, s, x, h => by
    unfold correctFiles
    cases s p.1 with
    | none => rfl
    | some t =>
      dsimp only
      cases correctTable f d col t with
      | error e => rfl
      | ok t' =>
        dsimp only
        rw [correctFiles_other f d col rest _ x fun q hq => h q (List.mem_cons_of_mem _ hq), if_neg fun e => h p List.mem_cons_self e.symm]

/-- C243: without `-f` no file that exists is changed, however the run ends. -/
theorem C243_keeps (marked : List Char → Bool) (logs : List (Option (List (List Char)))) (groups : Option (List (List (List Char))))
    (divisions : K) (col : List Char) (s : AlrDisk K) (x : List Char) (t : AlrTable K) (hx : s x = some t) :
    (alrMain marked logs groups false divisions col s).1 x = some t := by
  unfold alrMain
  cases ho : givenFiles (fun p => (s p).isSome) false groups with
  | error e => exact hx
  | ok files =>
    dsimp only
    cases (readLogs marked logs).bind (fitClocks (K := K)) with
    | error e => exact hx
    | ok f =>
      dsimp only
      rw [correctFiles_other, hx]
      intro p hp he
      cases groups with
      | none => cases ho; cases hp
      | some g =>
        have := (C197_no_overwrite (fun p => (s p).isSome) false g files ho p hp).2 rfl
        rw [he, hx] at this
        cases this

example : ∃ s : AlrDisk ℚ, (s "a.csv".toList).isSome = true := ⟨fun _ => some ⟨[], []⟩, rfl⟩

variable [IsStrictOrderedRing K]

private theorem mapM_cells (polls : List ClockPoll) (f : ClockFit K) (h : fitClocks polls = .ok f) (h2 : 2 ≤ polls.length) (d : K) (k : ℕ) :
    ∀ rows : List (List (Option K)), ∃ c, (rows.mapM fun r => correctCell f d ((r[k]?).getD none)) = .ok c ∧
      List.Forall₂ (CorrectedRow polls d k) rows ((c.zip rows).map fun p => p.1 :: p.2)
  | [] => ⟨[], rfl, List.Forall₂.nil⟩
  | r :: rows => by
    obtain ⟨cs, hc, hf⟩ := mapM_cells polls f h h2 d k rows
    have key : ∃ c, correctCell f d ((r[k]?).getD none) = .ok c ∧ CorrectedRow polls d k r (c :: r) := by
      have hno : ∃ x, correctCell f d none = .ok x ∧ x = none := by
        obtain ⟨y, hy, -⟩ := C197_line_partial polls f h h2 1 0
        obtain ⟨-, -, -, ht, ho, hs⟩ := fitClocks_ok h
        have hl := (pollSlopes_ok _ _ hs).1
        have g1 : f.times[0]? = some (f.times[0]'(by rw [ht, List.length_map]; omega)) := List.getElem?_eq_getElem _
        have g2 : f.offsets[0]? = some (f.offsets[0]'(by rw [ho, List.length_map]; omega)) := List.getElem?_eq_getElem _
        have g3 : f.slopes[0]? = some (f.slopes[0]'(by rw [List.length_map] at hl; omega)) := List.getElem?_eq_getElem _
        have e1 := pyGet_of_getElem? _ _ _ g1
        have e2 := pyGet_of_getElem? _ _ _ g2
        have e3 := pyGet_of_getElem? _ _ _ g3
        refine ⟨none, ?_, rfl⟩
        simp only [Nat.cast_zero] at e1 e2 e3
        simp only [correctCell, e1, e2, e3, bind, Except.bind]
      rcases hr : r[k]? with _ | _ | st
      · obtain ⟨x, hx, rfl⟩ := hno
        exact ⟨none, hx, none, rfl, by simp [hr]⟩
      · obtain ⟨x, hx, rfl⟩ := hno
        exact ⟨none, hx, none, rfl, by simp [hr]⟩
      · obtain ⟨y, hy, hl⟩ := C197_line_partial polls f h h2 d st
        refine ⟨some y, ?_, some y, rfl, ?_⟩
        · simp only [Option.getD_some, correctCell, hy, Except.map]
        · rw [hr]
          exact ⟨y, rfl, hl⟩
    obtain ⟨c, h1, h3⟩ := key
    refine ⟨c :: cs, ?_, ?_⟩
    · rw [List.mapM_cons, h1]
      simp only [bind, Except.bind, hc, pure, Except.pure]
    · rw [List.zip_cons_cons, List.map_cons]
      exact List.Forall₂.cons h3 hf

private theorem correctTable_ok (polls : List ClockPoll) (f : ClockFit K) (h : fitClocks polls = .ok f) (h2 : 2 ≤ polls.length) (d : K)
    (col : List Char) (t : AlrTable K) (ht : Correctable col t) :
    ∃ t', correctTable f d col t = .ok t' ∧ CorrectedTable polls d col t t' := by
  obtain ⟨c, hc, hf⟩ := mapM_cells polls f h h2 d (t.names.idxOf col) t.rows
  refine ⟨⟨correctedColumn :: t.names, (c.zip t.rows).map fun p => p.1 :: p.2⟩, ?_, rfl, t.names.idxOf col, ?_, hf⟩
  · rw [correctTable, if_neg (not_not.mpr ht.2.1), if_neg ht.1, if_neg (show correctedColumn ∉ t.names from ht.2.2), hc]
    rfl
  · rw [List.getElem?_eq_getElem (List.idxOf_lt_length_of_mem ht.2.1), List.getElem_idxOf]

private theorem correctFiles_all (polls : List ClockPoll) (f : ClockFit K) (h : fitClocks polls = .ok f) (h2 : 2 ≤ polls.length) (d : K)
    (col : List Char) : ∀ (files : List (List Char × List Char)) (s : AlrDisk K),
    (∀ p ∈ files, ∃ t, s p.1 = some t ∧ Correctable col t) → (files.map Prod.snd).Nodup → (∀ p ∈ files, ∀ q ∈ files, p.1 ≠ q.2) →
    (correctFiles f d col files s).2 = none ∧ ∀ p ∈ files, ∃ t t', s p.1 = some t ∧ (correctFiles f d col files s).1 p.2 = some t' ∧
      CorrectedTable polls d col t t'
  | [], _, _, _, _ => ⟨rfl, by simp⟩
  | p :: rest, s, hall, hnd, hne => by
    obtain ⟨t, ht, hc⟩ := hall p List.mem_cons_self
    obtain ⟨t', ht', hct⟩ := correctTable_ok polls f h h2 d col t hc
    have hsame : ∀ q ∈ rest, (if q.1 = p.2 then some t' else s q.1) = s q.1 := fun q hq =>
      if_neg (hne q (List.mem_cons_of_mem _ hq) p List.mem_cons_self)
    simp only [List.map_cons, List.nodup_cons] at hnd
    have ih := correctFiles_all polls f h h2 d col rest (fun x => if x = p.2 then some t' else s x)
      (fun q hq => by rw [hsame q hq]; exact hall q (List.mem_cons_of_mem _ hq)) hnd.2
      (fun a ha b hb => hne a (List.mem_cons_of_mem _ ha) b (List.mem_cons_of_mem _ hb))
    have e : correctFiles f d col (p :: rest) s = correctFiles f d col rest fun x => if x = p.2 then some t' else s x := by
      rw [correctFiles, ht]
      simp only [ht']
    rw [e]
    refine ⟨ih.1, ?_⟩
    intro q hq
    rcases List.mem_cons.mp hq with rfl | hq
    · refine ⟨t, t', ht, ?_, hct⟩
      rw [correctFiles_other f d col rest _ q.2 fun x hx he => hnd.1 (List.mem_map.mpr ⟨x, hx, he⟩), if_pos rfl]
    · obtain ⟨u, u', h3, h4, h5⟩ := ih.2 q hq
      exact ⟨u, u', by rw [← hsame q hq]; exact h3, h4, h5⟩

/-- C243 (partial): with one file after each `-a`, whose path has ".csv" only at its end, distinct files of which none is named as the output of
another, outputs that do not exist or `-f`, files that can be corrected and logs with two polls or more that fit: all are corrected, and no
other file is changed. Missing: see the theorems that follow and C197. -/
theorem C243_run_partial (marked : List Char → Bool) (logs : List (Option (List (List Char)))) (polls : List ClockPoll) (bases : List (List Char))
    (force : Bool) (divisions : K) (col : List Char) (s : AlrDisk K)
    (hl : readLogs marked logs = .ok polls) (h2 : 2 ≤ polls.length) (hb0 : (polls.map ClockPoll.bc0).Pairwise (· ≤ ·))
    (hb1 : (polls.map ClockPoll.alr).Pairwise (· < ·)) (hp : ∀ b ∈ bases, ∀ x y, b ≠ x ++ (".csv".toList ++ y)) (hn : bases.Nodup)
    (hio : ∀ a ∈ bases, ∀ b ∈ bases, a ≠ b ++ "_corrected".toList) (hex : force = true ∨ ∀ b ∈ bases, s (b ++ "_corrected.csv".toList) = none)
    (ht : ∀ b ∈ bases, ∃ t, s (b ++ ".csv".toList) = some t ∧ Correctable col t) :
    ∃ s', alrMain marked logs (some (bases.map fun b => [b ++ ".csv".toList])) force divisions col s = (s', none) ∧
      (∀ b ∈ bases, ∃ t t', s (b ++ ".csv".toList) = some t ∧ s' (b ++ "_corrected.csv".toList) = some t' ∧ CorrectedTable polls divisions col t t') ∧
      ∀ x, (∀ b ∈ bases, x ≠ b ++ "_corrected.csv".toList) → s' x = s x := by
  have e1 : ".csv".toList = ['.', 'c', 's', 'v'] := by decide
  have e2 : "_corrected.csv".toList = ['_', 'c', 'o', 'r', 'r', 'e', 'c', 't', 'e', 'd', '.', 'c', 's', 'v'] := by decide
  have e3 : "_corrected.csv".toList = "_corrected".toList ++ ".csv".toList := by decide
  have hf : (bases.map fun b => [b ++ ".csv".toList]).filterMap List.head? = bases.map fun b => b ++ ".csv".toList := by
    rw [List.filterMap_map]
    exact congrFun (List.filterMap_eq_map (f := fun b : List Char => b ++ ".csv".toList)) bases
  have hrep : ∀ b ∈ bases, replaceCsv (b ++ ".csv".toList) = b ++ "_corrected.csv".toList := by
    intro b hb
    have := replaceCsv_append [] b (by rw [← e1]; exact hp b hb)
    rw [List.append_nil] at this
    rw [e1, e2, this]
    rfl
  have hout : outputFiles (fun p => (s p).isSome) force (bases.map fun b => [b ++ ".csv".toList]) =
      .ok (bases.map fun b => (b ++ ".csv".toList, b ++ "_corrected.csv".toList)) := by
    simp only [outputFiles, hf]
    rw [if_pos, if_neg]
    · rw [List.map_map]
      refine congrArg Except.ok (List.map_congr_left ?_)
      intro b hb
      simp only [Function.comp, hrep b hb]
    · rintro ⟨h1, h3⟩
      rcases hex with h | h
      · rw [h] at h1; cases h1
      · obtain ⟨g, hg, hs⟩ := List.any_eq_true.mp h3
        obtain ⟨b, hb, rfl⟩ := List.mem_map.mp hg
        rw [hrep b hb, h b hb] at hs
        cases hs
    · rw [List.all_eq_true]
      intro g hg
      obtain ⟨b, hb, rfl⟩ := List.mem_map.mp hg
      rw [e1]
      simp
  obtain ⟨f, hfit⟩ := (C197_fit_iff (K := K) polls).mpr ⟨by rintro rfl; simp at h2, hb0, hb1⟩
  have hrun : alrMain marked logs (some (bases.map fun b => [b ++ ".csv".toList])) force divisions col s =
      correctFiles f divisions col (bases.map fun b => (b ++ ".csv".toList, b ++ "_corrected.csv".toList)) s := by
    unfold alrMain
    simp only [givenFiles, hout, hl, Except.bind, hfit]
  have hall := correctFiles_all polls f hfit h2 divisions col (bases.map fun b => (b ++ ".csv".toList, b ++ "_corrected.csv".toList)) s
    (by
      intro p hp
      obtain ⟨b, hb, rfl⟩ := List.mem_map.mp hp
      exact ht b hb)
    (by
      rw [List.map_map]
      exact hn.map fun a b h => List.append_cancel_right h)
    (by
      intro p hp q hq he
      obtain ⟨a, ha, rfl⟩ := List.mem_map.mp hp
      obtain ⟨b, hb, rfl⟩ := List.mem_map.mp hq
      simp only at he
      rw [e3, ← List.append_assoc] at he
      exact hio a ha b hb (List.append_cancel_right he))
  rw [hrun]
  refine ⟨_, Prod.ext rfl hall.1, ?_, ?_⟩
  · intro b hb
    exact hall.2 _ (List.mem_map.mpr ⟨b, hb, rfl⟩)
  · intro x hx
    refine correctFiles_other f divisions col _ s x ?_
    intro p hp he
    obtain ⟨b, hb, rfl⟩ := List.mem_map.mp hp
    exact hx b hb he.symm

private def exLog : List (List Char) := ["poll_time:,0,a,b,c,1000,d,0\n".toList, "x\n".toList, "poll_time:,1000,a,b,c,3000,d,1000\n".toList]
private def exMarked (l : List Char) : Bool := l.head? = some 'p'
private def exTable : AlrTable ℚ := ⟨["timestamp".toList, "depth".toList], [[some 1, some 10], [none, some 11], [some 2, some 12]]⟩
private def exDisk : AlrDisk ℚ := fun x => if x = "a.csv".toList then some exTable else if x = "b.csv".toList then some ⟨["time".toList], [[some 1]]⟩ else none

/-- Non-vacuity: the logs have two polls. -/
example : (readLogs exMarked [some exLog]).toOption = some [⟨0, 1000, 0⟩, ⟨1000, 3000, 1000⟩] := by decide +kernel

example : ∃ t, exDisk "a.csv".toList = some t ∧ Correctable "timestamp".toList t := ⟨exTable, by decide +kernel, by decide +kernel, by decide +kernel, by decide +kernel⟩

/-- C243 is false: if a file has no column of times, the files before it have been corrected when the run ends. -/
theorem C243_all_or_none_false : ¬ AllFilesOrNone ℚ := by
  intro h
  have h1 : (alrMain exMarked [some exLog] (some [["a.csv".toList], ["b.csv".toList]]) false (1 : ℚ) "timestamp".toList exDisk).2 = some .quit := by
    decide +kernel
  have h2 : (alrMain exMarked [some exLog] (some [["a.csv".toList], ["b.csv".toList]]) false (1 : ℚ) "timestamp".toList exDisk).1
      "a_corrected.csv".toList = some ⟨["corrected_timestamp".toList, "timestamp".toList, "depth".toList],
        [[some 0, some 1, some 10], [none, none, some 11], [some (1 / 2), some 2, some 12]]⟩ := by decide +kernel
  rw [h _ _ _ _ _ _ _ _ h1] at h2
  have h3 : exDisk "a_corrected.csv".toList = none := by decide +kernel
  rw [h3] at h2
  cases h2

/-- C243 is false: with `-f` the output of one input can be another input, which is lost. -/
theorem C243_inputs_false : ¬ InputsKept ℚ := by
  intro h
  let s : AlrDisk ℚ := fun x => if x = "a.csv".toList then some exTable else if x = "a_corrected.csv".toList then some ⟨["timestamp".toList], [[some 1]]⟩ else none
  have h1 := h exMarked [some exLog] [["a.csv".toList], ["a_corrected.csv".toList]] true 1 "timestamp".toList s "a_corrected.csv".toList
    (by decide +kernel)
  have h2 : (alrMain exMarked [some exLog] (some [["a.csv".toList], ["a_corrected.csv".toList]]) true (1 : ℚ) "timestamp".toList s).1
      "a_corrected.csv".toList ≠ s "a_corrected.csv".toList := by decide +kernel
  exact h2 h1

omit [IsStrictOrderedRing K] in
/-- C243: a file that was corrected is not corrected again: the run ends with an error, and its output is not written. -/
theorem C243_again (f : ClockFit K) (divisions : K) (col : List Char) (t : AlrTable K) (h : "corrected_timestamp".toList ∈ t.names) :
    ∃ e, correctTable f divisions col t = .error e := by
  have h' : correctedColumn ∈ t.names := h
  unfold correctTable
  rw [if_pos h']
  split_ifs
  · exact ⟨_, rfl⟩
  · exact ⟨_, rfl⟩
  · exact ⟨_, rfl⟩

end

end Oplab.Props
