import Mathlib.Algebra.Order.Field.Basic
import Mathlib.Algebra.Order.Field.Rat
import Mathlib.Tactic.Linarith
import Mathlib.Tactic.FieldSimp
import Mathlib.Tactic.Ring
import Mathlib.Tactic.NormNum
import Mathlib.Tactic.IntervalCases
import Verif.Model.Offset
import Verif.Spec.Sync
import Verif.Lemmas.Seek

/-! C82: dead reckoning is shifted onto the USBL fixes. -/

namespace Oplab.Props
open Oplab Oplab.Spec Oplab.Seek

set_option linter.unusedSectionVars false

section
variable {K : Type} [Field K] [LinearOrder K]

/-- `p` is the position of the track `tr` at time `q`, on the line through two successive samples of which the second is
not before `q`. -/
def OnSegment (tr : List (TrackPt K)) (q : K) (p : K × K) : Prop :=
  ∃ (m : ℕ) (a b : TrackPt K), tr[m]? = some a ∧ tr[m + 1]? = some b ∧ q ≤ b.t ∧
    OnLine a.t a.n b.t b.n q p.1 ∧ OnLine a.t a.e b.t b.e q p.2

private theorem seekNext_hit (dr : List (TrackPt K)) (q : K) (d : ℕ) (b : TrackPt K)
    (hb : dr[seekNext (dr.map (·.t)) q d + 1]? = some b) : q ≤ b.t := by
  obtain ⟨h1, h2, h3, h4⟩ := seekIdx_spec ((dr.map (·.t)).length - 1)
    (fun m => (dr.map (·.t))[m + 1]?.any (· < q)) (dr.map (·.t)).length d (by omega)
  have hl := (List.getElem?_eq_some_iff.1 hb).1
  have := h4 (by simp only [seekNext, List.length_map] at hl ⊢; omega)
  simp only [seekNext] at hb
  rw [List.getElem?_map, hb] at this
  simpa using this

private theorem positionsAt_spec [IsStrictOrderedRing K] (dr : List (TrackPt K)) (hs : dr.Pairwise fun a b => a.t < b.t) :
    ∀ (us : List (TrackPt K)) (d : ℕ), (positionsAt dr d us).length ≤ us.length ∧
      ∀ (i : ℕ) u p, us[i]? = some u → (positionsAt dr d us)[i]? = some p → OnSegment dr u.t p
  | [], d => ⟨by simp [positionsAt], fun _ _ _ h => by simp at h⟩
  | u :: us, d => by
    rw [positionsAt]
    by_cases hd : dr.length ≤ d + 1
    · rw [if_pos hd]
      exact ⟨Nat.zero_le _, fun _ _ _ _ h => by simp at h⟩
    · rw [if_neg hd]
      generalize hr : seekNext (dr.map (·.t)) u.t d = r
      cases ha : dr[r]? with
      | none => simp only [ha]; exact ⟨Nat.zero_le _, fun _ _ _ _ h => by simp at h⟩
      | some a =>
        cases hb : dr[r + 1]? with
        | none => simp only [ha, hb]; exact ⟨Nat.zero_le _, fun _ _ _ _ h => by simp at h⟩
        | some b =>
          obtain ⟨h1, h2⟩ := positionsAt_spec dr hs us r
          simp only [ha, hb]
          refine ⟨by simpa using h1, fun i x p hx hp => ?_⟩
          cases i with
          | zero =>
            simp at hx hp
            subst hx; subst hp
            have hab := head_lt_getElem _ hs ha hb (by omega)
            exact ⟨r, a, b, ha, hb, seekNext_hit dr u.t d b (by rw [hr]; exact hb),
              interp_onLine _ _ _ _ _ hab, interp_onLine _ _ _ _ _ hab⟩
          | succ i => exact h2 i x p (by simpa using hx) (by simpa using hp)

private theorem pyMean_ok {l : List K} {m : K} (h : pyMean l = .ok m) : l ≠ [] ∧ m = l.sum / (l.length : K) := by
  simp only [pyMean] at h
  split_ifs at h with h1
  exact ⟨h1, (Except.ok.inj h).symm⟩

/-- The result of `usblOffset` taken apart. -/
private theorem usblOffset_ok {dr us : List (TrackPt K)} {o : K × K} (h : usblOffset dr us = .ok o) :
    ∃ (s d : ℕ), usblStart dr us = .ok (s, d) ∧
      positionsAt dr d (us.drop s) ≠ [] ∧
      o.1 = (((us.drop s).take (positionsAt dr d (us.drop s)).length).map (·.n)).sum
          / ((((us.drop s).take (positionsAt dr d (us.drop s)).length).map (·.n)).length : K)
        - ((positionsAt dr d (us.drop s)).map Prod.fst).sum / (((positionsAt dr d (us.drop s)).map Prod.fst).length : K) ∧
      o.2 = (((us.drop s).take (positionsAt dr d (us.drop s)).length).map (·.e)).sum
          / ((((us.drop s).take (positionsAt dr d (us.drop s)).length).map (·.e)).length : K)
        - ((positionsAt dr d (us.drop s)).map Prod.snd).sum / (((positionsAt dr d (us.drop s)).map Prod.snd).length : K) := by
  simp only [usblOffset, bind, Except.bind] at h
  cases h2 : usblStart dr us with
  | error e => rw [h2] at h; cases h
  | ok p =>
        obtain ⟨s, d⟩ := p
        rw [h2] at h
        simp only at h
        cases h3 : pyMean ((((us.drop s).take (positionsAt dr d (us.drop s)).length)).map (·.n)) with
        | error e => rw [h3] at h; cases h
        | ok n1 =>
          cases h4 : pyMean ((positionsAt dr d (us.drop s)).map Prod.fst) with
          | error e => rw [h3, h4] at h; cases h
          | ok n2 =>
            cases h5 : pyMean ((((us.drop s).take (positionsAt dr d (us.drop s)).length)).map (·.e)) with
            | error e => rw [h3, h4, h5] at h; cases h
            | ok e1 =>
              cases h6 : pyMean ((positionsAt dr d (us.drop s)).map Prod.snd) with
              | error e => rw [h3, h4, h5, h6] at h; cases h
              | ok e2 =>
                rw [h3, h4, h5, h6] at h
                have h := Except.ok.inj h
                subst h
                obtain ⟨_, rfl⟩ := pyMean_ok h3
                obtain ⟨k4, rfl⟩ := pyMean_ok h4
                obtain ⟨_, rfl⟩ := pyMean_ok h5
                obtain ⟨_, rfl⟩ := pyMean_ok h6
                exact ⟨s, d, rfl, fun hc => k4 (by rw [hc]; rfl), rfl, rfl⟩

/-- C82: whenever the alignment succeeds on a track in order of time, some consecutive fixes (at least one) agree with
the aligned track on average: the sum of its positions at their times is the sum of the fixes. -/
theorem C82_agrees_on_average [IsStrictOrderedRing K] (dr us tr : List (TrackPt K)) (hs : dr.Pairwise fun a b => a.t < b.t)
    (hus : us ≠ []) (h : alignTrack dr us = .ok tr) :
    ∃ (pre used post : List (TrackPt K)) (pos : List (K × K)), us = pre ++ used ++ post ∧ used ≠ [] ∧
      pos.length = used.length ∧ (∀ (i : ℕ) u p, used[i]? = some u → pos[i]? = some p → OnSegment tr u.t p) ∧
      (pos.map Prod.fst).sum = (used.map (·.n)).sum ∧ (pos.map Prod.snd).sum = (used.map (·.e)).sum := by
  rw [alignTrack, if_neg hus] at h
  cases ho : usblOffset dr us with
  | error e => rw [ho] at h; cases h
  | ok o =>
    rw [ho] at h
    have htr := Except.ok.inj h
    obtain ⟨s, d, -, hne, hn, he⟩ := usblOffset_ok ho
    obtain ⟨hl, hseg⟩ := positionsAt_spec dr hs (us.drop s) d
    generalize positionsAt dr d (us.drop s) = pos at hne hn he hl hseg
    have hused : ((us.drop s).take pos.length).length = pos.length := by rw [List.length_take]; omega
    have hpos : (0 : K) < (pos.length : K) := by exact_mod_cast List.length_pos_iff.2 hne
    refine ⟨us.take s, (us.drop s).take pos.length, (us.drop s).drop pos.length, pos.map fun p => (p.1 + o.1, p.2 + o.2),
      ?_, ?_, by rw [List.length_map, hused], ?_, ?_, ?_⟩
    · rw [List.append_assoc, List.take_append_drop, List.take_append_drop]
    · intro hc
      rw [hc] at hused
      exact hne (List.length_eq_zero_iff.1 hused.symm)
    · intro i u p hu hp
      rw [List.getElem?_map] at hp
      obtain ⟨p0, hp0, rfl⟩ := Option.map_eq_some_iff.1 hp
      have hi : i < pos.length := (List.getElem?_eq_some_iff.1 hp0).1
      rw [List.getElem?_take_of_lt hi] at hu
      obtain ⟨m, a, b, ha, hb, hle, l1, l2⟩ := hseg i u p0 hu hp0
      subst htr
      refine ⟨m, { a with n := a.n + o.1, e := a.e + o.2 }, { b with n := b.n + o.1, e := b.e + o.2 }, ?_, ?_, hle, ?_, ?_⟩
      · rw [shiftTrack, List.getElem?_map, ha]; rfl
      · rw [shiftTrack, List.getElem?_map, hb]; rfl
      · simp only [OnLine] at l1 ⊢; linear_combination l1
      · simp only [OnLine] at l2 ⊢; linear_combination l2
    · rw [List.length_map, hused, List.length_map] at hn
      have e1 : (List.map Prod.fst (pos.map fun p => (p.1 + o.1, p.2 + o.2))).sum = (pos.map Prod.fst).sum + pos.length * o.1 := by
        rw [List.map_map]
        clear * -
        induction pos with
        | nil => simp
        | cons a l ih => simp only [List.map_cons, List.sum_cons, List.length_cons, ih, Function.comp]; push_cast; ring
      rw [e1, hn]
      field_simp
      ring
    · rw [List.length_map, hused, List.length_map] at he
      have e1 : (List.map Prod.snd (pos.map fun p => (p.1 + o.1, p.2 + o.2))).sum = (pos.map Prod.snd).sum + pos.length * o.2 := by
        rw [List.map_map]
        clear * -
        induction pos with
        | nil => simp
        | cons a l ih => simp only [List.map_cons, List.sum_cons, List.length_cons, ih, Function.comp]; push_cast; ring
      rw [e1, he]
      field_simp
      ring

/-- `p` is the position of the track `tr` at time `q`, between two successive samples that enclose `q`. -/
def OnTrack (tr : List (TrackPt K)) (q : K) (p : K × K) : Prop :=
  OnCurve (tr.map fun x => (x.t, x.n)) q p.1 ∧ OnCurve (tr.map fun x => (x.t, x.e)) q p.2

private theorem onTrack_of {dr : List (TrackPt K)} {r : ℕ} {a b : TrackPt K} {q : K} [IsStrictOrderedRing K] (ha : dr[r]? = some a)
    (hb : dr[r + 1]? = some b) (h1 : a.t ≤ q) (h2 : q ≤ b.t) (h : a.t < b.t) :
    OnTrack dr q (interpolate q a.t b.t a.n b.n, interpolate q a.t b.t a.e b.e) :=
  ⟨⟨r, _, _, by rw [List.getElem?_map, ha]; rfl, by rw [List.getElem?_map, hb]; rfl, h1, h2, interp_onLine _ _ _ _ _ h⟩,
    ⟨r, _, _, by rw [List.getElem?_map, ha]; rfl, by rw [List.getElem?_map, hb]; rfl, h1, h2, interp_onLine _ _ _ _ _ h⟩⟩

/-- The search lands between two samples that enclose the time. -/
private theorem seekNext_encloses (dr : List (TrackPt K)) (hs : dr.Pairwise fun a b => a.t < b.t) (dl x : TrackPt K)
    (hl : dr.getLast? = some dl) (q : K) (d : ℕ) (hx : dr[d]? = some x) (hxq : x.t ≤ q) (hd : d + 1 < dr.length) :
    (q ≤ dl.t → ∃ r a b, seekNext (dr.map (·.t)) q d = r ∧ r + 1 < dr.length ∧ dr[r]? = some a ∧ dr[r + 1]? = some b ∧
      a.t ≤ q ∧ q ≤ b.t) ∧ (dl.t < q → dr[seekNext (dr.map (·.t)) q d + 1]? = none) := by
  obtain ⟨h1, h2, h3, h4⟩ := seekIdx_spec ((dr.map (·.t)).length - 1)
    (fun m => (dr.map (·.t))[m + 1]?.any (· < q)) (dr.map (·.t)).length d (by omega)
  change d ≤ seekNext (dr.map (·.t)) q d at h1
  change seekNext (dr.map (·.t)) q d ≤ _ ∨ seekNext (dr.map (·.t)) q d = d at h2
  change ∀ m, d ≤ m → m < seekNext (dr.map (·.t)) q d → _ at h3
  change seekNext (dr.map (·.t)) q d < _ → (fun m => (dr.map (·.t))[m + 1]?.any (· < q)) (seekNext (dr.map (·.t)) q d) = false at h4
  generalize seekNext (dr.map (·.t)) q d = r at h1 h2 h3 h4
  simp only [List.length_map] at h2 h4
  rw [List.getLast?_eq_getElem?] at hl
  constructor
  · intro hq
    have hr : r < dr.length - 1 := by
      by_contra hc
      have e : r = dr.length - 1 := by omega
      have := h3 (r - 1) (by omega) (by omega)
      simp only [List.getElem?_map, show r - 1 + 1 = dr.length - 1 by omega, hl, Option.map_some, Option.any_some,
        decide_eq_true_eq] at this
      exact absurd this (not_lt.2 hq)
    refine ⟨r, dr[r], dr[r + 1], rfl, by omega, List.getElem?_eq_getElem _, List.getElem?_eq_getElem _, ?_, ?_⟩
    · rcases Nat.eq_or_lt_of_le h1 with h5 | h5
      · subst h5
        rw [(List.getElem?_eq_some_iff.1 hx).2]; exact hxq
      · have := h3 (r - 1) (by omega) (by omega)
        simp only [List.getElem?_map, show r - 1 + 1 = r by omega, List.getElem?_eq_getElem (show r < dr.length by omega), Option.map_some,
          Option.any_some, decide_eq_true_eq] at this
        exact this.le
    · have := h4 hr
      simpa [List.getElem?_map, List.getElem?_eq_getElem (show r + 1 < dr.length by omega)] using this
  · intro hq
    rw [List.getElem?_eq_none_iff]
    by_contra hc
    have := h4 (by omega)
    simp only [List.getElem?_map, List.getElem?_eq_getElem (show r + 1 < dr.length by omega), Option.map_some,
          Option.any_some, decide_eq_false_iff_not, not_lt] at this
    have h5 : dr[r + 1].t ≤ dl.t := by
      rcases Nat.lt_or_ge (r + 1) (dr.length - 1) with h6 | h6
      · exact (head_lt_getElem _ hs (List.getElem?_eq_getElem (by omega)) hl h6).le
      · have e : dr.length - 1 = r + 1 := by omega
        rw [e, List.getElem?_eq_getElem (by omega)] at hl
        rw [Option.some.inj hl]
    exact absurd (lt_of_lt_of_le hq this) (not_lt.2 h5)

private theorem positions_enclosed [IsStrictOrderedRing K] (dr : List (TrackPt K)) (hs : dr.Pairwise fun a b => a.t < b.t)
    (dl : TrackPt K) (hl : dr.getLast? = some dl) : ∀ (us : List (TrackPt K)) (d : ℕ) (x : TrackPt K),
    us.Pairwise (fun a b => a.t < b.t) → dr[d]? = some x → d + 1 < dr.length → (∀ u ∈ us, x.t ≤ u.t) →
    us.take (positionsAt dr d us).length = us.filter (fun u => decide (u.t ≤ dl.t)) ∧
      ∀ (i : ℕ) u p, us[i]? = some u → (positionsAt dr d us)[i]? = some p → OnTrack dr u.t p
  | [], d, x, _, _, _, _ => ⟨by simp, fun _ _ _ h => by simp at h⟩
  | u :: us, d, x, hp, hx, hd, hle => by
    obtain ⟨hp1, hp2⟩ := List.pairwise_cons.1 hp
    obtain ⟨g1, g2⟩ := seekNext_encloses dr hs dl x hl u.t d hx (hle u List.mem_cons_self) hd
    rw [positionsAt, if_neg (by omega)]
    by_cases hq : u.t ≤ dl.t
    · obtain ⟨r, a, b, hr, hrl, ha, hb, h1, h2⟩ := g1 hq
      obtain ⟨i1, i2⟩ := positions_enclosed dr hs dl hl us r a hp2 ha hrl
        (fun v hv => h1.trans (hp1 v hv).le)
      simp only [hr, ha, hb]
      refine ⟨?_, fun i v p hv hpp => ?_⟩
      · rw [List.length_cons, List.take_succ_cons, i1, List.filter_cons_of_pos (by simpa using hq)]
      · cases i with
        | zero =>
          simp at hv hpp
          subst hv; subst hpp
          exact onTrack_of ha hb h1 h2 (head_lt_getElem _ hs ha hb (by omega))
        | succ i => exact i2 i v p (by simpa using hv) (by simpa using hpp)
    · have hnone := g2 (not_le.1 hq)
      generalize seekNext (dr.map (·.t)) u.t d = r at hnone
      have hfil : (u :: us).filter (fun u => decide (u.t ≤ dl.t)) = [] := by
        rw [List.filter_eq_nil_iff]
        intro v hv
        have : u.t ≤ v.t := by
          rcases List.mem_cons.1 hv with rfl | h3
          · exact le_rfl
          · exact (hp1 v h3).le
        simpa using lt_of_lt_of_le (not_le.1 hq) this
      cases hdr : dr[r]? with
      | none =>
        simp only [hdr]
        exact ⟨by rw [hfil]; rfl, fun _ _ _ _ h => by simp at h⟩
      | some y =>
        simp only [hdr, hnone]
        exact ⟨by rw [hfil]; rfl, fun _ _ _ _ h => by simp at h⟩

/-- The records for which C82 is proved in full: dead reckoning of two or more samples; fixes less than 20 s apart, with a
dead reckoned sample between two successive fixes taken during dead reckoning; a fix after the first one taken
during dead reckoning. -/
structure OffsetRecords (dr us : List (TrackPt K)) (d0 dl : TrackPt K) : Prop where
  drRec : IsRecord (·.t) dr
  first : dr.head? = some d0
  last : dr.getLast? = some dl
  usSorted : us.Pairwise fun a b => a.t < b.t
  gaps : ∀ (i : ℕ) a b, us[i]? = some a → us[i + 1]? = some b → b.t - a.t < 20
  dense : ∀ (i : ℕ) a b, us[i]? = some a → us[i + 1]? = some b → d0.t ≤ a.t → b.t ≤ dl.t → ∃ p ∈ dr, a.t ≤ p.t ∧ p.t ≤ b.t
  some : ∃ f ∈ us.drop 1, d0.t ≤ f.t ∧ f.t < dl.t

private theorem drop_cons {α : Type} {l : List α} {i : ℕ} {a : α} (h : l[i]? = some a) : l.drop i = a :: l.drop (i + 1) := by
  obtain ⟨h1, rfl⟩ := List.getElem?_eq_some_iff.1 h
  exact List.drop_eq_getElem_cons h1

private theorem startBefore_spec [IsStrictOrderedRing K] (dr us : List (TrackPt K)) (d0 dl : TrackPt K) (h : OffsetRecords dr us d0 dl) :
    ∀ (n s : ℕ) (a : TrackPt K), us.length - s = n → us[s]? = some a → a.t < d0.t → (∃ f ∈ us.drop (s + 1), d0.t ≤ f.t) →
      ∃ s', startBefore dr us s 0 = .ok (s', 0) ∧ us.drop s' = (us.drop (s + 1)).filter fun u => decide (d0.t ≤ u.t)
  | 0, s, a, hn, ha, _, _ => by
    have := (List.getElem?_eq_some_iff.1 ha).1
    omega
  | n + 1, s, a, hn, ha, hlt, hf => by
    obtain ⟨f, hf, hfd⟩ := hf
    have hlen : s + 1 < us.length := by
      by_contra hc
      rw [List.drop_eq_nil_of_le (by omega)] at hf
      cases hf
    have hb : us[s + 1]? = some us[s + 1] := List.getElem?_eq_getElem hlen
    generalize us[s + 1] = b at hb
    have hd0 : dr[0]? = some d0 := by rw [← List.head?_eq_getElem?]; exact h.first
    have e1 := pyGet_nat _ _ _ hd0
    have e2 := pyGet_nat _ _ _ ha
    have e3 := pyGet_nat _ _ _ hb
    have hdl : ¬ dr.length ≤ 0 := by have := h.drRec.1; omega
    rw [startBefore, dif_neg (by omega), dif_neg hdl, show ((s : Int) + 1) = ((s + 1 : ℕ) : Int) by omega, e1, e2, e3]
    simp only [bind, Except.bind]
    rw [drop_cons hb] at hf ⊢
    by_cases hgt : d0.t - b.t > 0
    · rw [if_pos hgt]
      have hbd : b.t < d0.t := by linarith
      obtain ⟨s', h1, h2⟩ := startBefore_spec dr us d0 dl h n (s + 1) b (by omega) hb hbd ⟨f, by
        rcases List.mem_cons.1 hf with rfl | h3
        · exact absurd hfd (not_le.2 hbd)
        · exact h3, hfd⟩
      exact ⟨s', h1, by rw [h2, List.filter_cons_of_neg (by simpa using hbd)]⟩
    · have hg := h.gaps s a b ha hb
      rw [if_neg hgt, if_pos ⟨by linarith, hg⟩]
      refine ⟨s + 1, rfl, ?_⟩
      rw [drop_cons hb, List.filter_eq_self.2]
      have hsort := h.usSorted.sublist (List.drop_sublist (s + 1) us)
      rw [drop_cons hb] at hsort
      intro v hv
      have : b.t ≤ v.t := by
        rcases List.mem_cons.1 hv with rfl | h3
        · exact le_rfl
        · exact ((List.pairwise_cons.1 hsort).1 v h3).le
      have : d0.t ≤ v.t := by linarith
      simpa using this

private theorem startAfter_spec [IsStrictOrderedRing K] (dr us : List (TrackPt K)) (u0 u1 p : TrackPt K)
    (hs : dr.Pairwise fun a b => a.t < b.t) (h0 : us[0]? = some u0) (h1 : us[1]? = some u1) (hgap : u1.t - u0.t < 20)
    (hp1 : u0.t ≤ p.t) (hp2 : p.t ≤ u1.t) :
    ∀ (n d : ℕ), dr.length - d = n → p ∈ dr.drop d →
      ∃ d' x, startAfter dr us 0 d = .ok (1, d') ∧ dr[d']? = some x ∧ x.t ≤ u1.t
  | 0, d, hn, hp => by
    rw [List.drop_eq_nil_of_le (by omega)] at hp
    cases hp
  | n + 1, d, hn, hp => by
    have hx : dr[d]? = some dr[d] := List.getElem?_eq_getElem (by omega)
    generalize dr[d] = x at hx
    have hu := (List.getElem?_eq_some_iff.1 h0).1
    rw [startAfter, dif_neg (by omega), dif_neg (by omega), pyGet_nat _ _ _ hx, pyGet_nat _ _ _ h0]
    simp only [bind, Except.bind]
    rw [drop_cons hx] at hp
    by_cases hlt : x.t - u0.t < 0
    · rw [if_pos hlt]
      refine startAfter_spec dr us u0 u1 p hs h0 h1 hgap hp1 hp2 n (d + 1) (by omega) ?_
      rcases List.mem_cons.1 hp with rfl | h3
      · exact absurd hlt (by linarith)
      · exact h3
    · have hxp : x.t ≤ p.t := by
        have hsort := hs.sublist (List.drop_sublist d dr)
        rw [drop_cons hx] at hsort
        rcases List.mem_cons.1 hp with rfl | h3
        · exact le_rfl
        · exact ((List.pairwise_cons.1 hsort).1 p h3).le
      rw [if_neg hlt, if_pos (by linarith), show (((0 : ℕ) : Int) + 1) = ((1 : ℕ) : Int) from rfl, pyGet_nat _ _ _ h1]
      simp only
      rw [if_pos hgap]
      exact ⟨d, x, rfl, hx, by linarith⟩

/-- C82 (partial): for records as in `OffsetRecords` the alignment succeeds; it uses every fix but the first of those
taken during dead reckoning, and each is compared with the track at its time. Missing: sparse dead reckoning,
long gaps between fixes, a single fix; see the `_false` theorems. -/
theorem C82_used_fixes_partial [IsStrictOrderedRing K] (dr us : List (TrackPt K)) (d0 dl : TrackPt K) (h : OffsetRecords dr us d0 dl) :
    ∃ (o : K × K) (pos : List (K × K)), usblOffset dr us = .ok o ∧
      ∃ used, used = (us.drop 1).filter (fun u => decide (d0.t ≤ u.t ∧ u.t ≤ dl.t)) ∧ used ≠ [] ∧ pos.length = used.length ∧
      (∀ (i : ℕ) u p, used[i]? = some u → pos[i]? = some p → OnTrack dr u.t p) ∧
      o.1 = (used.map (·.n)).sum / (used.length : K) - (pos.map Prod.fst).sum / (used.length : K) ∧
      o.2 = (used.map (·.e)).sum / (used.length : K) - (pos.map Prod.snd).sum / (used.length : K) := by
  obtain ⟨f, hf, hf1, hf2⟩ := h.some
  have hlen : 1 < us.length := by
    by_contra hc
    rw [List.drop_eq_nil_of_le (by omega)] at hf
    cases hf
  have h0 : us[0]? = some us[0] := List.getElem?_eq_getElem (by omega)
  have h1 : us[1]? = some us[1] := List.getElem?_eq_getElem (by omega)
  generalize us[0] = u0 at h0
  generalize us[1] = u1 at h1
  have hhead : us.head? = some u0 := by rw [List.head?_eq_getElem?]; exact h0
  have hd0 : dr[0]? = some d0 := by rw [← List.head?_eq_getElem?]; exact h.first
  have h01 : u0.t < u1.t := head_lt_getElem _ h.usSorted h0 h1 (by omega)
  have hdrop := drop_cons h1
  have hrest : ∀ v ∈ us.drop 1, u1.t ≤ v.t := by
    intro v hv
    have hsort := h.usSorted.sublist (List.drop_sublist 1 us)
    rw [hdrop] at hsort hv
    rcases List.mem_cons.1 hv with rfl | h3
    · exact le_rfl
    · exact ((List.pairwise_cons.1 hsort).1 v h3).le
  have key : ∃ s d x, usblStart dr us = .ok (s, d) ∧ dr[d]? = some x ∧ d + 1 < dr.length ∧ (∀ u ∈ us.drop s, x.t ≤ u.t) ∧
      us.drop s = (us.drop 1).filter fun u => decide (d0.t ≤ u.t) := by
    by_cases hb : u0.t < d0.t
    · obtain ⟨s, h3, h4⟩ := startBefore_spec dr us d0 dl h _ 0 u0 rfl h0 hb ⟨f, hf, hf1⟩
      refine ⟨s, 0, d0, by simp only [usblStart, hhead, h.first, if_pos hb, h3], hd0, by have := h.drRec.1; omega, ?_, h4⟩
      intro u hu
      rw [h4] at hu
      simpa using (List.mem_filter.1 hu).2
    · have hu1l : u1.t ≤ dl.t := ((hrest f hf).trans_lt hf2).le
      obtain ⟨p, hp, hp1, hp2⟩ := h.dense 0 u0 u1 h0 h1 (not_lt.1 hb) hu1l
      obtain ⟨d, x, h3, h4, h5⟩ := startAfter_spec dr us u0 u1 p h.drRec.2 h0 h1 (h.gaps 0 u0 u1 h0 h1) hp1 hp2 _ 0 rfl
        (by simpa using hp)
      refine ⟨1, d, x, by simp only [usblStart, hhead, h.first, if_neg hb, h3], h4, ?_, fun u hu => h5.trans (hrest u hu), ?_⟩
      · by_contra hc
        have hdl := (List.getElem?_eq_some_iff.1 h4).1
        have hlast := h.last
        rw [List.getLast?_eq_getElem?, show dr.length - 1 = d by omega, h4] at hlast
        cases hlast
        exact absurd ((hrest f hf).trans_lt hf2) (not_lt.2 h5)
      · rw [List.filter_eq_self.2]
        intro v hv
        have := hrest v hv
        have : d0.t ≤ v.t := by linarith [not_lt.1 hb]
        simpa using this
  obtain ⟨s, d, x, k1, k2, k3, k4, k5⟩ := key
  obtain ⟨p1, p2⟩ := positions_enclosed dr h.drRec.2 dl h.last (us.drop s) d x (h.usSorted.sublist (List.drop_sublist _ _)) k2 k3 k4
  have hle := (positionsAt_spec dr h.drRec.2 (us.drop s) d).1
  have hused : (us.drop s).take (positionsAt dr d (us.drop s)).length =
      (us.drop 1).filter (fun u => decide (d0.t ≤ u.t ∧ u.t ≤ dl.t)) := by
    rw [p1, k5, List.filter_filter]
    congr 1
    funext u
    simp [Bool.and_comm]
  have hne : (us.drop 1).filter (fun u => decide (d0.t ≤ u.t ∧ u.t ≤ dl.t)) ≠ [] :=
    List.ne_nil_of_mem (List.mem_filter.2 ⟨hf, by simpa using ⟨hf1, hf2.le⟩⟩)
  generalize hpos : positionsAt dr d (us.drop s) = pos at p1 p2 hle hused
  have hlen2 : pos.length = ((us.drop 1).filter (fun u => decide (d0.t ≤ u.t ∧ u.t ≤ dl.t))).length := by
    rw [← hused, List.length_take]; omega
  have hpn : pos ≠ [] := by
    intro hc
    rw [hc] at hlen2
    exact hne (List.length_eq_zero_iff.1 hlen2.symm)
  refine ⟨((((us.drop 1).filter (fun u => decide (d0.t ≤ u.t ∧ u.t ≤ dl.t))).map (·.n)).sum / _ - (pos.map Prod.fst).sum / _,
    (((us.drop 1).filter (fun u => decide (d0.t ≤ u.t ∧ u.t ≤ dl.t))).map (·.e)).sum / _ - (pos.map Prod.snd).sum / _), pos, ?_, _, rfl,
    hne, hlen2, ?_, rfl, rfl⟩
  · simp only [usblOffset, k1, bind, Except.bind, hpos, hused]
    have m1 : ∀ (l : List (TrackPt K)) (g : TrackPt K → K), l ≠ [] → pyMean (l.map g) = .ok ((l.map g).sum / (l.length : K)) := by
      intro l g hl
      rw [pyMean, if_neg (by simpa using hl), List.length_map]
    have m2 : ∀ (g : K × K → K), pyMean (pos.map g) = .ok ((pos.map g).sum / (pos.length : K)) := by
      intro g
      rw [pyMean, if_neg (by simpa using hpn), List.length_map]
    rw [m1 _ _ hne, m1 _ _ hne, m2, m2, hlen2]
  · intro i u p hu hp
    rw [← hused] at hu
    have hi : i < pos.length := (List.getElem?_eq_some_iff.1 hp).1
    rw [List.getElem?_take_of_lt hi] at hu
    exact p2 i u p hu hp

private theorem sum_diff : ∀ (pos : List (K × K)) (used : List (TrackPt K)) (c : K × K), pos.length = used.length →
    (∀ (i : ℕ) u p, used[i]? = some u → pos[i]? = some p → u.n = p.1 + c.1 ∧ u.e = p.2 + c.2) →
    (used.map (·.n)).sum = (pos.map Prod.fst).sum + used.length * c.1 ∧
      (used.map (·.e)).sum = (pos.map Prod.snd).sum + used.length * c.2
  | [], [], _, _, _ => by simp
  | [], _ :: _, _, h, _ => by simp at h
  | _ :: _, [], _, h, _ => by simp at h
  | p :: pos, u :: us, c, hl, h => by
    obtain ⟨h1, h2⟩ := sum_diff pos us c (by simpa using hl) (fun i v q hv hq => h (i + 1) v q (by simpa using hv) (by simpa using hq))
    obtain ⟨h3, h4⟩ := h 0 u p rfl rfl
    simp only [List.map_cons, List.sum_cons, List.length_cons, h1, h2, h3, h4]
    push_cast
    constructor <;> ring

/-- C82 (partial): if the fixes taken during dead reckoning differ from the track by one constant shift, the computed
offset is that shift, so the aligned track passes through them. -/
theorem C82_exact_partial [IsStrictOrderedRing K] (dr us : List (TrackPt K)) (d0 dl : TrackPt K) (h : OffsetRecords dr us d0 dl)
    (c : K × K) (hex : ∀ u ∈ us, d0.t ≤ u.t → u.t ≤ dl.t → ∀ p, OnTrack dr u.t p → u.n = p.1 + c.1 ∧ u.e = p.2 + c.2) :
    usblOffset dr us = .ok c := by
  obtain ⟨o, pos, h1, used, hu, hne, hl, hon, e1, e2⟩ := C82_used_fixes_partial dr us d0 dl h
  have hpos : (0 : K) < (used.length : K) := by exact_mod_cast List.length_pos_iff.2 hne
  obtain ⟨s1, s2⟩ := sum_diff pos used c hl (fun i u p hu' hp => by
    have hm := List.mem_of_getElem? hu'
    rw [hu] at hm
    obtain ⟨hm1, hm2⟩ := List.mem_filter.1 hm
    simp only [decide_eq_true_eq] at hm2
    exact hex u (List.mem_of_mem_drop hm1) hm2.1 hm2.2 p (hon i u p hu' hp))
  rw [h1]
  congr 1
  ext
  · rw [e1, s1]; field_simp; ring
  · rw [e2, s2]; field_simp; ring

/-- A track north at 1 m/s, sampled every second; fixes at 1.5 s and 2.5 s, shifted by 100 m. -/
example : OffsetRecords (K := ℚ) [⟨0, 0, 0⟩, ⟨1, 1, 0⟩, ⟨2, 2, 0⟩, ⟨3, 3, 0⟩] [⟨3 / 2, 203 / 2, 0⟩, ⟨5 / 2, 205 / 2, 0⟩] ⟨0, 0, 0⟩ ⟨3, 3, 0⟩ where
  drRec := ⟨by simp, by simp; norm_num⟩
  first := rfl
  last := rfl
  usSorted := by simp; norm_num
  gaps := by
    intro i a b ha hb
    match i with
    | 0 => simp at ha hb; subst ha; subst hb; norm_num
    | 1 => simp at hb
    | _ + 2 => simp at hb
  dense := by
    intro i a b ha hb _ _
    match i with
    | 0 => simp at ha hb; subst ha; subst hb; exact ⟨⟨2, 2, 0⟩, by simp, by norm_num, by norm_num⟩
    | 1 => simp at hb
    | _ + 2 => simp at hb
  some := ⟨⟨5 / 2, 205 / 2, 0⟩, by simp, by norm_num, by norm_num⟩

private theorem ok_of_toOption {α : Type} {x : Res α} {a : α} (h : x.toOption = some a) : x = .ok a := by
  cases x with
  | error e => cases h
  | ok b => cases h; rfl

example : usblOffset (K := ℚ) [⟨0, 0, 0⟩, ⟨1, 1, 0⟩, ⟨2, 2, 0⟩, ⟨3, 3, 0⟩]
    [⟨3 / 2, 203 / 2, 0⟩, ⟨5 / 2, 205 / 2, 0⟩] = .ok (100, 0) := by
  have h : usblStart (K := ℚ) [⟨0, 0, 0⟩, ⟨1, 1, 0⟩, ⟨2, 2, 0⟩, ⟨3, 3, 0⟩]
      [⟨3 / 2, 203 / 2, 0⟩, ⟨5 / 2, 205 / 2, 0⟩] = .ok (1, 2) := by
    have e2 : Int.toNat 2 = 2 := rfl
    have e3 : Int.toNat 3 = 3 := rfl
    norm_num [usblStart, startAfter, pyGet, bind, Except.bind, e2, e3]
  refine ok_of_toOption ?_
  rw [usblOffset, h]
  decide +kernel

/-- C82 in full (success): dead reckoning can be aligned whenever a fix was taken during it. -/
def AlignDefined (K : Type) [Field K] [LinearOrder K] : Prop :=
  ∀ dr us : List (TrackPt K), IsRecord (·.t) dr → us.Pairwise (fun a b => a.t < b.t) → (∃ u ∈ us, Covers (·.t) dr u.t) →
    ∃ tr, alignTrack dr us = .ok tr

/-- C82 fails with a single fix: the second fix is read all the same. -/
theorem C82_single_fix_false : ¬ AlignDefined ℚ := by
  intro h
  obtain ⟨tr, htr⟩ := h [⟨0, 0, 0⟩, ⟨1, 1, 0⟩, ⟨2, 2, 0⟩] [⟨1, 5, 5⟩] ⟨by simp, by simp⟩ (by simp)
    ⟨⟨1, 5, 5⟩, by simp, by norm_num [Covers]⟩
  have h1 : usblStart (K := ℚ) [⟨0, 0, 0⟩, ⟨1, 1, 0⟩, ⟨2, 2, 0⟩] [⟨1, 5, 5⟩] = .error .indexError := by
    norm_num [usblStart, startAfter, pyGet, bind, Except.bind]
  rw [alignTrack, if_neg (by simp), usblOffset, h1] at htr
  cases htr

/-- C82 in full (exactness): a constant shift between the fixes and the track is recovered whenever the alignment
succeeds and some fix was taken during dead reckoning. -/
def AlignExact (K : Type) [Field K] [LinearOrder K] : Prop :=
  ∀ (dr us : List (TrackPt K)) (c o : K × K), IsRecord (·.t) dr → us.Pairwise (fun a b => a.t < b.t) →
    (∃ u ∈ us, Covers (·.t) dr u.t) →
    (∀ u ∈ us, Covers (·.t) dr u.t → ∀ p, OnTrack dr u.t p → u.n = p.1 + c.1 ∧ u.e = p.2 + c.2) →
    usblOffset dr us = .ok o → o = c

/-- C82 fails when the dead reckoned samples are sparser than the fixes: the second fix is compared with the track
continued backwards from a later segment. -/
theorem C82_exact_false : ¬ AlignExact ℚ := by
  intro h
  have hrun : usblOffset (K := ℚ) [⟨0, 0, 0⟩, ⟨10, 10, 0⟩, ⟨20, 0, 0⟩] [⟨1, 1, 0⟩, ⟨2, 2, 0⟩, ⟨12, 8, 0⟩] = .ok (-8, 0) := by
    have h : usblStart (K := ℚ) [⟨0, 0, 0⟩, ⟨10, 10, 0⟩, ⟨20, 0, 0⟩] [⟨1, 1, 0⟩, ⟨2, 2, 0⟩, ⟨12, 8, 0⟩] = .ok (1, 1) := by
      norm_num [usblStart, startAfter, pyGet, bind, Except.bind]
    refine ok_of_toOption ?_
    rw [usblOffset, h]
    decide +kernel
  have := h _ _ (0, 0) _ ⟨by simp, by simp; norm_num⟩ (by simp; norm_num) ⟨⟨2, 2, 0⟩, by simp, by norm_num [Covers]⟩ ?_ hrun
  · simp at this
  · intro u hu _ p hp
    obtain ⟨⟨m, a, b, ha, hb, h1, h2, h3⟩, ⟨m', a', b', ha', hb', h1', h2', h3'⟩⟩ := hp
    have hm : m < 2 := by have := (List.getElem?_eq_some_iff.1 hb).1; simp at this; omega
    have hm' : m' < 2 := by have := (List.getElem?_eq_some_iff.1 hb').1; simp at this; omega
    interval_cases m <;> interval_cases m' <;> simp at ha hb ha' hb' <;> subst ha hb ha' hb' <;>
      simp only [List.mem_cons, List.not_mem_nil, or_false] at hu <;> rcases hu with rfl | rfl | rfl <;>
      simp only [OnLine] at h3 h3' h1 h2 h1' h2' <;> first | (exfalso; linarith) | (constructor <;> simp only <;> linarith)

/-- C82: without fixes nothing is shifted. -/
theorem C82_no_fixes (dr : List (TrackPt K)) : alignTrack dr [] = .ok dr := rfl

end
end Oplab.Props
