import Mathlib.Tactic.Linarith
import Mathlib.Tactic.LinearCombination
import Mathlib.Tactic.Ring
import Mathlib.Tactic.NormNum
import Mathlib.Data.List.Infix
import Mathlib.Algebra.Order.Field.Rat
import Mathlib.Data.Real.Basic
import Verif.Spec.DivePart
import Verif.Props.Sync
import Verif.Props.SensorList

/-! C282: processing part of a dive. -/

namespace Oplab.Props
open Oplab Oplab.Spec

set_option linter.unusedSectionVars false

section
variable {K : Type} [Field K] [LinearOrder K]

private theorem take_of_sorted {α : Type} (time : α → K) (f : K) : ∀ l : List α, (l.Pairwise fun a b => time a < time b) →
    l.filter (fun a => decide (time a ≤ f)) <+: l
  | [], _ => by simp
  | a :: l, h => by
    have hp := List.pairwise_cons.1 h
    by_cases ha : time a ≤ f
    · rw [List.filter_cons_of_pos (by simpa using ha)]
      exact (List.prefix_cons_inj a).2 (take_of_sorted time f l hp.2)
    · rw [List.filter_cons_of_neg (by simpa using ha), List.filter_eq_nil_iff.2 ?_]
      · exact List.nil_prefix
      · intro b hb
        have := hp.1 b hb
        simp only [decide_eq_true_eq, not_le] at ha ⊢
        exact lt_trans ha this

private theorem between_infix {α : Type} (time : α → K) (s f : K) : ∀ l : List α, (l.Pairwise fun a b => time a < time b) →
    measuredBetween time s f l <:+: l
  | [], _ => by simp [measuredBetween]
  | a :: l, h => by
    have hp := List.pairwise_cons.1 h
    by_cases ha : s ≤ time a
    · have : measuredBetween time s f (a :: l) = (a :: l).filter fun a => decide (time a ≤ f) := by
        unfold measuredBetween
        apply List.filter_congr
        intro b hb
        rcases List.mem_cons.1 hb with rfl | hb
        · simp [ha]
        · simp [le_trans ha (hp.1 b hb).le]
      rw [this]
      exact (take_of_sorted time f _ h).isInfix
    · have : measuredBetween time s f (a :: l) = measuredBetween time s f l := by
        unfold measuredBetween
        rw [List.filter_cons_of_neg (by simp [ha])]
      rw [this]
      exact (between_infix time s f l hp.2).trans (List.suffix_cons a l).isInfix

/-- The place of a part in the whole. -/
private theorem infix_place {α : Type} {p l : List α} (h : p <:+: l) : ∃ c : ℕ, ∀ (i : ℕ) (a : α), p[i]? = some a → l[c + i]? = some a := by
  obtain ⟨x, y, rfl⟩ := h
  refine ⟨x.length, fun i a hi => ?_⟩
  have hl := (List.getElem?_eq_some_iff.1 hi).1
  rw [List.append_assoc, List.getElem?_append_right (by omega), show x.length + i - x.length = i by omega,
    List.getElem?_append_left hl, hi]

private theorem place_unique {α : Type} (time : α → K) {l : List α} (h : l.Pairwise fun a b => time a < time b) {i j : ℕ} {a b : α}
    (hi : l[i]? = some a) (hj : l[j]? = some b) (ht : time a = time b) : i = j := by
  obtain ⟨hi1, hi2⟩ := List.getElem?_eq_some_iff.1 hi
  obtain ⟨hj1, hj2⟩ := List.getElem?_eq_some_iff.1 hj
  rw [List.pairwise_iff_getElem] at h
  rcases lt_trichotomy i j with hlt | he | hlt
  · have := h i j hi1 hj1 hlt
    rw [hi2, hj2, ht] at this
    exact absurd this (lt_irrefl _)
  · exact he
  · have := h j i hj1 hi1 hlt
    rw [hi2, hj2, ht] at this
    exact absurd this (lt_irrefl _)

private theorem place_lt {α : Type} (time : α → K) {l : List α} (h : l.Pairwise fun a b => time a < time b) {i j : ℕ} {a b : α}
    (hi : l[i]? = some a) (hj : l[j]? = some b) : time a < time b ↔ i < j := by
  obtain ⟨hi1, hi2⟩ := List.getElem?_eq_some_iff.1 hi
  obtain ⟨hj1, hj2⟩ := List.getElem?_eq_some_iff.1 hj
  rw [List.pairwise_iff_getElem] at h
  constructor
  · intro hlt
    by_contra hc
    rcases lt_or_eq_of_le (not_lt.1 hc) with h1 | h1
    · have := h j i hj1 hi1 h1
      rw [hi2, hj2] at this
      exact lt_asymm this hlt
    · subst h1
      rw [hi2] at hj2
      rw [hj2] at hlt
      exact lt_irrefl _ hlt
  · intro hlt
    have := h i j hi1 hj1 hlt
    rwa [hi2, hj2] at this

private theorem curve_infix {p l : List (K × K)} (h : p <:+: l) {q y : K} (hc : OnCurve p q y) : OnCurve l q y := by
  obtain ⟨c, hp⟩ := infix_place h
  obtain ⟨m, a, b, ha, hb, h1, h2, h3⟩ := hc
  exact ⟨c + m, a, b, hp _ _ ha, by rw [Nat.add_assoc]; exact hp _ _ hb, h1, h2, h3⟩

private theorem line_unique [IsStrictOrderedRing K] {t1 y1 t2 y2 q y y' : K} (h : t1 < t2) (h1 : OnLine t1 y1 t2 y2 q y)
    (h2 : OnLine t1 y1 t2 y2 q y') : y = y' := by
  unfold OnLine at h1 h2
  have hne : t2 - t1 ≠ 0 := sub_ne_zero.2 h.ne'
  have : (y - y') * (t2 - t1) = 0 := by linear_combination h1 - h2
  exact sub_eq_zero.1 ((mul_eq_zero.1 this).resolve_right hne)

private theorem line_end [IsStrictOrderedRing K] {t1 y1 t2 y2 y : K} (h : t1 < t2) (h1 : OnLine t1 y1 t2 y2 t2 y) : y = y2 := by
  unfold OnLine at h1
  have hne : t2 - t1 ≠ 0 := sub_ne_zero.2 h.ne'
  have : (y - y2) * (t2 - t1) = 0 := by linear_combination h1
  exact sub_eq_zero.1 ((mul_eq_zero.1 this).resolve_right hne)

private theorem line_start [IsStrictOrderedRing K] {t1 y1 t2 y2 y : K} (h : t1 < t2) (h1 : OnLine t1 y1 t2 y2 t1 y) : y = y1 := by
  unfold OnLine at h1
  have hne : t2 - t1 ≠ 0 := sub_ne_zero.2 h.ne'
  have : (y - y1) * (t2 - t1) = 0 := by linear_combination h1
  exact sub_eq_zero.1 ((mul_eq_zero.1 this).resolve_right hne)

private theorem curve_unique [IsStrictOrderedRing K] {l : List (K × K)} (hs : l.Pairwise fun a b => a.1 < b.1) {q y y' : K}
    (h : OnCurve l q y) (h' : OnCurve l q y') : y = y' := by
  have key : ∀ {m m' : ℕ} {a b a' b' : K × K} {y y' : K}, l[m]? = some a → l[m + 1]? = some b → l[m']? = some a' → l[m' + 1]? = some b' →
      a.1 ≤ q → q ≤ b.1 → a'.1 ≤ q → q ≤ b'.1 → OnLine a.1 a.2 b.1 b.2 q y → OnLine a'.1 a'.2 b'.1 b'.2 q y' → m < m' → y = y' := by
    intro m m' a b a' b' y y' ha hb ha' hb' _ h2 h1' _ h3 h3' hlt
    have hab := (place_lt Prod.fst hs ha hb).2 (by omega)
    have hab' := (place_lt Prod.fst hs ha' hb').2 (by omega)
    have hle : m + 1 = m' := by
      by_contra hc
      have := (place_lt Prod.fst hs hb ha').2 (by omega)
      exact absurd (le_trans h1' h2) (not_le.2 this)
    subst hle
    rw [hb] at ha'
    obtain rfl := Option.some.inj ha'
    have hq : q = b.1 := le_antisymm h2 h1'
    subst hq
    rw [line_end hab h3, line_start hab' h3']
  obtain ⟨m, a, b, ha, hb, h1, h2, h3⟩ := h
  obtain ⟨m', a', b', ha', hb', h1', h2', h3'⟩ := h'
  rcases lt_trichotomy m m' with hlt | he | hlt
  · exact key ha hb ha' hb' h1 h2 h1' h2' h3 h3' hlt
  · subst he
    rw [ha] at ha'
    rw [hb] at hb'
    obtain rfl := Option.some.inj ha'
    obtain rfl := Option.some.inj hb'
    exact line_unique ((place_lt Prod.fst hs ha hb).2 (by omega)) h3 h3'
  · exact (key ha' hb' ha hb h1' h2' h1 h2 h3' h3 hlt).symm

private theorem inner_speeds {l : List (Attitude K)} {i : ℕ} (h1 : 1 ≤ i) (h2 : i + 1 < l.length) {a b : Attitude K} (ha : l[i - 1]? = some a)
    (hb : l[i + 1]? = some b) : angularSamples l i = .ok (a, b) := by
  unfold angularSamples
  rw [if_pos ⟨h1, h2⟩, ha, hb]

private theorem speeds_part {p l : List (Attitude K)} {c i : ℕ} (hc : ∀ (i : ℕ) (a : Attitude K), p[i]? = some a → l[c + i]? = some a) (h1 : 1 ≤ i)
    (h2 : i + 1 < p.length) : computeAngularSpeeds p i = computeAngularSpeeds l (c + i) := by
  have ha : p[i - 1]? = some p[i - 1] := List.getElem?_eq_getElem (by omega)
  have hb : p[i + 1]? = some p[i + 1] := List.getElem?_eq_getElem h2
  have ha' := hc _ _ ha
  have hb' := hc _ _ hb
  have hl : c + i + 1 < l.length := (List.getElem?_eq_some_iff.1 hb').1
  unfold computeAngularSpeeds
  rw [inner_speeds h1 h2 ha hb, inner_speeds (by omega) hl (by rw [show c + i - 1 = c + (i - 1) by omega]; exact ha') hb']

private theorem entry_alike [IsStrictOrderedRing K] (s f : K) (x : SyncIn K) (hx : SyncRecords x) (hy : SyncRecords (partOf s f x))
    {e e' : Synced K} (he : EntryOk x e) (he' : EntryOk (partOf s f x) e') (ht : e'.att.t = e.att.t) (hin : Inside (partOf s f x) e'.att.t) :
    e' = e := by
  have hos : (partOf s f x).os <:+: x.os := between_infix _ _ _ _ hx.osSorted
  have hvs : (partOf s f x).vs <:+: x.vs := between_infix _ _ _ _ hx.vs.2
  have hal : (partOf s f x).alts <:+: x.alts := between_infix _ _ _ _ hx.alts.2
  have hds : (partOf s f x).ds <:+: x.ds := between_infix _ _ _ _ hx.ds.2
  obtain ⟨c, hc⟩ := infix_place hos
  obtain ⟨i, raw, w, a1, a2, a3, a4, a5, a6, a7, a8, a9, a10, a11, a12, a13, a14⟩ := he
  obtain ⟨i', raw', w', b1, b2, b3, b4, b5, b6, b7, b8, b9, b10, b11, b12, b13, b14⟩ := he'
  have hi : c + i' = i := place_unique (·.t) hx.osSorted (hc _ _ b1) a1 ht
  have hatt : e'.att = e.att := by
    have := hc _ _ b1
    rw [hi, a1] at this
    exact (Option.some.inj this).symm
  have h1 : 1 ≤ i' := by
    obtain ⟨o, ho, hlt⟩ := hin.1
    obtain ⟨k, hk⟩ := List.mem_iff_getElem?.1 ho
    have := (place_lt (·.t) hy.osSorted hk b1).1 hlt
    omega
  have h2 : i' + 1 < (partOf s f x).os.length := by
    obtain ⟨o, ho, hlt⟩ := hin.2
    obtain ⟨k, hk⟩ := List.mem_iff_getElem?.1 ho
    have := (place_lt (·.t) hy.osSorted b1 hk).1 hlt
    have := (List.getElem?_eq_some_iff.1 hk).1
    omega
  have hw : w' = w := by
    have := speeds_part hc h1 h2
    rw [hi, a5, b5] at this
    exact Except.ok.inj this
  have hv : ∀ (g : VelMeas K → K) {y y' : K}, OnCurve (x.vs.map fun m => (m.t, g m)) e.att.t y →
      OnCurve ((partOf s f x).vs.map fun m => (m.t, g m)) e'.att.t y' → y' = y := by
    intro g y y' h h'
    rw [ht] at h'
    exact curve_unique (List.pairwise_map.2 hx.vs.2) (curve_infix (hvs.map _) h') h
  have hd : ∀ (g : DepthSample K → K) {y y' : K}, OnCurve (x.ds.map fun m => (m.t, g m)) e.att.t y →
      OnCurve ((partOf s f x).ds.map fun m => (m.t, g m)) e'.att.t y' → y' = y := by
    intro g y y' h h'
    rw [ht] at h'
    exact curve_unique (List.pairwise_map.2 hx.ds.2) (curve_infix (hds.map _) h') h
  have hraw : raw' = raw := by
    have e1 := hv _ a2 b2
    have e2 := hv _ a3 b3
    have e3 := hv _ a4 b4
    cases raw; cases raw'
    simp only at e1 e2 e3
    rw [e1, e2, e3]
  have hstd : e'.vStd = e.vStd := by
    have e1 := hv _ a8 b8
    have e2 := hv _ a9 b9
    have e3 := hv _ a10 b10
    cases h : e.vStd; cases h' : e'.vStd
    rw [h, h'] at e1 e2 e3
    simp only at e1 e2 e3
    rw [e1, e2, e3]
  have halt : e'.alt = e.alt := by
    rw [ht] at b11
    exact curve_unique hx.alts.2 (curve_infix hal b11) a11
  have hdep : e'.depth = e.depth := hd _ a12 b12
  have hdst : e'.depthStd = e.depthStd := hd _ a13 b13
  have hev : e'.v = e.v := by rw [b6, a6, hraw, hw]; rfl
  have hei : e'.inertial = e.inertial := by rw [b7, a7, hev, hatt]; rfl
  have hes : e'.inertialStd = e.inertialStd := by rw [b14, a14, hstd, hatt]; rfl
  cases e; cases e'
  simp only at hatt hstd halt hdep hdst hev hei hes
  rw [hatt, hstd, halt, hdep, hdst, hev, hei, hes]

/-- **C282**: at times between the first and the last orientation of a part of a dive, processing the part finds the velocity, altitude, depth and
their standard deviations that processing the whole dive finds. -/
theorem C282_part_partial [IsStrictOrderedRing K] (s f : K) (x : SyncIn K) (r r' : List (Synced K × (K × K))) (hx : SyncRecords x)
    (hy : SyncRecords (partOf s f x)) (h : syncRun x = .ok r) (h' : syncRun (partOf s f x) = .ok r') :
    ∀ e ∈ r, ∀ e' ∈ r', e'.1.att.t = e.1.att.t → Inside (partOf s f x) e'.1.att.t → e'.1 = e.1 := by
  obtain ⟨q, v0, vE, g1, _, _, _, g2, _⟩ := C79_synchronised_partial x hx
  obtain ⟨q', v0', vE', k1, _, _, _, k2, _⟩ := C79_synchronised_partial _ hy
  rw [h] at g1
  rw [h'] at k1
  obtain rfl := Except.ok.inj g1
  obtain rfl := Except.ok.inj k1
  intro e he e' he' ht hin
  exact entry_alike s f x hx hy (g2 e he) (k2 e' he') ht hin

private theorem run_place [IsStrictOrderedRing K] (x : SyncIn K) (hx : SyncRecords x) (r : List (Synced K × (K × K))) (h : syncRun x = .ok r) :
    (∃ c : ℕ, ∀ (i : ℕ) (e : Synced K × (K × K)), r[i]? = some e → x.os[c + i]? = some e.1.att) ∧ Reckoned r := by
  obtain ⟨q, v0, vE, g1, _, _, g3, _, g4, _⟩ := C79_synchronised_partial x hx
  rw [h] at g1
  obtain rfl := Except.ok.inj g1
  refine ⟨?_, g4⟩
  have hinf : r.map (·.1.att) <:+: x.os := by
    rw [g3]
    exact (List.drop_suffix _ _).isInfix.trans (between_infix (fun o : Attitude K => o.t) v0.t vE.t x.os hx.osSorted)
  obtain ⟨c, hc⟩ := infix_place hinf
  exact ⟨c, fun i e he => hc i e.1.att (by rw [List.getElem?_map, he]; rfl)⟩

private theorem sublist_one {α : Type} {p l : List α} (h : p.Sublist l) (hl : l.length = 1) (hp : p ≠ []) : p.length = 1 := by
  have h1 := h.length_le
  have h2 := List.length_pos_iff.2 hp
  omega

/-- **C282**: whatever has a pose inside a part of a dive has one in the whole dive. -/
theorem C282_found_partial [IsStrictOrderedRing K] (s f : K) (x : SyncIn K) (r r' : List (Synced K × (K × K))) (hx : SyncRecords x)
    (hy : SyncRecords (partOf s f x)) (h : syncRun x = .ok r) (h' : syncRun (partOf s f x) = .ok r') :
    ∀ e' ∈ r', Inside (partOf s f x) e'.1.att.t → ∃ e ∈ r, e.1.att = e'.1.att := by
  obtain ⟨q, v0, vE, g1, g2, g3, g4, _, _⟩ := C79_synchronised_partial x hx
  obtain ⟨q', v0', vE', k1, k2, k3, k4, _, _⟩ := C79_synchronised_partial _ hy
  rw [h] at g1
  rw [h'] at k1
  obtain rfl := Except.ok.inj g1
  obtain rfl := Except.ok.inj k1
  intro e' he' hin
  have hos : (partOf s f x).os <:+: x.os := between_infix _ _ _ _ hx.osSorted
  have hvs : (partOf s f x).vs <:+: x.vs := between_infix _ _ _ _ hx.vs.2
  have hv0 : v0.t ≤ v0'.t := by
    have hm := hvs.subset (List.mem_of_mem_head? (Option.mem_def.2 k2))
    obtain ⟨j, hj⟩ := List.mem_iff_getElem?.1 hm
    rw [List.head?_eq_getElem?] at g2
    rcases Nat.eq_zero_or_pos j with h0 | h0
    · subst h0
      rw [g2] at hj
      rw [Option.some.inj hj]
    · exact ((place_lt (fun m : VelMeas K => m.t) hx.vs.2 g2 hj).2 h0).le
  have hvE : vE'.t ≤ vE.t := by
    have hm := hvs.subset (List.mem_of_mem_getLast? (Option.mem_def.2 k3))
    obtain ⟨j, hj⟩ := List.mem_iff_getElem?.1 hm
    rw [List.getLast?_eq_getElem?] at g3
    have hl := (List.getElem?_eq_some_iff.1 hj).1
    rcases Nat.lt_or_ge j (x.vs.length - 1) with h0 | h0
    · exact ((place_lt (fun m : VelMeas K => m.t) hx.vs.2 hj g3).2 h0).le
    · rw [show j = x.vs.length - 1 by omega, g3] at hj
      rw [Option.some.inj hj]
  have hsort : ∀ p : Attitude K → Bool, (x.os.filter p).Pairwise fun a b => a.t < b.t := fun p => hx.osSorted.sublist List.filter_sublist
  have hsort' : ∀ p : Attitude K → Bool, ((partOf s f x).os.filter p).Pairwise fun a b => a.t < b.t :=
    fun p => hy.osSorted.sublist List.filter_sublist
  have hmem : e'.1.att ∈ r'.map (·.1.att) := List.mem_map_of_mem he'
  rw [k4] at hmem
  have hF' := List.mem_of_mem_drop hmem
  obtain ⟨ho', hw'⟩ := List.mem_filter.1 hF'
  simp only [decide_eq_true_eq] at hw'
  have hF : e'.1.att ∈ x.os.filter fun o => decide (v0.t ≤ o.t ∧ o.t ≤ vE.t) :=
    List.mem_filter.2 ⟨hos.subset ho', by simp only [decide_eq_true_eq]; exact ⟨le_trans hv0 hw'.1, le_trans hw'.2 hvE⟩⟩
  suffices hs : e'.1.att ∈ r.map (·.1.att) by
    obtain ⟨e, he, ht⟩ := List.mem_map.1 hs
    exact ⟨e, he, ht⟩
  rw [g4]
  by_cases hone : (x.os.filter fun o => decide (o.t < v0.t)).length = 1
  · rw [if_pos hone]
    have hsx := hsort fun o => decide (v0.t ≤ o.t ∧ o.t ≤ vE.t)
    have hall : ∀ o ∈ x.os, v0.t ≤ o.t → o.t ≤ vE.t → o ∈ x.os.filter fun o => decide (v0.t ≤ o.t ∧ o.t ≤ vE.t) := fun o ho a b =>
      List.mem_filter.2 ⟨ho, by simp only [decide_eq_true_eq]; exact ⟨a, b⟩⟩
    cases hfx : x.os.filter fun o => decide (v0.t ≤ o.t ∧ o.t ≤ vE.t) with
    | nil => rw [hfx] at hF; simp at hF
    | cons z zs =>
      rw [hfx] at hF hsx hall
      rcases List.mem_cons.1 hF with hz | hz
      · exfalso
        have hmin : ∀ o ∈ (partOf s f x).os, o.t < e'.1.att.t → o.t < v0.t := by
          intro o ho hlt
          by_contra hc
          have := hall o (hos.subset ho) (not_lt.1 hc) (le_trans hlt.le (le_trans hw'.2 hvE))
          rcases List.mem_cons.1 this with h1 | h1
          · rw [h1, hz] at hlt
            exact lt_irrefl _ hlt
          · have := (List.pairwise_cons.1 hsx).1 o h1
            rw [← hz] at this
            exact lt_asymm this hlt
        have hcount : ((partOf s f x).os.filter fun o => decide (o.t < v0'.t)).length = 1 := by
          refine sublist_one (l := x.os.filter fun o => decide (o.t < v0.t)) ?_ hone ?_
          · have : ((partOf s f x).os.filter fun o => decide (o.t < v0'.t)) = (partOf s f x).os.filter fun o => decide (o.t < v0.t) := by
              apply List.filter_congr
              intro o ho
              rw [decide_eq_decide]
              exact ⟨fun hlt => hmin o ho (lt_of_lt_of_le hlt hw'.1), fun hlt => lt_of_lt_of_le hlt hv0⟩
            rw [this]
            exact hos.sublist.filter _
          · obtain ⟨o, ho, hlt⟩ := hin.1
            exact List.ne_nil_of_mem (List.mem_filter.2 ⟨ho, by
              simp only [decide_eq_true_eq]; exact lt_of_lt_of_le (hmin o ho hlt) hv0⟩)
        rw [if_pos hcount] at hmem
        have hsy := hsort' fun o => decide (v0'.t ≤ o.t ∧ o.t ≤ vE'.t)
        cases hfy : (partOf s f x).os.filter fun o => decide (v0'.t ≤ o.t ∧ o.t ≤ vE'.t) with
        | nil => rw [hfy] at hmem; simp at hmem
        | cons y ys =>
          rw [hfy] at hmem hsy
          have hlt := (List.pairwise_cons.1 hsy).1 _ hmem
          have hym : y ∈ (partOf s f x).os.filter fun o => decide (v0'.t ≤ o.t ∧ o.t ≤ vE'.t) := by rw [hfy]; simp
          obtain ⟨y1, y2⟩ := List.mem_filter.1 hym
          simp only [decide_eq_true_eq] at y2
          exact absurd (hmin y y1 hlt) (not_lt.2 (le_trans hv0 y2.1))
      · exact hz
  · rw [if_neg hone]
    exact hF

/-- **C282**: between two times inside a part of a dive, the vehicle moves by the same distance north and east whether the part or the whole dive is
processed. -/
theorem C282_path_partial [IsStrictOrderedRing K] (s f : K) (x : SyncIn K) (r r' : List (Synced K × (K × K))) (hx : SyncRecords x)
    (hy : SyncRecords (partOf s f x)) (h : syncRun x = .ok r) (h' : syncRun (partOf s f x) = .ok r')
    (a b a' b' : Synced K × (K × K)) (ha : a ∈ r) (hb : b ∈ r) (ha' : a' ∈ r') (hb' : b' ∈ r') (hta : a'.1.att.t = a.1.att.t)
    (htb : b'.1.att.t = b.1.att.t) (hina : Inside (partOf s f x) a'.1.att.t) (hinb : Inside (partOf s f x) b'.1.att.t) :
    b'.2.1 - a'.2.1 = b.2.1 - a.2.1 ∧ b'.2.2 - a'.2.2 = b.2.2 - a.2.2 := by
  obtain ⟨⟨c, hc⟩, hr⟩ := run_place x hx r h
  obtain ⟨⟨c', hc'⟩, hr'⟩ := run_place _ hy r' h'
  have hos : (partOf s f x).os <:+: x.os := between_infix _ _ _ _ hx.osSorted
  obtain ⟨d, hd⟩ := infix_place hos
  have hsame := C282_part_partial s f x r r' hx hy h h'
  -- places in the two results differ by a constant
  have hpos : ∀ (i j : ℕ) e e', r[i]? = some e → r'[j]? = some e' → (e'.1.att.t = e.1.att.t ↔ d + (c' + j) = c + i) := by
    intro i j e e' he he'
    have p := hc _ _ he
    have p' := hd _ _ (hc' _ _ he')
    constructor
    · intro ht
      exact place_unique (·.t) hx.osSorted p' p ht
    · intro hij
      rw [hij, p] at p'
      rw [Option.some.inj p']
  have main : ∀ (n i j : ℕ) (a b a' b' : Synced K × (K × K)), r[i]? = some a → r[i + n]? = some b → r'[j]? = some a' → r'[j + n]? = some b' →
      a'.1.att.t = a.1.att.t → Inside (partOf s f x) a'.1.att.t → Inside (partOf s f x) b'.1.att.t →
      b'.2.1 - a'.2.1 = b.2.1 - a.2.1 ∧ b'.2.2 - a'.2.2 = b.2.2 - a.2.2 := by
    intro n
    induction n with
    | zero =>
      intro i j a b a' b' h1 h2 h3 h4 _ _ _
      rw [Nat.add_zero] at h2 h4
      rw [h1] at h2
      rw [h3] at h4
      obtain rfl := Option.some.inj h2
      obtain rfl := Option.some.inj h4
      simp
    | succ n ih =>
      intro i j a b a' b' h1 h2 h3 h4 ht hin1 hin2
      have l1 : i + n < r.length := by
        have := (List.getElem?_eq_some_iff.1 h2).1
        omega
      have l2 : j + n < r'.length := by
        have := (List.getElem?_eq_some_iff.1 h4).1
        omega
      obtain ⟨m, m1⟩ : ∃ m, r[i + n]? = some m := ⟨_, List.getElem?_eq_getElem l1⟩
      obtain ⟨m', m2⟩ : ∃ m, r'[j + n]? = some m := ⟨_, List.getElem?_eq_getElem l2⟩
      have hij := (hpos _ _ _ _ h1 h3).1 ht
      have tm := (hpos _ _ _ _ m1 m2).2 (by omega)
      have tb := (hpos _ _ _ _ h2 h4).2 (by omega)
      have hinm : Inside (partOf s f x) m'.1.att.t := by
        constructor
        · obtain ⟨o, ho, hlt⟩ := hin1.1
          refine ⟨o, ho, lt_of_lt_of_le hlt ?_⟩
          rcases Nat.eq_zero_or_pos n with h0 | h0
          · subst h0
            rw [Nat.add_zero, h3] at m2
            rw [Option.some.inj m2]
          · exact ((place_lt (·.t) hy.osSorted (hc' _ _ h3) (hc' _ _ m2)).2 (by omega)).le
        · obtain ⟨o, ho, hlt⟩ := hin2.2
          exact ⟨o, ho, lt_trans ((place_lt (·.t) hy.osSorted (hc' _ _ m2) (hc' _ _ h4)).2 (by omega)) hlt⟩
      have e1 := hsame _ (List.mem_of_getElem? m1) _ (List.mem_of_getElem? m2) tm hinm
      have e2 := hsame _ (List.mem_of_getElem? h2) _ (List.mem_of_getElem? h4) tb hin2
      obtain ⟨i1, i2⟩ := ih i j a _ a' _ h1 m1 h3 m2 ht hin1 hinm
      obtain ⟨s1, s2⟩ := hr (i + n) _ _ m1 h2
      obtain ⟨s1', s2'⟩ := hr' (j + n) _ _ m2 h4
      rw [e1, e2] at s1' s2'
      rw [← s1] at s1'
      rw [← s2] at s2'
      constructor
      · linear_combination i1 + s1'
      · linear_combination i2 + s2'
  obtain ⟨i, hi⟩ := List.mem_iff_getElem?.1 ha
  obtain ⟨k, hk⟩ := List.mem_iff_getElem?.1 hb
  obtain ⟨i', hi'⟩ := List.mem_iff_getElem?.1 ha'
  obtain ⟨k', hk'⟩ := List.mem_iff_getElem?.1 hb'
  have p1 := (hpos _ _ _ _ hi hi').1 hta
  have p2 := (hpos _ _ _ _ hk hk').1 htb
  rcases le_total i k with hik | hik
  · obtain ⟨n, rfl⟩ := Nat.exists_eq_add_of_le hik
    exact main n i i' a b a' b' hi hk hi' (by rw [show i' + n = k' by omega]; exact hk') hta hina hinb
  · obtain ⟨n, rfl⟩ := Nat.exists_eq_add_of_le hik
    obtain ⟨q1, q2⟩ := main n k k' b a b' a' hk hi hk' (by rw [show k' + n = i' by omega]; exact hi') htb hinb hina
    exact ⟨by linear_combination -q1, by linear_combination -q2⟩

end

private theorem dr_shift (origin dvl depth : V3 ℝ) (x : SyncIn ℝ) (us : List (TrackPt ℝ)) (cs : List Centre)
    (h : drCentre origin dvl depth x us = .ok cs) :
    ∃ (l : List (Synced ℝ × (ℝ × ℝ))) (o : ℝ × ℝ), syncRun x = .ok l ∧
      cs = l.map fun e => { centreOf origin dvl depth e with
        northings := (centreOf origin dvl depth e).northings + o.1, eastings := (centreOf origin dvl depth e).eastings + o.2 } := by
  have key : ∀ (l : List Centre) (o : ℝ × ℝ), List.zipWith (fun (c : Centre) (p : TrackPt ℝ) => { c with northings := p.n, eastings := p.e }) l
      (shiftTrack (l.map fun c => ⟨c.t, c.northings, c.eastings⟩) o) =
      l.map fun c => { c with northings := c.northings + o.1, eastings := c.eastings + o.2 } := by
    intro l o
    induction l with
    | nil => rfl
    | cons c l ih =>
      simp only [shiftTrack, List.map_cons, List.zipWith_cons_cons] at ih ⊢
      rw [ih]
  have key0 : ∀ (l : List Centre), List.zipWith (fun (c : Centre) (p : TrackPt ℝ) => { c with northings := p.n, eastings := p.e }) l
      (l.map fun c => ⟨c.t, c.northings, c.eastings⟩) = l := by
    intro l
    induction l with
    | nil => rfl
    | cons c l ih =>
      simp only [List.map_cons, List.zipWith_cons_cons]
      rw [ih]
  unfold drCentre at h
  cases hr : syncRun x with
  | error e => rw [hr] at h; cases h
  | ok l =>
    rw [hr] at h
    simp only [bind, Except.bind, alignTrack] at h
    by_cases hu : us = []
    · rw [if_pos hu] at h
      simp only at h
      rw [key0] at h
      refine ⟨l, (0, 0), rfl, ?_⟩
      rw [← Except.ok.inj h]
      apply List.map_congr_left
      intro e _
      simp
    · rw [if_neg hu] at h
      cases ho : usblOffset ((l.map (centreOf origin dvl depth)).map fun c => (⟨c.t, c.northings, c.eastings⟩ : TrackPt ℝ)) us with
      | error e => rw [ho] at h; cases h
      | ok o =>
        rw [ho] at h
        simp only at h
        rw [key, List.map_map] at h
        exact ⟨l, o, rfl, (Except.ok.inj h).symm⟩

/-- **C282**: the dead reckoned poses of a part of a dive are those of the whole dive, apart from one common shift north and east, at all times between
the first and the last orientation of the part; the shift depends on the USBL fixes used. -/
theorem C282_poses_partial (origin dvl depth : V3 ℝ) (s f : ℝ) (x : SyncIn ℝ) (us us' : List (TrackPt ℝ)) (cs cs' : List Centre)
    (hx : SyncRecords x) (hy : SyncRecords (partOf s f x)) (h : drCentre origin dvl depth x us = .ok cs)
    (h' : drCentre origin dvl depth (partOf s f x) us' = .ok cs') :
    ∃ north east : ℝ, ∀ c ∈ cs, ∀ c' ∈ cs', c'.t = c.t → Inside (partOf s f x) c'.t →
      c' = { c with northings := c.northings + north, eastings := c.eastings + east } := by
  obtain ⟨l, o, hl, rfl⟩ := dr_shift _ _ _ _ _ _ h
  obtain ⟨l', o', hl', rfl⟩ := dr_shift _ _ _ _ _ _ h'
  by_cases hex : ∃ a ∈ l, ∃ a' ∈ l', a'.1.att.t = a.1.att.t ∧ Inside (partOf s f x) a'.1.att.t
  · obtain ⟨a, ha, a', ha', hta, hina⟩ := hex
    refine ⟨a'.2.1 - a.2.1 + o'.1 - o.1, a'.2.2 - a.2.2 + o'.2 - o.2, ?_⟩
    intro c hc c' hc' ht hin
    obtain ⟨b, hb, rfl⟩ := List.mem_map.1 hc
    obtain ⟨b', hb', rfl⟩ := List.mem_map.1 hc'
    have htb : b'.1.att.t = b.1.att.t := ht
    have hinb : Inside (partOf s f x) b'.1.att.t := hin
    have e := C282_part_partial s f x l l' hx hy hl hl' b hb b' hb' htb hinb
    obtain ⟨d1, d2⟩ := C282_path_partial s f x l l' hx hy hl hl' a b a' b' ha hb ha' hb' hta htb hina hinb
    have en : (centreOf origin dvl depth b').northings = (centreOf origin dvl depth b).northings + (a'.2.1 - a.2.1) := by
      simp only [centreOf, toCentre, e]
      linear_combination d1
    have ee : (centreOf origin dvl depth b').eastings = (centreOf origin dvl depth b).eastings + (a'.2.2 - a.2.2) := by
      simp only [centreOf, toCentre, e]
      linear_combination d2
    have er : centreOf origin dvl depth b' = { centreOf origin dvl depth b with
        northings := (centreOf origin dvl depth b').northings, eastings := (centreOf origin dvl depth b').eastings } := by
      simp only [centreOf, toCentre, e]
    rw [er, en, ee]
    simp only
    congr 1 <;> ring
  · refine ⟨0, 0, ?_⟩
    intro c hc c' hc' ht hin
    obtain ⟨b, hb, rfl⟩ := List.mem_map.1 hc
    obtain ⟨b', hb', rfl⟩ := List.mem_map.1 hc'
    exact absurd ⟨b, hb, b', hb', ht, hin⟩ hex

/-- A vehicle that starts to roll after the second measurement; the DVL sits off its axis. -/
def rollingRun (K : Type) [Field K] : SyncIn K where
  rot := fun _ v => v
  arm := fun v w => ⟨v.x + w.x, v.y, v.z⟩
  os := [⟨0, 0, 0, 0⟩, ⟨1, 0, 0, 0⟩, ⟨2, 2, 0, 0⟩, ⟨3, 4, 0, 0⟩, ⟨4, 4, 0, 0⟩]
  vs := [⟨0, ⟨1, 0, 0⟩, ⟨0, 0, 0⟩⟩, ⟨1, ⟨1, 0, 0⟩, ⟨0, 0, 0⟩⟩, ⟨4, ⟨1, 0, 0⟩, ⟨0, 0, 0⟩⟩]
  alts := [(0, 4), (1, 4), (4, 4)]
  ds := [⟨0, 10, 0⟩, ⟨1, 10, 0⟩, ⟨4, 10, 0⟩]

private theorem rolling_records (K : Type) [Field K] [LinearOrder K] [IsStrictOrderedRing K] :
    SyncRecords (rollingRun K) ∧ SyncRecords (partOf 1 4 (rollingRun K)) := by
  have e : partOf 1 4 (rollingRun K) = { rollingRun K with
      os := [⟨1, 0, 0, 0⟩, ⟨2, 2, 0, 0⟩, ⟨3, 4, 0, 0⟩, ⟨4, 4, 0, 0⟩]
      vs := [⟨1, ⟨1, 0, 0⟩, ⟨0, 0, 0⟩⟩, ⟨4, ⟨1, 0, 0⟩, ⟨0, 0, 0⟩⟩]
      alts := [(1, 4), (4, 4)]
      ds := [⟨1, 10, 0⟩, ⟨4, 10, 0⟩] } := by
    norm_num [partOf, measuredBetween, rollingRun]
  rw [e]
  constructor
  · refine ⟨by simp [rollingRun], by norm_num [rollingRun], ⟨by simp [rollingRun], by norm_num [rollingRun]⟩,
      ⟨by simp [rollingRun], by norm_num [rollingRun]⟩, ⟨by simp [rollingRun], by norm_num [rollingRun]⟩, ?_, ?_⟩
    · intro o _ hc
      simpa [Covers, rollingRun] using hc
    · exact ⟨⟨1, 0, 0, 0⟩, by simp [rollingRun], by norm_num [Covers, rollingRun]⟩
  · refine ⟨by simp, by norm_num, ⟨by simp, by norm_num⟩, ⟨by simp, by norm_num⟩, ⟨by simp, by norm_num⟩, ?_, ?_⟩
    · intro o _ hc
      simpa [Covers] using hc
    · exact ⟨⟨1, 0, 0, 0⟩, by simp, by norm_num [Covers]⟩

/-- C282 fails at the first time of a part: the turn rate is then taken from the first two orientations only, here 2 instead of 1, so that the velocity corrected for it is 3 instead of 2. -/
theorem C282_edge_false : ¬ PartAlike ℚ SyncRecords := by
  intro h
  have h1 : (syncRun (rollingRun ℚ)).toOption.map (·.map fun e => (e.1.att.t, e.1.v.x)) = some [(0, 1), (1, 2), (2, 3), (3, 2), (4, 1)] := by
    decide +kernel
  have h2 : (syncRun (partOf 1 4 (rollingRun ℚ))).toOption.map (·.map fun e => (e.1.att.t, e.1.v.x)) = some [(1, 3), (2, 3), (3, 2), (4, 1)] := by
    decide +kernel
  cases hr : syncRun (rollingRun ℚ) with
  | error e => rw [hr] at h1; cases h1
  | ok r =>
    cases hr' : syncRun (partOf 1 4 (rollingRun ℚ)) with
    | error e => rw [hr'] at h2; cases h2
    | ok r' =>
      rw [hr] at h1
      rw [hr'] at h2
      have h1 : r.map (fun e => (e.1.att.t, e.1.v.x)) = [(0, 1), (1, 2), (2, 3), (3, 2), (4, 1)] := Option.some.inj h1
      have h2 : r'.map (fun e => (e.1.att.t, e.1.v.x)) = [(1, 3), (2, 3), (3, 2), (4, 1)] := Option.some.inj h2
      obtain ⟨e, he, e1⟩ := List.mem_map.1 (show ((1 : ℚ), (2 : ℚ)) ∈ r.map fun e => (e.1.att.t, e.1.v.x) by rw [h1]; simp)
      obtain ⟨e', he', e2⟩ := List.mem_map.1 (show ((1 : ℚ), (3 : ℚ)) ∈ r'.map fun e => (e.1.att.t, e.1.v.x) by rw [h2]; simp)
      obtain ⟨a1, a2⟩ := Prod.mk.inj e1
      obtain ⟨b1, b2⟩ := Prod.mk.inj e2
      have := h 1 4 (rollingRun ℚ) r r' (rolling_records ℚ).1 (rolling_records ℚ).2 hr hr' e he e' he' (b1.trans a1.symm)
      rw [this, a2] at b2
      norm_num at b2

-- the times 2 and 3 are inside the part, the dead reckoning of both succeeds and has poses at these times
example (origin dvl depth : V3 ℝ) : ∃ cs cs', SyncRecords (rollingRun ℝ) ∧ SyncRecords (partOf 1 4 (rollingRun ℝ)) ∧
    drCentre origin dvl depth (rollingRun ℝ) [] = .ok cs ∧ drCentre origin dvl depth (partOf 1 4 (rollingRun ℝ)) [] = .ok cs' ∧
    (∃ c ∈ cs', c.t = 2 ∧ Inside (partOf 1 4 (rollingRun ℝ)) 2) ∧ ∃ c ∈ cs', c.t = 3 ∧ Inside (partOf 1 4 (rollingRun ℝ)) 3 := by
  have key : ∀ x : SyncIn ℝ, SyncRecords x → ∃ r cs, syncRun x = .ok r ∧ drCentre origin dvl depth x [] = .ok cs := by
    intro x hx
    obtain ⟨r, _, _, h, _⟩ := C79_synchronised_partial x hx
    have : ∃ cs, drCentre origin dvl depth x [] = .ok cs := by
      unfold drCentre
      rw [h]
      exact ⟨_, rfl⟩
    exact ⟨r, this.choose, h, this.choose_spec⟩
  obtain ⟨_, cs, _, h2⟩ := key _ (rolling_records ℝ).1
  obtain ⟨r', cs', h3, h4⟩ := key _ (rolling_records ℝ).2
  refine ⟨cs, cs', (rolling_records ℝ).1, (rolling_records ℝ).2, h2, h4, ?_⟩
  obtain ⟨q, v0, vE, k1, k2, k3, k4, _⟩ := C79_synchronised_partial _ (rolling_records ℝ).2
  obtain ⟨l, o, hl, rfl⟩ := dr_shift _ _ _ _ _ _ h4
  rw [hl] at k1
  obtain rfl := Except.ok.inj k1
  have e1 : (partOf 1 4 (rollingRun ℝ)).vs = [⟨1, ⟨1, 0, 0⟩, ⟨0, 0, 0⟩⟩, ⟨4, ⟨1, 0, 0⟩, ⟨0, 0, 0⟩⟩] := by
    norm_num [partOf, measuredBetween, rollingRun]
  have e2 : (partOf 1 4 (rollingRun ℝ)).os = [⟨1, 0, 0, 0⟩, ⟨2, 2, 0, 0⟩, ⟨3, 4, 0, 0⟩, ⟨4, 4, 0, 0⟩] := by
    norm_num [partOf, measuredBetween, rollingRun]
  rw [e1] at k2 k3
  obtain rfl := Option.some.inj k2
  obtain rfl := Option.some.inj k3
  rw [e2] at k4
  norm_num at k4
  have hm : ∀ a : Attitude ℝ, a ∈ l.map (·.1.att) → ∃ c ∈ l.map (fun e => { centreOf origin dvl depth e with
        northings := (centreOf origin dvl depth e).northings + o.1, eastings := (centreOf origin dvl depth e).eastings + o.2 }), c.t = a.t := by
    intro a ha
    obtain ⟨e, he, rfl⟩ := List.mem_map.1 ha
    exact ⟨_, List.mem_map_of_mem he, rfl⟩
  have hin : ∀ q : ℝ, 1 < q → q < 4 → Inside (partOf 1 4 (rollingRun ℝ)) q := fun q h1 h4 => by
    unfold Inside
    rw [e2]
    exact ⟨⟨⟨1, 0, 0, 0⟩, by simp, h1⟩, ⟨4, 4, 0, 0⟩, by simp, h4⟩
  obtain ⟨c, hc, hct⟩ := hm ⟨2, 2, 0, 0⟩ (by rw [k4]; simp)
  obtain ⟨d, hd, hdt⟩ := hm ⟨3, 4, 0, 0⟩ (by rw [k4]; simp)
  exact ⟨⟨c, hc, hct, hin 2 (by norm_num) (by norm_num)⟩, d, hd, hdt, hin 3 (by norm_num) (by norm_num)⟩

/-! C283: the pose of an image and the other images. -/

private theorem bracket_unique {l : List Centre} (hs : l.Pairwise fun a b => a.t < b.t) {k m : ℕ} {a b c d : Centre} {q : ℝ}
    (ha : l[k]? = some a) (hb : l[k + 1]? = some b) (hc : l[m]? = some c) (hd : l[m + 1]? = some d) (h1 : a.t < q) (h2 : q ≤ b.t)
    (h3 : c.t < q) (h4 : q ≤ d.t) : a = c ∧ b = d := by
  have hk : k = m := by
    rcases lt_trichotomy k m with h | h | h
    · exfalso
      rcases Nat.lt_or_ge (k + 1) m with h' | h'
      · have := (place_lt (fun c : Centre => c.t) hs hb hc).2 h'
        linarith
      · obtain rfl : m = k + 1 := by omega
        rw [hb] at hc
        rw [Option.some.inj hc] at h2
        linarith
    · exact h
    · exfalso
      rcases Nat.lt_or_ge (m + 1) k with h' | h'
      · have := (place_lt (fun c : Centre => c.t) hs hd ha).2 h'
        linarith
      · obtain rfl : k = m + 1 := by omega
        rw [hd] at ha
        rw [Option.some.inj ha] at h4
        linarith
  subst hk
  rw [ha] at hc
  rw [hb] at hd
  exact ⟨Option.some.inj hc, Option.some.inj hd⟩

/-- **C283**: the pose found for a measurement does not depend on the other measurements of the sensor, if there are a pose of the vehicle before the
measurement and one between it and the last measurement. -/
theorem C283_alone_partial (m2ll : ℝ → ℝ → ℝ × ℝ) (origin offsets : V3 ℝ) (times times' : List ℝ) (centre : List Centre)
    (out out' : List (ℝ × Option SensorPose)) (hc : centre.Pairwise fun a b => a.t < b.t) (ht : times.Pairwise (· ≤ ·))
    (ht' : times'.Pairwise (· ≤ ·)) (h : interpolateSensorList m2ll origin offsets times centre = .ok out)
    (h' : interpolateSensorList m2ll origin offsets times' centre = .ok out') (q : ℝ) (p p' : SensorPose) (hp : (q, some p) ∈ out)
    (hp' : (q, some p') ∈ out') (c1 c2 : Centre) (hc1 : c1 ∈ centre) (hc2 : c2 ∈ centre) (h1 : c1.t < q) (h2 : q ≤ c2.t)
    (h3 : ∃ t ∈ times, c2.t ≤ t) (h3' : ∃ t ∈ times', c2.t ≤ t) : p' = p := by
  have hfirst : ∀ c, centre.head? = some c → c.t < q := by
    intro c hh
    obtain ⟨j, hj⟩ := List.mem_iff_getElem?.1 hc1
    rw [List.head?_eq_getElem?] at hh
    rcases Nat.eq_zero_or_pos j with h0 | h0
    · subst h0
      rw [hh] at hj
      rw [Option.some.inj hj]
      exact h1
    · exact lt_trans ((place_lt (fun c : Centre => c.t) hc hh hj).2 h0) h1
  have hlast : ∀ l : List ℝ, l.Pairwise (· ≤ ·) → (∃ t ∈ l, c2.t ≤ t) → ∃ c ∈ centre, q ≤ c.t ∧ ∃ sl, l.getLast? = some sl ∧ c.t ≤ sl := by
    rintro l hl ⟨t, ht, hle⟩
    have hne := List.ne_nil_of_mem ht
    refine ⟨c2, hc2, h2, l.getLast hne, List.getLast?_eq_some_getLast hne, le_trans hle ?_⟩
    obtain ⟨j, hj, rfl⟩ := List.mem_iff_getElem.1 ht
    rw [List.getLast_eq_getElem]
    rcases Nat.lt_or_ge j (l.length - 1) with h0 | h0
    · exact (List.pairwise_iff_getElem.1 hl) _ _ _ _ h0
    · have : j = l.length - 1 := by omega
      subst this
      exact le_refl _
  obtain ⟨k, a, b, ka, kb, k1, k2, rfl⟩ := between_states m2ll origin offsets times centre out hc ht h q p hp hfirst (hlast _ ht h3)
  obtain ⟨m, c, d, mc, md, m1, m2, rfl⟩ := between_states m2ll origin offsets times' centre out' hc ht' h' q p' hp' hfirst (hlast _ ht' h3')
  obtain ⟨rfl, rfl⟩ := bracket_unique hc ka kb mc md k1 k2 m1 m2
  rfl

private def at0 (t n : ℝ) : Centre := ⟨t, 0, 0, 0, 0, 0, 0, 0, n, 0, 0, fun _ => none⟩

/-- C283 fails for the last measurements: an image at the time 5, between poses at the times 0 and 10, is placed at 25 m if it is the only one, and at
50 m, which is right, if there is another one at the time 20. -/
theorem C283_alone_false : ¬ PoseAlone := by
  intro h
  have r1 : interpolateSensorList (fun _ _ => (0, 0)) ⟨0, 0, 0⟩ ⟨0, 0, 0⟩ [5] [at0 0 0, at0 10 100, at0 20 100] =
      .ok [(5, some (interpolateSensor (fun _ _ => (0, 0)) ⟨0, 0, 0⟩ ⟨0, 0, 0⟩ 5 (at0 20 100) (at0 0 0)))] := by
    norm_num [interpolateSensorList, at0, List.dropWhile, sensorLoop, advanceSteps, List.mapM_cons,
      List.mapM_nil, pyGet, bind, Except.bind, pure, Except.pure]
    rfl
  have r2 : interpolateSensorList (fun _ _ => (0, 0)) ⟨0, 0, 0⟩ ⟨0, 0, 0⟩ [5, 20] [at0 0 0, at0 10 100, at0 20 100] =
      .ok [(5, some (interpolateSensor (fun _ _ => (0, 0)) ⟨0, 0, 0⟩ ⟨0, 0, 0⟩ 5 (at0 0 0) (at0 10 100))),
        (20, some (interpolateSensor (fun _ _ => (0, 0)) ⟨0, 0, 0⟩ ⟨0, 0, 0⟩ 20 (at0 10 100) (at0 20 100)))] := by
    norm_num [interpolateSensorList, at0, List.dropWhile, sensorLoop, advanceSteps, List.mapM_cons,
      List.mapM_nil, pyGet, bind, Except.bind, pure, Except.pure]
    rfl
  have := h _ _ _ _ _ _ _ _ (by norm_num [at0]) (by simp) (by norm_num) r1 r2 5 _ _ (List.mem_singleton.2 rfl) (List.mem_cons_self ..)
    ⟨at0 0 0, by simp, by norm_num [at0]⟩ ⟨at0 10 100, by simp, by norm_num [at0]⟩
  have := congrArg SensorPose.northings this
  norm_num [interpolateSensor, at0, interpolate, bodyToInertial, interpolateYaw] at this

-- the hypotheses of C283_alone_partial are met by the second list of the example above and one more
example : ∃ c1 ∈ [at0 0 0, at0 10 100, at0 20 100], ∃ c2 ∈ [at0 0 0, at0 10 100, at0 20 100], c1.t < 5 ∧ 5 ≤ c2.t ∧
    (∃ t ∈ [(5 : ℝ), 20], c2.t ≤ t) ∧ ∃ t ∈ [(3 : ℝ), 5, 12], c2.t ≤ t :=
  ⟨at0 0 0, by simp, at0 10 100, by simp, by norm_num [at0], by norm_num [at0], ⟨20, by simp, by norm_num [at0]⟩, 12, by simp, by norm_num [at0]⟩

private theorem centres_place (origin dvl depth : V3 ℝ) (x : SyncIn ℝ) (us : List (TrackPt ℝ)) (cs : List Centre) (hx : SyncRecords x)
    (h : drCentre origin dvl depth x us = .ok cs) :
    ∃ (c : ℕ) (l : List (Synced ℝ × (ℝ × ℝ))), syncRun x = .ok l ∧ cs.map (·.t) = l.map (·.1.att.t) ∧
      (∀ (i : ℕ) k, cs[i]? = some k → ∃ o, x.os[c + i]? = some o ∧ o.t = k.t) ∧ cs.Pairwise fun a b => a.t < b.t := by
  obtain ⟨l, o, hl, rfl⟩ := dr_shift _ _ _ _ _ _ h
  obtain ⟨⟨c, hc⟩, _⟩ := run_place x hx l hl
  have hcs : ∀ (i : ℕ) (k : Centre), (l.map fun e => { centreOf origin dvl depth e with
        northings := (centreOf origin dvl depth e).northings + o.1, eastings := (centreOf origin dvl depth e).eastings + o.2 })[i]? = some k →
        ∃ o, x.os[c + i]? = some o ∧ o.t = k.t := by
    intro i k hi
    rw [List.getElem?_map] at hi
    obtain ⟨e, he, rfl⟩ := Option.map_eq_some_iff.1 hi
    exact ⟨e.1.att, hc i e he, rfl⟩
  refine ⟨c, l, hl, ?_, hcs, ?_⟩
  · rw [List.map_map]
    rfl
  · rw [List.pairwise_iff_getElem]
    intro i j hi hj hij
    obtain ⟨o1, a1, a2⟩ := hcs i _ (List.getElem?_eq_getElem hi)
    obtain ⟨o2, b1, b2⟩ := hcs j _ (List.getElem?_eq_getElem hj)
    rw [← a2, ← b2]
    exact (place_lt (fun o : Attitude ℝ => o.t) hx.osSorted a1 b1).2 (by omega)

private theorem interp_shift (q s t a b n : ℝ) : interpolate q s t (a + n) (b + n) = interpolate q s t a b + n := by
  unfold interpolate
  split
  · rfl
  · rw [show b + n - (a + n) = b - a by ring]; ring

/-- **C283**: the poses of images in a part of a dive are those in the whole dive, apart from one common shift north and east. The images are between poses of
the vehicle inside the part and not after the last of these that comes before another image. -/
theorem C283_part_partial (m2ll : ℝ → ℝ → ℝ × ℝ) (origin dvl depth mount : V3 ℝ) (s f : ℝ) (x : SyncIn ℝ) (us us' : List (TrackPt ℝ))
    (times times' : List ℝ) (cs cs' : List Centre) (out out' : List (ℝ × Option SensorPose)) (hx : SyncRecords x)
    (hy : SyncRecords (partOf s f x)) (ht : times.Pairwise (· ≤ ·)) (ht' : times'.Pairwise (· ≤ ·))
    (hcs : drCentre origin dvl depth x us = .ok cs) (hcs' : drCentre origin dvl depth (partOf s f x) us' = .ok cs')
    (h : drPayload m2ll origin dvl depth mount x us times = .ok out)
    (h' : drPayload m2ll origin dvl depth mount (partOf s f x) us' times' = .ok out') :
    ∃ north east : ℝ, ∀ q p p', (q, some p) ∈ out → (q, some p') ∈ out' →
      (∃ c1 ∈ cs', Inside (partOf s f x) c1.t ∧ c1.t < q) →
      (∃ c2 ∈ cs', Inside (partOf s f x) c2.t ∧ q ≤ c2.t ∧ (∃ t ∈ times, c2.t ≤ t) ∧ ∃ t ∈ times', c2.t ≤ t) →
      p' = { p with northings := p.northings + north, eastings := p.eastings + east,
                    latlon := m2ll (p.eastings + east) (p.northings + north) } := by
  obtain ⟨north, east, hne⟩ := C282_poses_partial origin dvl depth s f x us us' cs cs' hx hy hcs hcs'
  refine ⟨north, east, ?_⟩
  intro q p p' hp hp' ⟨c1, hc1, hin1, hq1⟩ ⟨c2, hc2, hin2, hq2, hl, hl'⟩
  obtain ⟨n, l, hl1, hl2, hpl, hsort⟩ := centres_place _ _ _ _ _ _ hx hcs
  obtain ⟨n', l', hl1', hl2', hpl', hsort'⟩ := centres_place _ _ _ _ _ _ hy hcs'
  have hos : (partOf s f x).os <:+: x.os := between_infix _ _ _ _ hx.osSorted
  -- partners
  have partner : ∀ c' ∈ cs', Inside (partOf s f x) c'.t → ∃ c ∈ cs, c.t = c'.t := by
    intro c' hc' hin
    have hm : c'.t ∈ l'.map (·.1.att.t) := by rw [← hl2']; exact List.mem_map_of_mem hc'
    obtain ⟨e', he', hte⟩ := List.mem_map.1 hm
    obtain ⟨e, he, hee⟩ := C282_found_partial s f x l l' hx hy hl1 hl1' e' he' (by rw [hte]; exact hin)
    have hm2 : e.1.att.t ∈ cs.map (·.t) := by rw [hl2]; exact List.mem_map_of_mem he
    obtain ⟨c, hc, hct⟩ := List.mem_map.1 hm2
    exact ⟨c, hc, by rw [hct, hee, hte]⟩
  have hfirst : ∀ (l : List Centre), (l.Pairwise fun a b => a.t < b.t) → (∃ c ∈ l, c.t < q) → ∀ c, l.head? = some c → c.t < q := by
    rintro l hl ⟨d, hd, hdq⟩ c hh
    obtain ⟨j, hj⟩ := List.mem_iff_getElem?.1 hd
    rw [List.head?_eq_getElem?] at hh
    rcases Nat.eq_zero_or_pos j with h0 | h0
    · subst h0
      rw [hh] at hj
      rw [Option.some.inj hj]
      exact hdq
    · exact lt_trans ((place_lt (fun c : Centre => c.t) hl hh hj).2 h0) hdq
  have hlast : ∀ l : List ℝ, l.Pairwise (· ≤ ·) → ∀ u : ℝ, (∃ t ∈ l, u ≤ t) → ∃ sl, l.getLast? = some sl ∧ u ≤ sl := by
    rintro l hl u ⟨t, ht, hle⟩
    have hne := List.ne_nil_of_mem ht
    refine ⟨l.getLast hne, List.getLast?_eq_some_getLast hne, le_trans hle ?_⟩
    obtain ⟨j, hj, rfl⟩ := List.mem_iff_getElem.1 ht
    rw [List.getLast_eq_getElem]
    rcases Nat.lt_or_ge j (l.length - 1) with h0 | h0
    · exact (List.pairwise_iff_getElem.1 hl) _ _ _ _ h0
    · have : j = l.length - 1 := by omega
      subst this
      exact le_refl _
  unfold drPayload at h h'
  rw [hcs] at h
  rw [hcs'] at h'
  obtain ⟨d1, hd1, hdt1⟩ := partner c1 hc1 hin1
  obtain ⟨d2, hd2, hdt2⟩ := partner c2 hc2 hin2
  obtain ⟨k, a, b, ka, kb, k1, k2, hpe⟩ := between_states m2ll origin mount times cs out hsort ht h q p hp
    (hfirst cs hsort ⟨d1, hd1, by rw [hdt1]; exact hq1⟩) ⟨d2, hd2, by rw [hdt2]; exact hq2, by rw [hdt2]; exact hlast _ ht _ hl⟩
  obtain ⟨k', a', b', ka', kb', k1', k2', hpe'⟩ := between_states m2ll origin mount times' cs' out' hsort' ht' h' q p' hp'
    (hfirst cs' hsort' ⟨c1, hc1, hq1⟩) ⟨c2, hc2, hq2, hlast _ ht' _ hl'⟩
  have hina : Inside (partOf s f x) a'.t := by
    refine ⟨?_, ?_⟩
    · obtain ⟨o, ho, hlt⟩ := hin1.1
      refine ⟨o, ho, lt_of_lt_of_le hlt ?_⟩
      by_contra hcon
      obtain ⟨j, hj⟩ := List.mem_iff_getElem?.1 hc1
      have h1 := (place_lt (fun c : Centre => c.t) hsort' ka' hj).1 (not_le.1 hcon)
      rcases Nat.lt_or_ge (k' + 1) j with h0 | h0
      · have := (place_lt (fun c : Centre => c.t) hsort' kb' hj).2 h0
        linarith
      · obtain rfl : j = k' + 1 := by omega
        rw [kb'] at hj
        rw [← Option.some.inj hj] at hq1
        linarith
    · obtain ⟨o, ho, hlt⟩ := hin2.2
      exact ⟨o, ho, by linarith⟩
  have hinb : Inside (partOf s f x) b'.t := by
    refine ⟨?_, ?_⟩
    · obtain ⟨o, ho, hlt⟩ := hin1.1
      exact ⟨o, ho, by linarith⟩
    · obtain ⟨o, ho, hlt⟩ := hin2.2
      refine ⟨o, ho, lt_of_le_of_lt ?_ hlt⟩
      by_contra hcon
      obtain ⟨j, hj⟩ := List.mem_iff_getElem?.1 hc2
      have h1 := (place_lt (fun c : Centre => c.t) hsort' hj kb').1 (not_le.1 hcon)
      rcases Nat.lt_or_ge j k' with h0 | h0
      · have := (place_lt (fun c : Centre => c.t) hsort' hj ka').2 h0
        linarith
      · obtain rfl : j = k' := by omega
        rw [ka'] at hj
        rw [← Option.some.inj hj] at hq2
        linarith
  obtain ⟨A, hA, hAt⟩ := partner a' (List.mem_of_getElem? ka') hina
  obtain ⟨Bc, hB, hBt⟩ := partner b' (List.mem_of_getElem? kb') hinb
  obtain ⟨oa', pa1, pa2⟩ := hpl' _ _ ka'
  obtain ⟨ob', pb1, pb2⟩ := hpl' _ _ kb'
  -- no orientation of the whole dive lies strictly between
  have gap : ∀ o ∈ x.os, ¬ (a'.t < o.t ∧ o.t < b'.t) := by
    rintro o ho ⟨g1, g2⟩
    have wa := (List.mem_filter.1 (List.mem_of_getElem? pa1 : oa' ∈ measuredBetween _ s f x.os)).2
    have wb := (List.mem_filter.1 (List.mem_of_getElem? pb1 : ob' ∈ measuredBetween _ s f x.os)).2
    simp only [decide_eq_true_eq] at wa wb
    have hm : o ∈ (partOf s f x).os := List.mem_filter.2 ⟨ho, by
      simp only [decide_eq_true_eq]; exact ⟨by linarith [wa.1], by linarith [wb.2]⟩⟩
    obtain ⟨j, hj⟩ := List.mem_iff_getElem?.1 hm
    have j1 := (place_lt (fun o : Attitude ℝ => o.t) hy.osSorted pa1 hj).1 (by rw [pa2]; exact g1)
    have j2 := (place_lt (fun o : Attitude ℝ => o.t) hy.osSorted hj pb1).1 (by rw [pb2]; exact g2)
    omega
  obtain ⟨oa, qa1, qa2⟩ := hpl _ _ ka
  obtain ⟨ob, qb1, qb2⟩ := hpl _ _ kb
  obtain ⟨jA, hjA⟩ := List.mem_iff_getElem?.1 hA
  obtain ⟨jB, hjB⟩ := List.mem_iff_getElem?.1 hB
  have hAa : A.t = a.t := by
    rcases lt_trichotomy A.t a.t with g | g | g
    · exact absurd ⟨by rw [qa2, ← hAt]; exact g, by rw [qa2]; linarith⟩ (gap oa (List.mem_of_getElem? qa1))
    · exact g
    · have i1 := (place_lt (fun c : Centre => c.t) hsort ka hjA).1 g
      have i2 := (place_lt (fun c : Centre => c.t) hsort hjA kb).1 (by linarith)
      omega
  have hBb : Bc.t = b.t := by
    rcases lt_trichotomy Bc.t b.t with g | g | g
    · have i1 := (place_lt (fun c : Centre => c.t) hsort hjB kb).1 g
      have i2 := (place_lt (fun c : Centre => c.t) hsort ka hjB).1 (by linarith)
      omega
    · exact g
    · exact absurd ⟨by rw [qb2]; linarith, by rw [qb2, ← hBt]; exact g⟩ (gap ob (List.mem_of_getElem? qb1))
  have ea := hne a (List.mem_of_getElem? ka) a' (List.mem_of_getElem? ka') (by rw [← hAt, hAa]) hina
  have eb := hne b (List.mem_of_getElem? kb) b' (List.mem_of_getElem? kb') (by rw [← hBt, hBb]) hinb
  rw [hpe', hpe, ea, eb]
  simp only [interpolateSensor, interp_shift, SensorPose.mk.injEq]
  refine ⟨trivial, trivial, trivial, trivial, trivial, trivial, by ring, by ring, trivial, trivial, ?_, trivial⟩
  congr 1 <;> ring

end Oplab.Props
