import Mathlib.Algebra.Order.Field.Basic
import Mathlib.Algebra.Order.Field.Rat
import Mathlib.Tactic.Linarith
import Mathlib.Tactic.FieldSimp
import Mathlib.Tactic.Ring
import Mathlib.Tactic.NormNum
import Verif.Model.Sync
import Verif.Spec.Sync
import Verif.Lemmas.Seek
import Verif.Props.DeadReckoning
import Verif.Props.Interpolate

/-! C79-C81: synchronisation of the sensors. -/

namespace Oplab.Props
open Oplab Oplab.Spec Oplab.Seek

set_option linter.unusedSectionVars false

section
variable {K : Type} [Field K] [LinearOrder K]

/-- What is known about a counter between two steps: everything before it is earlier than the time reached. -/
private def Passed (ts : List K) (q : K) (j : Nat) : Prop :=
  j ≤ ts.length - 1 ∧ ∀ (m : ℕ) t, m < j → ts[m]? = some t → t < q

private theorem seekTime_spec (ts : List K) (q q' : K) (j : Nat) (h : Passed ts q j) (hq : q ≤ q') :
    Passed ts q' (seekTime ts q' j) ∧
      (seekTime ts q' j < ts.length - 1 → ∀ t, ts[seekTime ts q' j]? = some t → q' ≤ t) := by
  obtain ⟨h1, h2, h3, h4⟩ := seekIdx_spec (ts.length - 1)
    (fun m => ts[m]?.any (· < q')) ts.length j (by omega)
  refine ⟨⟨?_, fun m t hm ht => ?_⟩, fun hlt t ht => ?_⟩
  · rcases h2 with h2 | h2
    · exact h2
    · show seekIdx _ _ _ _ ≤ _
      rw [h2]; exact h.1
  · rcases Nat.lt_or_ge m j with h5 | h5
    · exact lt_of_lt_of_le (h.2 m t h5 ht) hq
    · have := h3 m h5 hm
      rw [ht] at this
      simpa using this
  · have := h4 hlt
    simp only [seekTime] at ht
    rw [ht] at this
    simpa using this

/-- One interpolation of the loop, at a time the record covers. -/
private theorem interpAt_curve [IsStrictOrderedRing K] (l : List (K × K)) (q q' : K) (j : Nat)
    (hr : IsRecord Prod.fst l) (hc : Covers Prod.fst l q') (h : Passed (l.map Prod.fst) q j) (hq : q ≤ q') :
    ∃ y, interpAt l q' ((seekTime (l.map Prod.fst) q' j : Int) - 1) (seekTime (l.map Prod.fst) q' j) = .ok y ∧
      OnCurve l q' y := by
  obtain ⟨hp, hs⟩ := seekTime_spec _ q q' j h hq
  generalize seekTime (l.map Prod.fst) q' j = r at hp hs ⊢
  obtain ⟨hlen, hpw⟩ := hr
  have hrl : r < l.length := by have := hp.1; simp only [List.length_map] at this; omega
  obtain ⟨b, hb⟩ : ∃ b, l[r]? = some b := ⟨_, List.getElem?_eq_getElem hrl⟩
  have hqb : q' ≤ b.1 := by
    rcases Nat.lt_or_ge r ((l.map Prod.fst).length - 1) with h5 | h5
    · exact hs h5 b.1 (by simp [List.getElem?_map, hb])
    · simp only [List.length_map] at h5
      have : l.getLast? = some b := by rw [List.getLast?_eq_getElem?, ← hb]; congr 1; omega
      exact hc.2 b (by simp [this])
  rcases Nat.eq_zero_or_pos r with h0 | h0
  · subst h0
    obtain ⟨c, hc'⟩ : ∃ c, l.getLast? = some c := by
      rw [List.getLast?_eq_getElem?]; exact ⟨_, List.getElem?_eq_getElem (by omega)⟩
    obtain ⟨d, hd⟩ : ∃ d, l[1]? = some d := ⟨_, List.getElem?_eq_getElem (by omega)⟩
    have hcl : l[l.length - 1]? = some c := by rw [← List.getLast?_eq_getElem?]; exact hc'
    have hlt : b.1 < c.1 := head_lt_getElem Prod.fst hpw hb hcl (by omega)
    have hbq : b.1 ≤ q' := hc.1 b (by rw [← List.head?_eq_getElem?] at hb; simp [hb])
    have hqe : q' = b.1 := le_antisymm hqb hbq
    refine ⟨b.2, ?_, 0, b, d, hb, hd, hbq, ?_, ?_⟩
    · have e1 : ((0 : Nat) : Int) - 1 = -1 := by norm_num
      rw [interpAt, e1, pyGet_last _ _ hc', pyGet_nat _ _ _ hb]
      show Except.ok _ = _
      have hne : b.1 - c.1 ≠ 0 := sub_ne_zero.2 hlt.ne
      simp only [interpolate, if_neg hlt.ne, hqe]
      congr 1
      field_simp
      ring
    · exact hqb.trans (head_lt_getElem Prod.fst hpw hb hd (by omega)).le
    · simp only [OnLine, hqe]; ring
  · obtain ⟨a, ha⟩ : ∃ a, l[r - 1]? = some a := ⟨_, List.getElem?_eq_getElem (by omega)⟩
    have haq : a.1 < q' := hp.2 (r - 1) a.1 (by omega) (by simp [List.getElem?_map, ha])
    have hab := head_lt_getElem Prod.fst hpw ha hb (by omega)
    refine ⟨_, ?_, r - 1, a, b, ha, by rw [← hb]; congr 1; omega, haq.le, hqb, interp_onLine q' a.1 b.1 a.2 b.2 hab⟩
    have e1 : ((r : Nat) : Int) - 1 = ((r - 1 : Nat) : Int) := by omega
    rw [interpAt, e1, pyGet_nat _ _ _ ha, pyGet_nat _ _ _ hb]
    rfl


/-- What is known about the counter of the velocities between two steps. -/
private def PassedNext (ts : List K) (q : K) (j : Nat) : Prop :=
  j ≤ ts.length - 1 ∧ ∀ (m : ℕ) t, m < j → ts[m + 1]? = some t → t < q

private theorem seekNext_spec (ts : List K) (q q' : K) (j : Nat) (h : PassedNext ts q j) (hq : q ≤ q') :
    PassedNext ts q' (seekNext ts q' j) ∧
      (seekNext ts q' j < ts.length - 1 → ∀ t, ts[seekNext ts q' j + 1]? = some t → q' ≤ t) := by
  obtain ⟨h1, h2, h3, h4⟩ := seekIdx_spec (ts.length - 1)
    (fun m => ts[m + 1]?.any (· < q')) ts.length j (by omega)
  refine ⟨⟨?_, fun m t hm ht => ?_⟩, fun hlt t ht => ?_⟩
  · rcases h2 with h2 | h2
    · exact h2
    · show seekIdx _ _ _ _ ≤ _
      rw [h2]; exact h.1
  · rcases Nat.lt_or_ge m j with h5 | h5
    · exact lt_of_lt_of_le (h.2 m t h5 ht) hq
    · have := h3 m h5 hm
      rw [ht] at this
      simpa using this
  · have := h4 hlt
    simp only [seekNext] at ht
    rw [ht] at this
    simpa using this

/-- The two velocities enclosing a time the DVL record covers. -/
private theorem seekNext_bracket (l : List (VelMeas K)) (q q' : K) (j : Nat)
    (hr : IsRecord (·.t) l) (hc : Covers (·.t) l q') (h : PassedNext (l.map (·.t)) q j) (hq : q ≤ q') :
    ∃ (r : ℕ) (a b : VelMeas K), seekNext (l.map (·.t)) q' j = r ∧ PassedNext (l.map (·.t)) q' r ∧ l[r]? = some a ∧
      l[r + 1]? = some b ∧ a.t ≤ q' ∧ q' ≤ b.t ∧ a.t < b.t := by
  obtain ⟨hp, hs⟩ := seekNext_spec _ q q' j h hq
  generalize seekNext (l.map (·.t)) q' j = r at hp hs ⊢
  obtain ⟨hlen, hpw⟩ := hr
  have hrl : r ≤ l.length - 1 := by have := hp.1; simpa using this
  have hr1 : r < l.length - 1 := by
    by_contra hcon
    have e : r = l.length - 1 := by omega
    obtain ⟨b, hb⟩ : ∃ b, l[l.length - 1]? = some b := ⟨_, List.getElem?_eq_getElem (by omega)⟩
    have h1 := hp.2 (r - 1) b.t (by omega) (by
      rw [List.getElem?_map, show r - 1 + 1 = l.length - 1 by omega, hb]; rfl)
    have h2 := hc.2 b (by rw [List.getLast?_eq_getElem?, hb]; rfl)
    exact absurd h1 (not_lt.2 h2)
  obtain ⟨a, ha⟩ : ∃ a, l[r]? = some a := ⟨_, List.getElem?_eq_getElem (by omega)⟩
  obtain ⟨b, hb⟩ : ∃ b, l[r + 1]? = some b := ⟨_, List.getElem?_eq_getElem (by omega)⟩
  refine ⟨r, a, b, rfl, hp, ha, hb, ?_, ?_, head_lt_getElem _ hpw ha hb (by omega)⟩
  · rcases Nat.eq_zero_or_pos r with h0 | h0
    · subst h0
      exact hc.1 a (by rw [← List.head?_eq_getElem?] at ha; simp [ha])
    · exact (hp.2 (r - 1) a.t (by omega) (by
        rw [List.getElem?_map, show r - 1 + 1 = r by omega, ha]; rfl)).le
  · exact hs (by simpa using hr1) b.t (by rw [List.getElem?_map, hb]; rfl)

/-- What C79 asks of an entry of the synchronised list: it belongs to an orientation measurement; the velocity is the
one measured by the DVL at that time, corrected with the turn rate at that measurement, and its rotation; altitude, depth
and the standard deviations are the measured ones at that time. -/
def EntryOk (x : SyncIn K) (e : Synced K) : Prop :=
  ∃ (i : ℕ) (raw w : V3 K), x.os[i]? = some e.att ∧
    OnCurve (x.vs.map fun m => (m.t, m.v.x)) e.att.t raw.x ∧
    OnCurve (x.vs.map fun m => (m.t, m.v.y)) e.att.t raw.y ∧
    OnCurve (x.vs.map fun m => (m.t, m.v.z)) e.att.t raw.z ∧
    computeAngularSpeeds x.os i = .ok w ∧ e.v = x.arm raw w ∧ e.inertial = x.rot e.att e.v ∧
    OnCurve (x.vs.map fun m => (m.t, m.std.x)) e.att.t e.vStd.x ∧
    OnCurve (x.vs.map fun m => (m.t, m.std.y)) e.att.t e.vStd.y ∧
    OnCurve (x.vs.map fun m => (m.t, m.std.z)) e.att.t e.vStd.z ∧
    OnCurve x.alts e.att.t e.alt ∧
    OnCurve (x.ds.map fun d => (d.t, d.depth)) e.att.t e.depth ∧
    OnCurve (x.ds.map fun d => (d.t, d.std)) e.att.t e.depthStd ∧ e.inertialStd = x.rot e.att e.vStd

/-- The counters are consistent with the time `q`. -/
private def IdxOk (x : SyncIn K) (q : K) (s : SyncIdx) : Prop :=
  PassedNext (x.vs.map (·.t)) q s.j ∧ Passed (x.ds.map (·.t)) q s.k ∧ Passed (x.alts.map Prod.fst) q s.n

private theorem record_map {α β : Type} (t : α → K) (t' : β → K) (f : α → β) (h : ∀ a, t' (f a) = t a) {l : List α}
    (hr : IsRecord t l) : IsRecord t' (l.map f) := by
  refine ⟨by simpa using hr.1, List.pairwise_map.2 ?_⟩
  exact hr.2.imp (fun {a b} hab => by rw [h, h]; exact hab)

private theorem covers_map {α β : Type} (t : α → K) (t' : β → K) (f : α → β) (h : ∀ a, t' (f a) = t a) {l : List α} {q : K}
    (hr : Covers t l q) : Covers t' (l.map f) q := by
  constructor
  · intro b hb
    rw [List.head?_map] at hb
    obtain ⟨a, ha, rfl⟩ := Option.mem_map.1 hb
    rw [h]; exact hr.1 a ha
  · intro b hb
    rw [List.getLast?_map] at hb
    obtain ⟨a, ha, rfl⟩ := Option.mem_map.1 hb
    rw [h]; exact hr.2 a ha

private theorem curve_of_bracket [IsStrictOrderedRing K] {l : List (VelMeas K)} {r : ℕ} {a b : VelMeas K} {q : K} (f : VelMeas K → K)
    (ha : l[r]? = some a) (hb : l[r + 1]? = some b) (h1 : a.t ≤ q) (h2 : q ≤ b.t) (h3 : a.t < b.t) :
    OnCurve (l.map fun m => (m.t, f m)) q (interpolate q a.t b.t (f a) (f b)) :=
  ⟨r, (a.t, f a), (b.t, f b), by rw [List.getElem?_map, ha]; rfl, by rw [List.getElem?_map, hb]; rfl, h1, h2,
    interp_onLine q a.t b.t (f a) (f b) h3⟩

private theorem angular_ok [IsStrictOrderedRing K] (o : List (Attitude K)) (i : Nat) (hi : i < o.length) (h3 : 3 ≤ o.length)
    (hs : o.Pairwise (fun a b => a.t < b.t)) : ∃ r, computeAngularSpeeds o i = .ok r := by
  obtain ⟨r, _, _, _, _, h, _⟩ := C08_rates_partial o i hi (Or.inl h3) hs
  exact ⟨r, h⟩

private theorem syncOne_spec [IsStrictOrderedRing K] (x : SyncIn K) (h3 : 3 ≤ x.os.length)
    (hos : x.os.Pairwise fun a b => a.t < b.t) (hvs : IsRecord (·.t) x.vs) (hal : IsRecord Prod.fst x.alts)
    (hds : IsRecord (·.t) x.ds) (q : K) (s : SyncIdx) (hs : IdxOk x q s) (i : ℕ) (o : Attitude K)
    (ho : x.os[i]? = some o) (hq : q ≤ o.t) (hcv : Covers (·.t) x.vs o.t) (hca : Covers Prod.fst x.alts o.t)
    (hcd : Covers (·.t) x.ds o.t) :
    ∃ s' e, syncOne x s i o = .ok (s', e) ∧ IdxOk x o.t s' ∧ e.att = o ∧ EntryOk x e := by
  obtain ⟨r, a, b, hr, hp, ha, hb, h1, h2, hlt⟩ := seekNext_bracket x.vs q o.t s.j hvs hcv hs.1 hq
  obtain ⟨w, hw⟩ := angular_ok x.os i (List.getElem?_eq_some_iff.1 ho).1 h3 hos
  obtain ⟨ya, hya, hya2⟩ := interpAt_curve x.alts q o.t s.n hal hca hs.2.2 hq
  have m1 : (x.ds.map fun d => (d.t, d.depth)).map Prod.fst = x.ds.map (·.t) := by simp
  have m2 : (x.ds.map fun d => (d.t, d.std)).map Prod.fst = x.ds.map (·.t) := by simp
  obtain ⟨yd, hyd, hyd2⟩ := interpAt_curve (x.ds.map fun d => (d.t, d.depth)) q o.t s.k
    (record_map _ _ _ (fun _ => rfl) hds) (covers_map _ _ _ (fun _ => rfl) hcd) (by rw [m1]; exact hs.2.1) hq
  obtain ⟨ys, hys, hys2⟩ := interpAt_curve (x.ds.map fun d => (d.t, d.std)) q o.t s.k
    (record_map _ _ _ (fun _ => rfl) hds) (covers_map _ _ _ (fun _ => rfl) hcd) (by rw [m2]; exact hs.2.1) hq
  rw [m1] at hyd
  rw [m2] at hys
  refine ⟨⟨r, seekTime (x.ds.map (·.t)) o.t s.k, seekTime (x.alts.map Prod.fst) o.t s.n⟩,
    ⟨o, x.arm (interpVec o.t (a.t, a.v) (b.t, b.v)) w, interpVec o.t (a.t, a.std) (b.t, b.std),
      x.rot o (x.arm (interpVec o.t (a.t, a.v) (b.t, b.v)) w), x.rot o (interpVec o.t (a.t, a.std) (b.t, b.std)),
      ya, yd, ys⟩, ?_, ?_, rfl, ?_⟩
  · rw [syncOne, hr]
    have e1 : ((r : Nat) : Int) + 1 = ((r + 1 : Nat) : Int) := by omega
    rw [e1, pyGet_nat _ _ _ ha, pyGet_nat _ _ _ hb, hw]
    simp only [bind, Except.bind]
    rw [hya]
    simp only
    rw [hyd]
    simp only
    rw [hys]
  · exact ⟨hp, (seekTime_spec _ q o.t s.k hs.2.1 hq).1, (seekTime_spec _ q o.t s.n hs.2.2 hq).1⟩
  · exact ⟨i, interpVec o.t (a.t, a.v) (b.t, b.v), w, ho, curve_of_bracket (fun m => m.v.x) ha hb h1 h2 hlt,
      curve_of_bracket (fun m => m.v.y) ha hb h1 h2 hlt, curve_of_bracket (fun m => m.v.z) ha hb h1 h2 hlt, hw, rfl, rfl,
      curve_of_bracket (fun m => m.std.x) ha hb h1 h2 hlt, curve_of_bracket (fun m => m.std.y) ha hb h1 h2 hlt,
      curve_of_bracket (fun m => m.std.z) ha hb h1 h2 hlt, hya2, hyd2, hys2, rfl⟩

/-- The records C79 ranges over: three or more orientations, two or more velocities, altitudes and depths, all in strictly
increasing order of time; altitude and depth are measured over the whole time of the DVL record during which there are
orientations; some orientation is measured while the DVL works. -/
structure SyncRecords (x : SyncIn K) : Prop where
  os3 : 3 ≤ x.os.length
  osSorted : x.os.Pairwise fun a b => a.t < b.t
  vs : IsRecord (·.t) x.vs
  alts : IsRecord Prod.fst x.alts
  ds : IsRecord (·.t) x.ds
  covered : ∀ o ∈ x.os, Covers (·.t) x.vs o.t → Covers Prod.fst x.alts o.t ∧ Covers (·.t) x.ds o.t
  some : ∃ o ∈ x.os, Covers (·.t) x.vs o.t

/-- Each position is the previous one displaced by the mean of the two velocities. -/
def Reckoned (r : List (Synced K × (K × K))) : Prop :=
  ∀ (k : ℕ) a b, r[k]? = some a → r[k + 1]? = some b →
    b.2.1 - a.2.1 = (b.1.att.t - a.1.att.t) * (a.1.inertial.x + b.1.inertial.x) / 2 ∧
    b.2.2 - a.2.2 = (b.1.att.t - a.1.att.t) * (a.1.inertial.y + b.1.inertial.y) / 2

private theorem filter_all {α : Type} (p : α → Bool) : ∀ l : List α, (∀ a ∈ l, p a = true) → l.filter p = l :=
  fun _ h => List.filter_eq_self.2 h

private theorem startIndex_spec (q : K) : ∀ os : List (Attitude K), os.Pairwise (fun a b => a.t < b.t) →
    (∃ o ∈ os, q ≤ o.t) → ∃ n, startIndex q os = .ok n ∧ n = (os.filter fun o => decide (o.t < q)).length ∧
      os.drop n = os.filter fun o => decide (q ≤ o.t)
  | [], _, h => by obtain ⟨_, h, _⟩ := h; cases h
  | o :: os, hp, h => by
    obtain ⟨h1, h2⟩ := List.pairwise_cons.1 hp
    by_cases hlt : o.t < q
    · obtain ⟨o', ho', hq⟩ := h
      have ho2 : o' ∈ os := by
        rcases List.mem_cons.1 ho' with rfl | h3
        · exact absurd hlt (not_lt.2 hq)
        · exact h3
      obtain ⟨n, e1, e2, e3⟩ := startIndex_spec q os h2 ⟨o', ho2, hq⟩
      refine ⟨n + 1, ?_, ?_, ?_⟩
      · rw [startIndex, if_pos hlt, e1]; rfl
      · rw [List.filter_cons_of_pos (by simpa using hlt), List.length_cons, e2]
      · rw [List.drop_succ_cons, e3, List.filter_cons_of_neg (by simpa using hlt)]
    · refine ⟨0, by rw [startIndex, if_neg hlt], ?_, ?_⟩
      · rw [List.filter_eq_nil_iff.2]
        · rfl
        · intro a ha
          have : o.t ≤ a.t := by
            rcases List.mem_cons.1 ha with rfl | h3
            · exact le_rfl
            · exact (h1 a h3).le
          simpa using (not_lt.1 hlt).trans this
      · rw [List.drop_zero, filter_all]
        intro a ha
        have : o.t ≤ a.t := by
          rcases List.mem_cons.1 ha with rfl | h3
          · exact le_rfl
          · exact (h1 a h3).le
        simpa using (not_lt.1 hlt).trans this

private theorem syncLoop_spec [IsStrictOrderedRing K] (x : SyncIn K) (h : SyncRecords x) (vEnd : K)
    (hcov : ∀ o ∈ x.os, o.t ≤ vEnd → (∀ v ∈ x.vs.head?, v.t ≤ o.t) → Covers (·.t) x.vs o.t) :
    ∀ (l : List (Attitude K)) (i : ℕ) (s : SyncIdx) (q : K), l.Pairwise (fun a b => a.t < b.t) → x.os.drop i = l →
      IdxOk x q s → (∀ o ∈ l, q ≤ o.t ∧ ∀ v ∈ x.vs.head?, v.t ≤ o.t) →
      ∃ r, syncLoop x vEnd s i l = .ok r ∧ r.map (·.att) = (l.filter fun o => decide (o.t ≤ vEnd)) ∧
        ∀ e ∈ r, EntryOk x e
  | [], _, _, _, _, _, _, _ => ⟨[], rfl, rfl, by simp⟩
  | o :: os, i, s, q, hp, hd, hs, hl => by
    obtain ⟨h1, h2⟩ := List.pairwise_cons.1 hp
    have hoi : x.os[i]? = some o := by
      have := congrArg (·[0]?) hd
      simpa using this
    have hmem : o ∈ x.os := List.mem_of_getElem? hoi
    by_cases hgt : o.t > vEnd
    · refine ⟨[], by rw [syncLoop, if_pos hgt], ?_, by simp⟩
      rw [List.filter_eq_nil_iff.2]
      · rfl
      · intro a ha
        have : o.t ≤ a.t := by
          rcases List.mem_cons.1 ha with rfl | h3
          · exact le_rfl
          · exact (h1 a h3).le
        simpa using lt_of_lt_of_le hgt this
    · have hle := not_lt.1 hgt
      have hq := hl o List.mem_cons_self
      have hcv := hcov o hmem hle hq.2
      obtain ⟨hca, hcd⟩ := h.covered o hmem hcv
      obtain ⟨s', e, e1, e2, e3, e4⟩ := syncOne_spec x h.os3 h.osSorted h.vs h.alts h.ds q s hs i o hoi hq.1 hcv hca hcd
      have hd' : x.os.drop (i + 1) = os := by
        rw [← List.drop_drop, hd]; rfl
      obtain ⟨r, r1, r2, r3⟩ := syncLoop_spec x h vEnd hcov os (i + 1) s' o.t h2 hd' e2
        (fun a ha => ⟨(h1 a ha).le, (hl a (List.mem_cons_of_mem _ ha)).2⟩)
      refine ⟨e :: r, ?_, ?_, ?_⟩
      · rw [syncLoop, if_neg hgt, e1]
        simp only [bind, Except.bind, r1]
      · rw [List.map_cons, e3, r2, List.filter_cons_of_pos (by simpa using hle)]
      · intro a ha
        rcases List.mem_cons.1 ha with rfl | h3
        · exact e4
        · exact r3 a h3

private theorem reckoned_zip [IsStrictOrderedRing K] : ∀ (l : List (Synced K)) (e : Synced K) (p : K × K),
    Reckoned ((e :: l).zip (p :: reckonFrom ⟨e.att.t, e.inertial.x, e.inertial.y⟩ p
      (l.map fun s => ⟨s.att.t, s.inertial.x, s.inertial.y⟩)))
  | [], e, p => by
    intro k a b _ hb
    simp [reckonFrom] at hb
  | e' :: l, e, p => by
    intro k a b ha hb
    simp only [List.map_cons, reckonFrom] at ha hb
    cases k with
    | zero =>
      simp at ha hb
      subst ha; subst hb
      simp only [deadReckoning]
      constructor <;> ring
    | succ k =>
      rw [List.zip_cons_cons, List.getElem?_cons_succ] at ha hb
      exact reckoned_zip l e' _ k a b ha hb

private theorem reckonFrom_length : ∀ (l : List (VelSample K)) (e : VelSample K) (p : K × K),
    (reckonFrom e p l).length = l.length
  | [], _, _ => rfl
  | a :: l, e, p => by simp only [reckonFrom, List.length_cons, reckonFrom_length l]

/-- C79 (partial): with measurements of all sensors as in `SyncRecords` the run succeeds; the result has one entry for
each orientation measured during the DVL record, in order, except that the first of them is left out when exactly one
orientation was measured before; every entry holds the measurements of the other sensors at its time; the positions are
dead reckoned from the velocities and start at (0, 0) if no entry is left out. -/
theorem C79_synchronised_partial [IsStrictOrderedRing K] (x : SyncIn K) (h : SyncRecords x) :
    ∃ r v0 vEnd, syncRun x = .ok r ∧ x.vs.head? = some v0 ∧ x.vs.getLast? = some vEnd ∧
      r.map (·.1.att) = (x.os.filter fun o => decide (v0.t ≤ o.t ∧ o.t ≤ vEnd.t)).drop
        (if (x.os.filter fun o => decide (o.t < v0.t)).length = 1 then 1 else 0) ∧
      (∀ e ∈ r, EntryOk x e.1) ∧ Reckoned r ∧
      ((x.os.filter fun o => decide (o.t < v0.t)).length ≠ 1 → ∃ e ∈ r.head?, e.2 = (0, 0)) := by
  have hne : x.vs ≠ [] := by intro he; have := h.vs.1; rw [he] at this; simp at this
  obtain ⟨v0, hv0⟩ : ∃ v0, x.vs.head? = some v0 := by
    cases e : x.vs with
    | nil => exact absurd e hne
    | cons a _ => exact ⟨a, rfl⟩
  obtain ⟨vEnd, hvE⟩ : ∃ v, x.vs.getLast? = some v := ⟨_, List.getLast?_eq_some_getLast hne⟩
  have hosne : x.os ≠ [] := by intro he; have := h.os3; rw [he] at this; simp at this
  obtain ⟨oc, hoc, hcc⟩ := h.some
  obtain ⟨n, n1, n2, n3⟩ := startIndex_spec v0.t x.os h.osSorted ⟨oc, hoc, hcc.1 v0 hv0⟩
  have hstart : IdxOk x v0.t ⟨0, 0, 0⟩ :=
    ⟨⟨Nat.zero_le _, fun m _ hm => absurd hm (Nat.not_lt_zero m)⟩, ⟨Nat.zero_le _, fun m _ hm => absurd hm (Nat.not_lt_zero m)⟩,
      ⟨Nat.zero_le _, fun m _ hm => absurd hm (Nat.not_lt_zero m)⟩⟩
  obtain ⟨l, l1, l2, l3⟩ := syncLoop_spec x h vEnd.t
    (fun o _ h1 h2 => ⟨h2, fun a ha => by rw [hvE] at ha; cases ha; exact h1⟩)
    (x.os.drop n) n ⟨0, 0, 0⟩ v0.t (h.osSorted.sublist (List.drop_sublist _ _)) rfl hstart
    (fun o ho => by
      rw [n3] at ho
      have := (List.mem_filter.1 ho).2
      have h5 : v0.t ≤ o.t := by simpa using this
      exact ⟨h5, fun a ha => by rw [hv0] at ha; cases ha; exact h5⟩)
  have hfil : l.map (·.att) = x.os.filter fun o => decide (v0.t ≤ o.t ∧ o.t ≤ vEnd.t) := by
    rw [l2, n3, List.filter_filter]
    congr 1
    funext o
    simp [Bool.and_comm]
  cases l with
  | nil =>
    have : oc ∈ x.os.filter fun o => decide (v0.t ≤ o.t ∧ o.t ≤ vEnd.t) :=
      List.mem_filter.2 ⟨hoc, by simpa using ⟨hcc.1 v0 hv0, hcc.2 vEnd hvE⟩⟩
    rw [← hfil] at this
    cases this
  | cons e l =>
    have hz := reckoned_zip l e (0, 0)
    have hmap : ∀ (tr : List (K × K)), tr.length = (e :: l).length →
        ((e :: l).zip tr).map (·.1.att) = (e :: l).map (·.att) := by
      intro tr ht
      rw [show (fun q : Synced K × (K × K) => q.1.att) = (fun s : Synced K => s.att) ∘ Prod.fst from rfl, ← List.map_map,
        List.map_fst_zip (by omega)]
    have hm := hmap ((0, 0) :: reckonFrom ⟨e.att.t, e.inertial.x, e.inertial.y⟩ (0, 0)
      (l.map fun s => ⟨s.att.t, s.inertial.x, s.inertial.y⟩)) (by simp [reckonFrom_length])
    generalize ht : (0, 0) :: reckonFrom ⟨e.att.t, e.inertial.x, e.inertial.y⟩ (0, 0)
      (l.map fun s => ⟨s.att.t, s.inertial.x, s.inertial.y⟩) = tr at hz hm
    have hrun : syncRun x = .ok (if n = 1 then ((e :: l).zip tr).drop 1 else (e :: l).zip tr) := by
      simp only [syncRun, hv0, hvE, if_neg hosne, n1, bind, Except.bind, l1, List.map_cons, reckonTrack, ht]
    have hent : ∀ a ∈ (e :: l).zip tr, EntryOk x a.1 := fun a ha => l3 a.1 (List.of_mem_zip ha).1
    refine ⟨_, v0, vEnd, hrun, hv0, hvE, ?_, ?_, ?_, ?_⟩
    · rw [← n2, ← hfil, ← hm]
      split_ifs with h1
      · rw [List.map_drop]
      · rw [List.drop_zero]
    · split_ifs with h1
      · exact fun a ha => hent a (List.mem_of_mem_drop ha)
      · exact hent
    · split_ifs with h1
      · intro k a b ha hb
        rw [List.getElem?_drop] at ha hb
        exact hz (1 + k) a b ha (by rw [← hb]; rfl)
      · exact hz
    · intro h1
      rw [← n2] at h1
      rw [if_neg h1, ← ht]
      exact ⟨_, rfl, rfl⟩

/-- A straight run: orientations at 0, 1, 2, 3, DVL from `t0` to 5, altimeter and depth over the whole time. -/
def straightRun (t0 : ℚ) : SyncIn ℚ where
  rot := fun _ v => v
  arm := fun v _ => v
  os := [⟨0, 0, 0, 0⟩, ⟨1, 0, 0, 0⟩, ⟨2, 0, 0, 0⟩, ⟨3, 0, 0, 0⟩]
  vs := [⟨t0, ⟨1, 0, 0⟩, ⟨0, 0, 0⟩⟩, ⟨5, ⟨1, 0, 0⟩, ⟨0, 0, 0⟩⟩]
  alts := [(-1, 4), (9, 14)]
  ds := [⟨-1, 10, 0⟩, ⟨9, 20, 0⟩]

private theorem straightRun_records (t0 : ℚ) (h : t0 ≤ 3) : SyncRecords (straightRun t0) where
  os3 := by simp [straightRun]
  osSorted := by simp [straightRun]; norm_num
  vs := ⟨by simp [straightRun], by simp [straightRun]; linarith⟩
  alts := ⟨by simp [straightRun], by simp [straightRun]; norm_num⟩
  ds := ⟨by simp [straightRun], by simp [straightRun]; norm_num⟩
  covered := by
    intro o ho _
    simp only [straightRun, List.mem_cons, List.not_mem_nil, or_false] at ho
    rcases ho with rfl | rfl | rfl | rfl <;> norm_num [Covers, straightRun]
  some := ⟨⟨3, 0, 0, 0⟩, by simp [straightRun], by constructor <;> intro a ha <;> simp [straightRun] at ha <;> subst ha <;> norm_num <;> assumption⟩

example : SyncRecords (straightRun 0) := straightRun_records 0 (by norm_num)

/-- With the DVL on from the start every orientation has its entry; one second of travel at 1 m/s between two of them. -/
example : (syncRun (straightRun 0)).toOption.map (·.map fun e => (e.1.att.t, e.1.depth, e.1.alt, e.2)) =
    some [(0, 11, 5, 0, 0), (1, 12, 6, 1, 0), (2, 13, 7, 2, 0), (3, 14, 8, 3, 0)] := by decide +kernel

/-- C79 in full, for records as in `SyncRecords`: every orientation measured during the DVL record has an entry. -/
def SyncComplete (K : Type) [Field K] [LinearOrder K] : Prop :=
  ∀ x : SyncIn K, SyncRecords x → ∃ r, syncRun x = .ok r ∧ ∀ o ∈ x.os, Covers (·.t) x.vs o.t → ∃ e ∈ r, e.1.att.t = o.t

/-- C79 fails: when exactly one orientation was measured before the first velocity, the entry of the next one, which has
all its measurements, is deleted; the track then starts at 1 m instead of 0. -/
theorem C79_complete_false : ¬ SyncComplete ℚ := by
  intro h
  obtain ⟨r, hr, hall⟩ := h (straightRun (1 / 2)) (straightRun_records _ (by norm_num))
  have hrun : (syncRun (straightRun (1 / 2))).toOption.map (·.map fun e => (e.1.att.t, e.2)) =
      some [(2, 1, 0), (3, 2, 0)] := by decide +kernel
  rw [hr] at hrun
  have hrun : r.map (fun e => (e.1.att.t, e.2)) = [(2, 1, 0), (3, 2, 0)] := Option.some.inj hrun
  obtain ⟨e, he, ht⟩ := hall ⟨1, 0, 0, 0⟩ (by simp [straightRun])
    (by constructor <;> intro a ha <;> simp [straightRun] at ha <;> subst ha <;> norm_num)
  have : (e.1.att.t, e.2) ∈ r.map fun e => (e.1.att.t, e.2) := List.mem_map_of_mem he
  rw [hrun] at this
  simp only [List.mem_cons, Prod.mk.injEq, List.not_mem_nil, or_false] at this
  rcases this with ⟨h1, _⟩ | ⟨h1, _⟩ <;> rw [h1] at ht <;> norm_num at ht

/-- C79 without the requirement that altitude and depth are measured from the start: the depths of the entries stay
within the measured ones. -/
def SyncDepthMeasured (K : Type) [Field K] [LinearOrder K] : Prop :=
  ∀ (x : SyncIn K) r, 3 ≤ x.os.length → (x.os.Pairwise fun a b => a.t < b.t) → IsRecord (·.t) x.vs →
    IsRecord Prod.fst x.alts → IsRecord (·.t) x.ds → syncRun x = .ok r →
    ∀ e ∈ r, (∃ d ∈ x.ds, d.depth ≤ e.1.depth) ∧ ∃ d ∈ x.ds, e.1.depth ≤ d.depth

/-- C79 fails before the first depth measurement: the value is read off the line through the *last* and the first depth
sample, here 35 m above the surface although all measured depths are between 10 m and 100 m. -/
theorem C79_before_first_depth_false : ¬ SyncDepthMeasured ℚ := by
  intro h
  let x : SyncIn ℚ := { straightRun 0 with ds := [⟨5, 10, 0⟩, ⟨6, 10, 0⟩, ⟨15, 100, 0⟩] }
  have hrun : (syncRun x).toOption.map (·.map fun e => e.1.depth) = some [-35, -26, -17, -8] := by decide +kernel
  cases hr : syncRun x with
  | error e => rw [hr] at hrun; cases hrun
  | ok r =>
    rw [hr] at hrun
    have hrun : r.map (fun e => e.1.depth) = [-35, -26, -17, -8] := Option.some.inj hrun
    have hrec := straightRun_records 0 (by norm_num)
    cases r with
    | nil => cases hrun
    | cons e r =>
      obtain ⟨⟨d, hd, hle⟩, _⟩ := h x _ hrec.os3 hrec.osSorted hrec.vs hrec.alts
        ⟨by simp [x], by simp [x]; norm_num⟩ hr e List.mem_cons_self
      have he : e.1.depth = -35 := (List.cons.inj hrun).1
      rw [he] at hle
      simp only [x, List.mem_cons, List.not_mem_nil, or_false] at hd
      rcases hd with rfl | rfl | rfl <;> norm_num at hle

/-- C79: a run whose DVL record is a single measurement at an orientation's time fails with an `IndexError`, and so does a
run without an orientation at or after the first velocity. -/
theorem C79_too_short (x : SyncIn K) (hos : x.os ≠ []) (v : VelMeas K) (hv : x.vs = [v]) :
    (∀ o ∈ x.os, o.t < v.t) ∨ (∃ o os, x.os = o :: os ∧ o.t = v.t) → syncRun x = .error .indexError := by
  rintro (h | ⟨o, os, ho, ht⟩)
  · have : startIndex v.t x.os = .error .indexError := by
      have : ∀ l : List (Attitude K), (∀ o ∈ l, o.t < v.t) → startIndex v.t l = .error .indexError := by
        intro l
        induction l with
        | nil => intro _; rfl
        | cons a l ih =>
          intro hl
          rw [startIndex, if_pos (hl a List.mem_cons_self), ih fun o ho => hl o (List.mem_cons_of_mem _ ho)]
          rfl
      exact this _ h
    simp only [syncRun, hv, List.head?_cons, List.getLast?_singleton, if_neg hos, this, bind, Except.bind]
  · have e1 : startIndex v.t (o :: os) = .ok 0 := by rw [startIndex, if_neg (by rw [ht]; exact lt_irrefl _)]
    have e2 : syncLoop x v.t ⟨0, 0, 0⟩ 0 (o :: os) = .error .indexError := by
      rw [syncLoop, if_neg (by rw [ht]; exact lt_irrefl _), syncOne, hv]
      rfl
    simp only [syncRun, hv, List.head?_cons, List.getLast?_singleton, ho, e1, List.drop_zero, bind, Except.bind, e2]
    rw [if_neg (by simp)]

example : syncRun { straightRun 0 with vs := [⟨0, ⟨1, 0, 0⟩, ⟨0, 0, 0⟩⟩] } = .error .indexError :=
  C79_too_short _ (by simp [straightRun]) _ rfl (Or.inr ⟨_, _, rfl, rfl⟩)

/-! ## C80 -/

private theorem seafloorLoop_spec [IsStrictOrderedRing K] (ds : List (K × K)) (d0 dl : K × K) (hr : IsRecord Prod.fst ds)
    (h0 : ds.head? = some d0) (hl : ds.getLast? = some dl) : ∀ (as : List (K × K)) (j : ℕ) (q : K),
    (∀ a ∈ as, q ≤ a.1) → (as.Pairwise fun a b => a.1 ≤ b.1) → (∀ a ∈ as, a.1 ≤ dl.1) → Passed (ds.map Prod.fst) q j →
    ∃ r, seafloorLoop ds j as = .ok r ∧ r.length = as.length ∧ ∀ (i : ℕ) a, as[i]? = some a →
      (d0.1 < a.1 → ∃ d, OnCurve ds a.1 d ∧ r[i]? = some (some (d + a.2))) ∧ (a.1 ≤ d0.1 → r[i]? = some none)
  | [], _, _, _, _, _, _ => ⟨[], rfl, rfl, fun _ _ h => by simp at h⟩
  | a :: as, j, q, hq, hp, hle, hj => by
    obtain ⟨hp1, hp2⟩ := List.pairwise_cons.1 hp
    have hqa := hq a List.mem_cons_self
    obtain ⟨s1, s2⟩ := seekTime_spec _ q a.1 j hj hqa
    have hd0 : (ds.map Prod.fst)[0]? = some d0.1 := by
      rw [List.getElem?_map, ← List.head?_eq_getElem?, h0]; rfl
    obtain ⟨r, r1, r2, r3⟩ := seafloorLoop_spec ds d0 dl hr h0 hl as _ a.1 hp1 hp2
      (fun b hb => hle b (List.mem_cons_of_mem _ hb)) s1
    by_cases hlt : d0.1 < a.1
    · have hpos : 0 < seekTime (ds.map Prod.fst) a.1 j := by
        by_contra hz
        have hz : seekTime (ds.map Prod.fst) a.1 j = 0 := by omega
        have := s2 (by rw [hz]; have := hr.1; simp; omega) d0.1 (by rw [hz]; exact hd0)
        exact absurd hlt (not_lt.2 this)
      obtain ⟨y, hy1, hy2⟩ := interpAt_curve ds q a.1 j hr
        ⟨fun b hb => by rw [h0] at hb; cases hb; exact hlt.le, fun b hb => by
          rw [hl] at hb; cases hb; exact hle a List.mem_cons_self⟩ hj hqa
      refine ⟨some (y + a.2) :: r, ?_, by simp [r2], ?_⟩
      · simp only [seafloorLoop, if_pos hpos, hy1, bind, Except.bind, r1]
      · intro i b hb
        cases i with
        | zero =>
          simp at hb
          subst hb
          exact ⟨fun _ => ⟨y, hy2, rfl⟩, fun h => absurd hlt (not_lt.2 h)⟩
        | succ i => simpa using r3 i b (by simpa using hb)
    · have hz : seekTime (ds.map Prod.fst) a.1 j = 0 := by
        by_contra hpos
        exact hlt (s1.2 0 d0.1 (by omega) hd0)
      refine ⟨none :: r, ?_, by simp [r2], ?_⟩
      · rw [hz] at r1
        simp only [seafloorLoop, hz, lt_irrefl, if_false, bind, Except.bind, r1]
      · intro i b hb
        cases i with
        | zero =>
          simp at hb
          subst hb
          exact ⟨fun h => absurd h hlt, fun _ => rfl⟩
        | succ i => simpa using r3 i b (by simpa using hb)

private theorem fillBack_fold (m : ℕ) : ∀ (y : Option K) (t : List (Option K)),
    ((List.range m).reverse).foldlM (m := Except Err)
      (fun (acc : List (Option K)) (i : Nat) => do
        let v ← pyGet acc ((i : Int) + 1)
        .ok (acc.set i v)) (List.replicate m none ++ y :: t) = .ok (List.replicate m y ++ y :: t) := by
  induction m with
  | zero => intro y t; rfl
  | succ m ih =>
    intro y t
    rw [List.range_succ, List.reverse_append, List.reverse_singleton, List.singleton_append, List.foldlM_cons]
    have e1 : pyGet (List.replicate (m + 1) none ++ y :: t) ((m : Int) + 1) = .ok y := by
      have : ((m : Int) + 1) = ((m + 1 : ℕ) : Int) := by omega
      rw [this]
      exact pyGet_nat _ _ _ (by rw [List.getElem?_append_right (by simp)]; simp)
    have e2 : (List.replicate (m + 1) none ++ y :: t).set m y = List.replicate m none ++ y :: y :: t := by
      rw [List.replicate_succ', List.append_assoc, List.set_append_right _ _ (by simp)]
      simp
    simp only [e1, bind, Except.bind] at ih ⊢
    rw [e2, ih y (y :: t), List.replicate_succ', List.append_assoc]
    rfl

/-- A list of options whose `none`s all come first. -/
private theorem nones_first : ∀ l : List (Option K), (∀ (i k : ℕ), i < k → l[k]? = some none → l[i]? = some none) →
    ∃ (m : ℕ) (t : List (Option K)), l = List.replicate m none ++ t ∧ none ∉ t
  | [], _ => ⟨0, [], rfl, by simp⟩
  | none :: l, h => by
    obtain ⟨m, t, h1, h2⟩ := nones_first l (fun i k hik hk => by
      simpa using h (i + 1) (k + 1) (by omega) (by simpa using hk))
    exact ⟨m + 1, t, by rw [h1, List.replicate_succ, List.cons_append], h2⟩
  | some a :: l, h => by
    refine ⟨0, some a :: l, rfl, fun hn => ?_⟩
    rcases List.mem_cons.1 hn with h1 | h1
    · cases h1
    · obtain ⟨k, hk⟩ := List.mem_iff_getElem?.1 h1
      have := h 0 (k + 1) (by omega) (by simpa using hk)
      simp at this

private theorem filter_range_nones (m : ℕ) (t : List (Option K)) (ht : none ∉ t) :
    ((List.range (List.replicate m none ++ t).length).filter fun (i : ℕ) =>
      decide ((List.replicate m none ++ t)[i]? = some none)) = List.range m := by
  rw [List.length_append, List.length_replicate, List.range_add, List.filter_append]
  rw [List.filter_eq_self.2, List.filter_eq_nil_iff.2, List.append_nil]
  · intro i hi
    obtain ⟨k, hk, rfl⟩ := List.mem_map.1 hi
    rw [List.getElem?_append_right (by simp)]
    simp only [List.length_replicate, Nat.add_sub_cancel_left, decide_eq_true_eq]
    exact fun h => ht (List.mem_of_getElem? h)
  · intro i hi
    have := List.mem_range.1 hi
    rw [List.getElem?_append_left (by simpa using this)]
    simp [this]

/-- C80 (partial): the depth record has two or more samples in increasing order and reaches to the last altitude; the
altitudes are in order and the last one is after the first depth. Then every altitude after the first depth gets the
sum of its depth, read off the depth record, and its altitude; each earlier one gets the value of its successor.
Missing: records of other shapes; see `C80_total_false`. -/
theorem C80_seafloor_partial [IsStrictOrderedRing K] (ds as : List (K × K)) (d0 dl al : K × K) (hr : IsRecord Prod.fst ds)
    (h0 : ds.head? = some d0) (hl : ds.getLast? = some dl) (hs : as.Pairwise fun a b => a.1 ≤ b.1)
    (hle : ∀ a ∈ as, a.1 ≤ dl.1) (hlast : as.getLast? = some al) (hlt : d0.1 < al.1) :
    ∃ r, seafloorDepths ds as = .ok r ∧ r.length = as.length ∧ ∀ (i : ℕ) a, as[i]? = some a →
      (d0.1 < a.1 → ∃ d, OnCurve ds a.1 d ∧ r[i]? = some (some (d + a.2))) ∧
      (a.1 ≤ d0.1 → r[i]? = r[i + 1]? ∧ ∃ s, r[i]? = some (some s)) := by
  obtain ⟨a0, as', ha⟩ : ∃ a0 as', as = a0 :: as' := by
    cases as with
    | nil => cases hlast
    | cons a l => exact ⟨a, l, rfl⟩
  obtain ⟨raw, r1, r2, r3⟩ := seafloorLoop_spec ds d0 dl hr h0 hl as 0 a0.1 (by
      subst ha
      intro a h
      rcases List.mem_cons.1 h with rfl | h
      · exact le_rfl
      · exact (List.pairwise_cons.1 hs).1 a h) hs hle ⟨Nat.zero_le _, fun m _ hm => absurd hm (Nat.not_lt_zero m)⟩
  have hrawnone : ∀ k : ℕ, raw[k]? = some none → ∃ b, as[k]? = some b ∧ b.1 ≤ d0.1 := by
    intro k hk
    have hkl : k < as.length := by rw [← r2]; exact (List.getElem?_eq_some_iff.1 hk).1
    refine ⟨as[k], List.getElem?_eq_getElem hkl, ?_⟩
    by_contra hcon
    obtain ⟨d, _, hd⟩ := (r3 k _ (List.getElem?_eq_getElem hkl)).1 (not_le.1 hcon)
    rw [hk] at hd
    simp at hd
  obtain ⟨m, t, e1, e2⟩ := nones_first raw (fun i k hik hk => by
    obtain ⟨b, hb, hbd⟩ := hrawnone k hk
    have hkl : k < as.length := (List.getElem?_eq_some_iff.1 hb).1
    have hi : as[i]? = some as[i] := List.getElem?_eq_getElem (by omega)
    refine (r3 i _ hi).2 (le_trans ?_ hbd)
    have := List.pairwise_iff_getElem.1 hs i k (by omega) hkl hik
    rw [(List.getElem?_eq_some_iff.1 hb).2] at this
    exact this)
  have hlastraw : raw.getLast? ≠ some none := by
    intro h
    rw [List.getLast?_eq_getElem?, r2] at h
    obtain ⟨b, hb, hbd⟩ := hrawnone _ h
    rw [← List.getLast?_eq_getElem?, hlast] at hb
    cases hb
    exact absurd hlt (not_lt.2 hbd)
  cases t with
  | nil =>
    exfalso
    rw [List.append_nil] at e1
    have : raw ≠ [] := by intro h; rw [h, ha] at r2; simp at r2
    rw [e1] at hlastraw this
    cases m with
    | zero => simp at this
    | succ m => rw [List.replicate_succ'] at hlastraw; simp at hlastraw
  | cons y t =>
    obtain ⟨v, rfl⟩ : ∃ v, y = some v := by
      cases y with
      | none => exact absurd List.mem_cons_self e2
      | some v => exact ⟨v, rfl⟩
    have hfill : fillBack raw = .ok (List.replicate m (some v) ++ some v :: t) := by
      rw [fillBack, e1, filter_range_nones m _ e2]
      exact fillBack_fold m (some v) t
    refine ⟨List.replicate m (some v) ++ some v :: t, by simp only [seafloorDepths, r1, bind, Except.bind, hfill], ?_, ?_⟩
    · rw [← r2, e1]; simp
    · intro i a hi
      have hraw := r3 i a hi
      have hmi : (i < m → raw[i]? = some none) ∧ (m ≤ i → raw[i]? = (some v :: t)[i - m]?) := by
        constructor
        · intro h
          rw [e1, List.getElem?_append_left (by simpa using h)]
          simp [h]
        · intro h
          rw [e1, List.getElem?_append_right (by simpa using h)]
          simp
      constructor
      · intro h
        obtain ⟨d, hd1, hd2⟩ := hraw.1 h
        refine ⟨d, hd1, ?_⟩
        have hge : m ≤ i := by
          by_contra hc
          rw [hmi.1 (by omega)] at hd2
          simp at hd2
        rw [List.getElem?_append_right (by simpa using hge), List.length_replicate, ← hmi.2 hge, hd2]
      · intro h
        have hlt : i < m := by
          by_contra hc
          have h1 := hraw.2 h
          rw [hmi.2 (by omega)] at h1
          exact e2 (List.mem_of_getElem? h1)
        have h1 : (List.replicate m (some v) ++ some v :: t)[i]? = some (some v) := by
          rw [List.getElem?_append_left (by simpa using hlt)]; simp [hlt]
        refine ⟨?_, v, h1⟩
        rw [h1]
        rcases Nat.lt_or_ge (i + 1) m with h2 | h2
        · rw [List.getElem?_append_left (by simpa using h2)]; simp [h2]
        · have : i + 1 = m := by omega
          rw [List.getElem?_append_right (by simp; omega), List.length_replicate, this]
          simp

/-- Depth 10 m at time 1, 20 m at time 3; the altitudes at times 0 and 1 get the value of the one at time 2. -/
example : (seafloorDepths (K := ℚ) [(1, 10), (3, 20)] [(0, 5), (1, 7), (2, 5), (3, 4)]).toOption =
    some [some 20, some 20, some 20, some 24] := by decide +kernel

/-- C80 in full: whenever there are depth and altitude measurements, in order, every altitude gets a value. -/
def SeafloorTotal (K : Type) [Field K] [LinearOrder K] : Prop :=
  ∀ ds as : List (K × K), IsRecord Prod.fst ds → IsRecord Prod.fst as → ∃ r, seafloorDepths ds as = .ok r

/-- C80 fails when no altitude is after the first depth: there is no successor to copy and the run ends with an
`IndexError`. -/
theorem C80_total_false : ¬ SeafloorTotal ℚ := by
  intro h
  obtain ⟨r, hr⟩ := h [(5, 10), (6, 20)] [(0, 5), (1, 7)] ⟨by simp, by simp; norm_num⟩ ⟨by simp, by simp⟩
  have : (seafloorDepths (K := ℚ) [(5, 10), (6, 20)] [(0, 5), (1, 7)]).toOption = none := by decide +kernel
  rw [hr] at this
  cases this

/-! ## C81 -/

/-- The attitude `w` at time `q` between two orientation measurements: roll and pitch on the line between them, heading
at constant rate along the shorter arc. -/
def AttitudeBetween (a b : Attitude K) (q : K) (w : V3 K) : Prop :=
  a.t ≤ q ∧ q ≤ b.t ∧ OnLine a.t a.roll b.t b.roll q w.x ∧ OnLine a.t a.pitch b.t b.pitch q w.y ∧
    0 ≤ w.z ∧ w.z ≤ 360 ∧ headingDist a.yaw w.z * (b.t - a.t) = headingDist a.yaw b.yaw * (q - a.t) ∧
    headingDist w.z b.yaw * (b.t - a.t) = headingDist a.yaw b.yaw * (b.t - q)

private theorem inertialLoop_spec [IsStrictOrderedRing K] (os : List (Attitude K)) (o1 ol : Attitude K)
    (hr : IsRecord (·.t) os) (h1 : os[1]? = some o1) (hl : os.getLast? = some ol)
    (hy : ∀ o ∈ os, 0 ≤ o.yaw ∧ o.yaw ≤ 360) : ∀ (qs : List K) (j : ℕ) (q0 : K),
    (∀ q ∈ qs, q0 ≤ q) → (qs.Pairwise fun a b => a ≤ b) → (∀ q ∈ qs, o1.t < q ∧ q ≤ ol.t) → Passed (os.map (·.t)) q0 j →
    ∃ r, inertialLoop os j qs = .ok r ∧ r.length = qs.length ∧ ∀ (i : ℕ) q, qs[i]? = some q →
      ∃ (m : ℕ) (a b : Attitude K) (w : V3 K), os[m]? = some a ∧ os[m + 1]? = some b ∧ AttitudeBetween a b q w ∧
        r[i]? = some (some w)
  | [], _, _, _, _, _, _ => ⟨[], rfl, rfl, fun _ _ h => by simp at h⟩
  | q :: qs, j, q0, hq, hp, hin, hj => by
    obtain ⟨hp1, hp2⟩ := List.pairwise_cons.1 hp
    obtain ⟨hq1, hq2⟩ := hin q List.mem_cons_self
    obtain ⟨s1, s2⟩ := seekTime_spec _ q0 q j hj (hq q List.mem_cons_self)
    obtain ⟨r, r1, r2, r3⟩ := inertialLoop_spec os o1 ol hr h1 hl hy qs _ q hp1 hp2
      (fun b hb => hin b (List.mem_cons_of_mem _ hb)) s1
    generalize hk : seekTime (os.map (·.t)) q j = k at s1 s2 r1
    obtain ⟨hlen, hpw⟩ := hr
    have hkl : k ≤ os.length - 1 := by simpa using s1.1
    have hk2 : 2 ≤ k := by
      by_contra hc
      have hlt : k < os.length - 1 := by
        by_contra hcc
        have e : k = os.length - 1 := by omega
        have e2 : os.length - 1 = 1 := by omega
        rw [List.getLast?_eq_getElem?, e2, h1] at hl
        cases hl
        exact absurd hq1 (not_lt.2 hq2)
      have h3 := s2 (by simpa using hlt) os[k].t (by rw [List.getElem?_map, List.getElem?_eq_getElem (by omega)]; rfl)
      have h4 : os[k].t ≤ o1.t := by
        rcases Nat.lt_or_ge k 1 with h5 | h5
        · exact (head_lt_getElem _ hpw (List.getElem?_eq_getElem (by omega)) h1 h5).le
        · have : k = 1 := by omega
          subst this
          rw [(List.getElem?_eq_some_iff.1 h1).2]
      exact absurd hq1 (not_lt.2 (h3.trans h4))
    have ha : os[k - 1]? = some os[k - 1] := List.getElem?_eq_getElem (by omega)
    have hb : os[k]? = some os[k] := List.getElem?_eq_getElem (by omega)
    generalize os[k - 1] = a at ha
    generalize os[k] = b at hb
    have hab : a.t < b.t := head_lt_getElem _ hpw ha hb (by omega)
    have haq : a.t ≤ q := (s1.2 (k - 1) a.t (by omega) (by rw [List.getElem?_map, ha]; rfl)).le
    have hqb : q ≤ b.t := by
      rcases Nat.lt_or_ge k (os.length - 1) with h5 | h5
      · exact s2 (by simpa using h5) b.t (by rw [List.getElem?_map, hb]; rfl)
      · have e : os.length - 1 = k := by omega
        rw [List.getLast?_eq_getElem?, e, hb] at hl
        cases hl
        exact hq2
    have hyaw := C04_heading_rule q a.t b.t a.yaw b.yaw hab haq hqb (hy a (List.mem_of_getElem? ha)) (hy b (List.mem_of_getElem? hb))
    have e1 : ((k : Int) - 1) = ((k - 1 : ℕ) : Int) := by omega
    refine ⟨some ⟨interpolate q a.t b.t a.roll b.roll, interpolate q a.t b.t a.pitch b.pitch,
      interpolateYaw q a.t b.t a.yaw b.yaw⟩ :: r, ?_, by simp [r2], ?_⟩
    · simp only [inertialLoop, hk]
      rw [if_neg (by omega), e1, pyGet_nat _ _ _ ha, pyGet_nat _ _ _ hb]
      simp only [bind, Except.bind, r1]
    · intro i x hx
      cases i with
      | zero =>
        simp at hx
        subst hx
        refine ⟨k - 1, a, b, _, ha, by rw [show k - 1 + 1 = k by omega]; exact hb, ?_, rfl⟩
        exact ⟨haq, hqb, interp_onLine _ _ _ _ _ hab, interp_onLine _ _ _ _ _ hab, hyaw.1.1, hyaw.1.2, hyaw.2.1, hyaw.2.2⟩
      | succ i => simpa using r3 i x (by simpa using hx)

/-- C81 (partial): inertial velocities measured, in order, after the second orientation and not after the last one all
stay in the list, each with the attitude between the two orientations enclosing it. Missing: those before; see
`C81_every_entry_false` and `C81_before_first_false`. -/
theorem C81_attitude_partial [IsStrictOrderedRing K] (os : List (Attitude K)) (o1 ol : Attitude K) (qs : List K)
    (hr : IsRecord (·.t) os) (h1 : os[1]? = some o1) (hl : os.getLast? = some ol)
    (hy : ∀ o ∈ os, 0 ≤ o.yaw ∧ o.yaw ≤ 360) (hp : qs.Pairwise fun a b => a ≤ b) (hin : ∀ q ∈ qs, o1.t < q ∧ q ≤ ol.t) :
    ∃ r, inertialAttitudes os qs = .ok r ∧ r.map Prod.fst = qs ∧ ∀ p ∈ r,
      ∃ (m : ℕ) (a b : Attitude K) (w : V3 K), os[m]? = some a ∧ os[m + 1]? = some b ∧ AttitudeBetween a b p.1 w ∧
        p.2 = some w := by
  obtain ⟨r, r1, r2, r3⟩ := inertialLoop_spec os o1 ol hr h1 hl hy qs 0 o1.t (fun q hq => (hin q hq).1.le) hp hin
    ⟨Nat.zero_le _, fun m _ hm => absurd hm (Nat.not_lt_zero m)⟩
  have hsome : r.any (·.isNone) = false := by
    rw [List.any_eq_false]
    intro x hx
    obtain ⟨i, hi⟩ := List.mem_iff_getElem?.1 hx
    have hil : i < qs.length := by rw [← r2]; exact (List.getElem?_eq_some_iff.1 hi).1
    obtain ⟨_, _, _, w, _, _, _, hw⟩ := r3 i _ (List.getElem?_eq_getElem hil)
    rw [hi] at hw
    cases hw
    simp
  refine ⟨qs.zip r, ?_, List.map_fst_zip (by omega), ?_⟩
  · simp [inertialAttitudes, r1, bind, Except.bind, hsome]
  · intro p hpz
    obtain ⟨i, hi⟩ := List.mem_iff_getElem?.1 hpz
    rw [List.getElem?_zip_eq_some] at hi
    obtain ⟨m, a, b, w, ha, hb, hab, hw⟩ := r3 i p.1 hi.1
    rw [hi.2] at hw
    exact ⟨m, a, b, w, ha, hb, hab, Option.some.inj hw⟩

example : (inertialAttitudes (K := ℚ) [⟨0, 0, 0, 0⟩, ⟨1, 0, 0, 350⟩, ⟨2, 10, 0, 10⟩] [5 / 4, 2]).toOption.map
    (·.map fun p => (p.1, p.2.map fun w => (w.x, w.y, w.z))) =
    some [(5 / 4, some (5 / 2, 0, 355)), (2, some (10, 0, 10))] := by decide +kernel

/-- C81 in full: every inertial velocity measured while there are orientations gets an attitude. -/
def InertialAttitudeTotal (K : Type) [Field K] [LinearOrder K] : Prop :=
  ∀ (os : List (Attitude K)) (qs : List K) r, IsRecord (·.t) os → (qs.Pairwise fun a b => a < b) →
    (∀ q ∈ qs, Covers (·.t) os q) → inertialAttitudes os qs = .ok r → ∀ p ∈ r, ∃ w, p.2 = some w

/-- C81 fails between the first two orientations: no attitude is computed there, and only one of the entries concerned is
removed. -/
theorem C81_every_entry_false : ¬ InertialAttitudeTotal ℚ := by
  intro h
  let os : List (Attitude ℚ) := [⟨0, 0, 0, 0⟩, ⟨1, 0, 0, 0⟩, ⟨2, 0, 0, 0⟩]
  have hrun : (inertialAttitudes os [1 / 2, 3 / 4]).toOption.map (·.map fun p => (p.1, p.2.isSome)) = some [(3 / 4, false)] := by
    decide +kernel
  cases hr : inertialAttitudes os [1 / 2, 3 / 4] with
  | error e => rw [hr] at hrun; cases hrun
  | ok r =>
    rw [hr] at hrun
    have hrun : r.map (fun p => (p.1, p.2.isSome)) = [(3 / 4, false)] := Option.some.inj hrun
    cases r with
    | nil => cases hrun
    | cons p r =>
      obtain ⟨w, hw⟩ := h os _ _ ⟨by simp [os], by simp [os]⟩ (by simp; norm_num) (by
        intro q hq
        simp only [List.mem_cons, List.not_mem_nil, or_false] at hq
        rcases hq with rfl | rfl <;> norm_num [Covers, os]) hr p List.mem_cons_self
      have : p.2.isSome = false := congrArg Prod.snd (List.cons.inj hrun).1
      rw [hw] at this
      cases this

/-- C81 in full, before the orientations: an inertial velocity measured before the first orientation is given an attitude
within the measured rolls. -/
def InertialBeforeFirst (K : Type) [Field K] [LinearOrder K] : Prop :=
  ∀ (os : List (Attitude K)) (q : K) (w : V3 K), IsRecord (·.t) os → inertialAttitudes os [q] = .ok [(q, some w)] →
    ∃ a ∈ os, ∃ b ∈ os, a.roll ≤ w.x ∧ w.x ≤ b.roll

/-- C81 fails before the first orientation: the attitude is extrapolated along the line through the last and the first
one. -/
theorem C81_before_first_false : ¬ InertialBeforeFirst ℚ := by
  intro h
  let os : List (Attitude ℚ) := [⟨10, 0, 0, 0⟩, ⟨11, 1, 0, 0⟩, ⟨12, 2, 0, 0⟩]
  have hrun : (inertialAttitudes os [0]).toOption.map (·.map fun p => (p.1, p.2.map fun w => (w.x, w.y, w.z))) =
      some [(0, some (-10, 0, 0))] := by decide +kernel
  cases hr : inertialAttitudes os [0] with
  | error e => rw [hr] at hrun; cases hrun
  | ok r =>
    rw [hr] at hrun
    have hrun : r.map (fun p => (p.1, p.2.map fun w => (w.x, w.y, w.z))) = [(0, some (-10, 0, 0))] := Option.some.inj hrun
    match r, hrun with
    | [(q, none)], hrun => simp at hrun
    | [(q, some w)], hrun =>
      simp only [List.map_cons, List.map_nil, Option.map_some, List.cons.injEq, Prod.mk.injEq, Option.some.injEq, and_true] at hrun
      obtain ⟨rfl, hx, -⟩ := hrun
      obtain ⟨a, ha, b, hb, h1, h2⟩ := h os 0 w ⟨by simp [os], by simp [os]; norm_num⟩ hr
      rw [hx] at h1
      simp only [os, List.mem_cons, List.not_mem_nil, or_false] at ha
      rcases ha with rfl | rfl | rfl <;> norm_num at h1

end
end Oplab.Props
