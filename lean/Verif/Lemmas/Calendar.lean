import Mathlib.Tactic.IntervalCases
import Mathlib.Tactic.Push
import Verif.Lemmas.Digits
import Verif.Spec.Calendar

/-! Arithmetic of the proleptic Gregorian ordinal. -/

namespace Oplab
open Oplab.Spec

theorem leap_iff (y : Nat) : isLeap y = true ↔ Leap y := by
  simp only [isLeap, Leap, decide_eq_true_eq]
  split <;> omega

theorem dim_eq (y m : Nat) (h1 : 1 ≤ m) (h2 : m ≤ 12) : daysInMonth y m = monthLength y m := by
  simp only [monthLength]
  interval_cases m <;> simp [daysInMonth, leap_iff]

theorem ok_iff (c : DateTime) : c.ok = true ↔ ValidDate c := by
  simp only [DateTime.ok, ValidDate, decide_eq_true_eq]
  constructor
  · rintro ⟨h1, h2, h3, h4, h5, h6, h7, h8, h9, h10⟩
    rw [dim_eq _ _ h3 h4] at h6
    refine ⟨⟨h1, h2⟩, ⟨h3, h4⟩, ⟨h5, h6⟩, by omega, by omega, by omega, by omega⟩
  · rintro ⟨⟨h1, h2⟩, ⟨h3, h4⟩, ⟨h5, h6⟩, h7, h8, h9, h10⟩
    rw [← dim_eq _ _ h3 h4] at h6
    exact ⟨h1, h2, h3, h4, h5, h6, by omega, by omega, by omega, by omega⟩

theorem dbm_succ (y m : Nat) (h1 : 1 ≤ m) (h2 : m < 12) :
    daysBeforeMonth y (m + 1) = daysBeforeMonth y m + daysInMonth y m := by
  interval_cases m <;> simp [daysBeforeMonth, daysInMonth] <;> split <;> rfl

theorem dby_succ (y : Nat) (h : 1 ≤ y) :
    daysBeforeYear (y + 1) = daysBeforeYear y + 365 + (if isLeap y then 1 else 0) := by
  obtain ⟨n, rfl⟩ : ∃ n, y = n + 1 := ⟨y - 1, by omega⟩
  simp only [daysBeforeYear, isLeap, decide_eq_true_eq, Nat.add_sub_cancel]
  have h4 : (n + 1) / 4 = n / 4 + if (n + 1) % 4 = 0 then 1 else 0 := by split <;> omega
  have h100 : (n + 1) / 100 = n / 100 + if (n + 1) % 100 = 0 then 1 else 0 := by split <;> omega
  have h400 : (n + 1) / 400 = n / 400 + if (n + 1) % 400 = 0 then 1 else 0 := by split <;> omega
  have hle : n / 100 ≤ n / 4 := by omega
  have h41 : (n + 1) % 100 = 0 → (n + 1) % 4 = 0 := by omega
  have h14 : (n + 1) % 400 = 0 → (n + 1) % 100 = 0 := by omega
  rw [h4, h100, h400]
  generalize n / 4 = a at *
  generalize n / 100 = b at *
  generalize n / 400 = c at *
  by_cases e1 : (n + 1) % 4 = 0 <;> by_cases e2 : (n + 1) % 100 = 0 <;> by_cases e3 : (n + 1) % 400 = 0 <;>
    simp_all <;> omega
theorem dby_mono (y y' : Nat) (h : y ≤ y') : daysBeforeYear y ≤ daysBeforeYear y' := by
  induction y' with
  | zero => have : y = 0 := by omega
            subst this; exact Nat.le_refl _
  | succ k ih =>
    rcases Nat.lt_or_ge y (k + 1) with hk | hk
    · rcases Nat.eq_zero_or_pos k with hk0 | hk0
      · subst hk0; have : y = 0 := by omega
        subst this; decide
      · have := ih (by omega); rw [dby_succ k hk0]; omega
    · have : y = k + 1 := by omega
      subst this; exact Nat.le_refl _

theorem dby_form (a b c e : Nat) (hb : b ≤ 3) (hc : c ≤ 24) (he : e ≤ 3) :
    daysBeforeYear (a * 400 + b * 100 + c * 4 + e + 1) = 146097 * a + 36524 * b + 1461 * c + 365 * e := by
  simp only [daysBeforeYear, Nat.add_sub_cancel]
  have h4 : (a * 400 + b * 100 + c * 4 + e) / 4 = a * 100 + b * 25 + c := by omega
  have h100 : (a * 400 + b * 100 + c * 4 + e) / 100 = a * 4 + b := by omega
  have h400 : (a * 400 + b * 100 + c * 4 + e) / 400 = a := by omega
  rw [h4, h100, h400]; omega

theorem dbm_dec (y : Nat) : daysBeforeMonth y 12 = 334 + (if isLeap y then 1 else 0) := by
  simp [daysBeforeMonth]

theorem dbm_mono (y m m' : Nat) (h1 : 1 ≤ m) (h : m < m') (h2 : m' ≤ 12) :
    daysBeforeMonth y m + daysInMonth y m ≤ daysBeforeMonth y m' := by
  induction m' with
  | zero => omega
  | succ k ih =>
    rw [dbm_succ y k (by omega) (by omega)]
    rcases Nat.lt_or_ge m k with hk | hk
    · have := ih hk (by omega); omega
    · have : m = k := by omega
      subst this; omega

theorem dbm_le (y m d : Nat) (h1 : 1 ≤ m) (h2 : m ≤ 12) (hd : d ≤ daysInMonth y m) :
    daysBeforeMonth y m + d ≤ 365 + (if isLeap y then 1 else 0) := by
  rcases Nat.lt_or_ge m 12 with h | h
  · have := dbm_mono y m 12 h1 h (by omega)
    rw [dbm_dec] at this; omega
  · have : m = 12 := by omega
    subst this; rw [dbm_dec]; simp [daysInMonth] at hd; omega

theorem dbm_jan (y : Nat) : daysBeforeMonth y 1 = 0 := by simp [daysBeforeMonth]

theorem ord_lt (y m d y' m' d' : Nat) (hy : 1 ≤ y) (hm : 1 ≤ m) (hm2 : m ≤ 12) (hd2 : d ≤ daysInMonth y m)
    (hm' : 1 ≤ m') (hm2' : m' ≤ 12) (hd' : 1 ≤ d')
    (h : y < y' ∨ y = y' ∧ (m < m' ∨ m = m' ∧ d < d')) : ymd2ord y m d < ymd2ord y' m' d' := by
  simp only [ymd2ord]
  rcases h with h | ⟨rfl, h | ⟨rfl, h⟩⟩
  · have h1 := dby_mono (y + 1) y' h
    rw [dby_succ y hy] at h1
    have h2 := dbm_le y m d hm hm2 hd2
    omega
  · have := dbm_mono y m m' hm h hm2'
    omega
  · omega

theorem month_spec (y : Nat) : ∀ (fuel m r : Nat), 1 ≤ m → m + fuel = 12 →
    daysBeforeMonth y m + r < 365 + (if isLeap y then 1 else 0) →
    let p := ord2ymd.month y fuel m r
    1 ≤ p.1 ∧ p.1 ≤ 12 ∧ 1 ≤ p.2 ∧ p.2 ≤ daysInMonth y p.1 ∧
      daysBeforeMonth y p.1 + p.2 = daysBeforeMonth y m + r + 1
  | 0, m, r, h1, h2, h3 => by
    have : m = 12 := by omega
    subst this
    simp only [ord2ymd.month]
    rw [dbm_dec] at h3
    refine ⟨by omega, by omega, by omega, ?_, by omega⟩
    simp only [daysInMonth]; omega
  | fuel + 1, m, r, h1, h2, h3 => by
    simp only [ord2ymd.month]
    split
    · rename_i h
      exact ⟨h1, by omega, by simp, by simp only; omega, by simp only; omega⟩
    · rename_i h
      have e := dbm_succ y m h1 (by omega)
      have := month_spec y fuel (m + 1) (r - daysInMonth y m) (by omega) (by omega) (by rw [e]; omega)
      simp only at this
      obtain ⟨g1, g2, g3, g4, g5⟩ := this
      refine ⟨g1, g2, g3, g4, ?_⟩
      rw [g5, e]; omega

theorem ord2ymd_spec (n : Nat) (hn : 1 ≤ n) :
    let p := ord2ymd n
    1 ≤ p.1 ∧ 1 ≤ p.2.1 ∧ p.2.1 ≤ 12 ∧ 1 ≤ p.2.2 ∧ p.2.2 ≤ daysInMonth p.1 p.2.1 ∧
      ymd2ord p.1 p.2.1 p.2.2 = n := by
  simp only [ord2ymd]
  generalize hN : n - 1 = N
  have hn' : n = N + 1 := by omega
  subst hn'
  clear hN hn
  generalize hA : N / 146097 = a
  generalize hR1 : N % 146097 = r1
  generalize hB : r1 / 36524 = b
  generalize hR2 : r1 % 36524 = r2
  generalize hC : r2 / 1461 = c
  generalize hR3 : r2 % 1461 = r3
  generalize hD : r3 / 365 = e
  generalize hR4 : r3 % 365 = r
  have hN : N = 146097 * a + r1 := by omega
  have hr1 : r1 < 146097 := by omega
  have h1 : r1 = 36524 * b + r2 := by omega
  have h2 : r2 = 1461 * c + r3 := by omega
  have h3 : r3 = 365 * e + r := by omega
  have hr2 : r2 < 36524 := by omega
  have hr3 : r3 < 1461 := by omega
  have hr : r < 365 := by omega
  have hb : b ≤ 4 := by omega
  have hc : c ≤ 24 := by omega
  have he : e ≤ 4 := by omega
  clear hA hR1 hB hR2 hC hR3 hD hR4
  split
  · rename_i h
    simp only [ymd2ord, dbm_dec]
    have hy : a * 400 + b * 100 + c * 4 + e + 1 - 1 = a * 400 + b * 100 + c * 4 + e := by omega
    rw [hy]
    refine ⟨by omega, by omega, by omega, by omega, by simp [daysInMonth], ?_⟩
    rcases h with h | h
    · subst h
      have hb3 : b ≤ 3 := by omega
      have hl : isLeap (a * 400 + b * 100 + c * 4 + 4) = true := by
        simp only [isLeap, decide_eq_true_eq]
        by_cases hc24 : c = 24
        · have : b = 3 := by omega
          subst this; subst hc24; omega
        · omega
      rw [if_pos hl, show a * 400 + b * 100 + c * 4 + 4 = a * 400 + b * 100 + c * 4 + 3 + 1 by omega,
        dby_form a b c 3 hb3 hc (by omega)]
      omega
    · subst h
      have hc0 : c = 0 := by omega
      have he0 : e = 0 := by omega
      subst hc0; subst he0
      have hl : isLeap (a * 400 + 4 * 100 + 0 * 4 + 0) = true := by
        simp only [isLeap, decide_eq_true_eq]; omega
      rw [if_pos hl, show a * 400 + 4 * 100 + 0 * 4 + 0 = a * 400 + 3 * 100 + 24 * 4 + 3 + 1 by omega,
        dby_form a 3 24 3 (by omega) (by omega) (by omega)]
      omega
  · rename_i h
    push Not at h
    have he3 : e ≤ 3 := by omega
    have hb3 : b ≤ 3 := by omega
    have hm := month_spec (a * 400 + b * 100 + c * 4 + e + 1) 11 1 r (by omega) (by omega)
      (by rw [dbm_jan]; omega)
    simp only at hm
    obtain ⟨g1, g2, g3, g4, g5⟩ := hm
    refine ⟨by omega, g1, g2, g3, g4, ?_⟩
    simp only [ymd2ord]
    rw [show ∀ p q s : Nat, p + q + s = p + (q + s) from fun p q s => by omega, g5]
    rw [dby_form a b c e hb3 hc he3, dbm_jan]
    omega

theorem ord2ymd_ymd2ord (y m d : Nat) (hy : 1 ≤ y) (hm1 : 1 ≤ m) (hm2 : m ≤ 12) (hd1 : 1 ≤ d)
    (hd2 : d ≤ daysInMonth y m) : ord2ymd (ymd2ord y m d) = (y, m, d) := by
  obtain ⟨p1, p2, p3, p4, p5, p6⟩ := ord2ymd_spec (ymd2ord y m d) (by simp only [ymd2ord]; omega)
  generalize ord2ymd (ymd2ord y m d) = p at *
  obtain ⟨y', m', d'⟩ := p
  simp only at *
  by_contra hne
  have hcases : (y < y' ∨ y = y' ∧ (m < m' ∨ m = m' ∧ d < d')) ∨ (y' < y ∨ y' = y ∧ (m' < m ∨ m' = m ∧ d' < d)) := by
    by_contra hn
    apply hne
    have : y' = y ∧ m' = m ∧ d' = d := by omega
    simp [this]
  rcases hcases with h | h
  · have := ord_lt _ _ _ _ _ _ hy hm1 hm2 hd2 p2 p3 p4 h; omega
  · have := ord_lt _ _ _ _ _ _ p1 p2 p3 p5 hm1 hm2 hd1 h; omega


end Oplab
