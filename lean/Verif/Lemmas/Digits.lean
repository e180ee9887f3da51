import Verif.Model.Time

namespace Oplab

theorem digitChar_facts : ∀ k < 10, (Char.ofNat (48 + k)).isDigit = true ∧ (Char.ofNat (48 + k)).toNat = 48 + k := by
  decide

theorem padDigits_length : ∀ w n, (padDigits w n).length = w
  | 0, _ => rfl
  | w + 1, n => by simp [padDigits, padDigits_length w]

theorem padDigits_all : ∀ w n, (padDigits w n).all Char.isDigit = true
  | 0, _ => rfl
  | w + 1, n => by
    simp only [padDigits, List.all_append, padDigits_all w, Bool.true_and, List.all_cons, List.all_nil, Bool.and_true]
    exact (digitChar_facts (n % 10) (Nat.mod_lt _ (by omega))).1

theorem padDigits_fold : ∀ w n, n < 10 ^ w →
    (padDigits w n).foldl (fun n c => n * 10 + (c.toNat - 48)) 0 = n
  | 0, n, h => by simp at h; subst h; rfl
  | w + 1, n, h => by
    simp only [padDigits, List.foldl_append, List.foldl_cons, List.foldl_nil]
    rw [padDigits_fold w (n / 10) (by rw [Nat.div_lt_iff_lt_mul (by omega)]; rw [Nat.pow_succ] at h; exact h)]
    rw [(digitChar_facts (n % 10) (Nat.mod_lt _ (by omega))).2]
    omega

/-- Printing a number with enough digits and reading it back is the identity. -/
theorem pyInt_padDigits (w n : Nat) (hw : 0 < w) (h : n < 10 ^ w) : pyInt (padDigits w n) = .ok n := by
  have hne : padDigits w n ≠ [] := by
    intro he; have := padDigits_length w n; rw [he] at this; simp at this; omega
  simp only [pyInt, if_neg hne, padDigits_all w n, if_true, padDigits_fold w n h]

end Oplab
