import Mathlib.Algebra.Order.Field.Basic
import Mathlib.Tactic.FieldSimp
import Mathlib.Tactic.Ring
import Verif.Model.Sync
import Verif.Spec.Sync

/-! Facts about the searches of `Verif.Model.Sync`. -/

namespace Oplab.Seek
open Oplab Oplab.Spec

theorem seekIdx_spec (n : Nat) (c : Nat → Bool) : ∀ (f j : Nat), n ≤ j + f →
    j ≤ seekIdx n c f j ∧ (seekIdx n c f j ≤ n ∨ seekIdx n c f j = j) ∧
    (∀ m, j ≤ m → m < seekIdx n c f j → c m = true) ∧
    (seekIdx n c f j < n → c (seekIdx n c f j) = false)
  | 0, j, h => by
    refine ⟨le_refl _, Or.inr rfl, fun m h1 h2 => ?_, fun h2 => ?_⟩ <;> simp only [seekIdx] at h2 <;> omega
  | f + 1, j, h => by
    rw [seekIdx]
    by_cases hc : j < n ∧ c j = true
    · rw [if_pos hc]
      obtain ⟨h1, h2, h3, h4⟩ := seekIdx_spec n c f (j + 1) (by omega)
      refine ⟨by omega, ?_, fun m hm hm2 => ?_, h4⟩
      · rcases h2 with h2 | h2
        · exact Or.inl h2
        · left; omega
      · rcases Nat.lt_or_ge j m with h5 | h5
        · exact h3 m h5 hm2
        · have : m = j := by omega
          rw [this]; exact hc.2
    · rw [if_neg hc]
      refine ⟨le_refl _, Or.inr rfl, fun m h1 h2 => by omega, fun h2 => ?_⟩
      have : ¬ c j = true := fun e => hc ⟨h2, e⟩
      simpa using this

theorem pyGet_nat {α : Type _} (l : List α) (i : Nat) (a : α) (h : l[i]? = some a) : pyGet l (i : Int) = .ok a := by
  have : ¬ ((i : Int) < 0) := by omega
  simp only [pyGet, if_neg this, Int.toNat_natCast, h]

theorem pyGet_last {α : Type _} (l : List α) (a : α) (h : l.getLast? = some a) : pyGet l (-1) = .ok a := by
  have hl : l ≠ [] := by rintro rfl; simp at h
  have h0 : 0 < l.length := List.length_pos_iff.2 hl
  have e : (-1 + (l.length : Int)).toNat = l.length - 1 := by omega
  have h1 : ¬ (-1 + (l.length : Int) < 0) := by omega
  rw [List.getLast?_eq_getElem?] at h
  simp only [pyGet, if_pos (show (-1 : Int) < 0 by omega), if_neg h1, e, h]

section
variable {K : Type} [Field K] [LinearOrder K]

theorem interp_onLine [IsStrictOrderedRing K] (q t1 t2 y1 y2 : K) (h : t1 < t2) :
    OnLine t1 y1 t2 y2 q (interpolate q t1 t2 y1 y2) := by
  have hne : t2 - t1 ≠ 0 := sub_ne_zero.2 h.ne'
  simp only [OnLine, interpolate, if_neg h.ne']
  field_simp
  ring

theorem head_lt_getElem {α : Type} (time : α → K) {l : List α} (h : l.Pairwise fun a b => time a < time b)
    {i j : Nat} {a b : α} (hi : l[i]? = some a) (hj : l[j]? = some b) (hij : i < j) : time a < time b := by
  obtain ⟨h1, rfl⟩ := List.getElem?_eq_some_iff.1 hi
  obtain ⟨h2, rfl⟩ := List.getElem?_eq_some_iff.1 hj
  exact List.pairwise_iff_getElem.1 h i j h1 h2 hij

end
end Oplab.Seek
