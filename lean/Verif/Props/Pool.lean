import Mathlib.Tactic.Linarith
import Mathlib.Data.List.Nodup
import Verif.Spec.Convert

namespace Oplab.Props
open Oplab Oplab.Spec

/-! ## C62: the worker pool of `auv_nav parse` -/

variable {R : Type}

/-- What a report says about a task. -/
private def Reports (t : TaskEnd R) : Except Err R → Prop
  | .ok r => t = .ret r
  | .error e => t = .exc e

private structure PoolInv (w n : Nat) (tasks : Nat → TaskEnd R) (s : Pool R) : Prop where
  rep : ∀ i x, s.reported i = some x → Reports (tasks i) x
  cover : ∀ i < n, i ∈ s.queue ∨ i ∈ s.running ∨ (s.reported i).isSome ∨ tasks i = .exit
  cap : s.running.length ≤ w

private theorem inv_init (w n : Nat) (tasks : Nat → TaskEnd R) : PoolInv w n tasks (poolInit R n) :=
  ⟨by simp [poolInit], fun i hi => by simp [poolInit, hi], by simp [poolInit]⟩

private theorem inv_step {w n : Nat} {tasks : Nat → TaskEnd R} {s t : Pool R} (h : PoolStep w tasks s t)
    (inv : PoolInv w n tasks s) : PoolInv w n tasks t := by
  cases h with
  | start i q run rep hlt =>
    refine ⟨inv.rep, fun j hj => ?_, by simpa using Nat.succ_le_of_lt hlt⟩
    rcases inv.cover j hj with h | h | h | h
    · rcases List.mem_cons.mp h with h | h
      · subst h; exact Or.inr (Or.inl (by simp))
      · exact Or.inl h
    · exact Or.inr (Or.inl (List.mem_cons_of_mem _ h))
    · exact Or.inr (Or.inr (Or.inl h))
    · exact Or.inr (Or.inr (Or.inr h))
  | finish i r q run rep hi ht =>
    refine ⟨fun j x hx => ?_, fun j hj => ?_, (List.length_erase_le).trans inv.cap⟩
    · simp only at hx
      split at hx
      · rename_i e; subst e; cases hx; exact ht
      · exact inv.rep j x hx
    · by_cases e : j = i
      · exact Or.inr (Or.inr (Or.inl (by simp [e])))
      · rcases inv.cover j hj with h | h | h | h
        · exact Or.inl h
        · exact Or.inr (Or.inl ((List.mem_erase_of_ne e).mpr h))
        · exact Or.inr (Or.inr (Or.inl (by simpa [e] using h)))
        · exact Or.inr (Or.inr (Or.inr h))
  | fail i x q run rep hi ht =>
    refine ⟨fun j y hy => ?_, fun j hj => ?_, (List.length_erase_le).trans inv.cap⟩
    · simp only at hy
      split at hy
      · rename_i e; subst e; cases hy; exact ht
      · exact inv.rep j y hy
    · by_cases e : j = i
      · exact Or.inr (Or.inr (Or.inl (by simp [e])))
      · rcases inv.cover j hj with h | h | h | h
        · exact Or.inl h
        · exact Or.inr (Or.inl ((List.mem_erase_of_ne e).mpr h))
        · exact Or.inr (Or.inr (Or.inl (by simpa [e] using h)))
        · exact Or.inr (Or.inr (Or.inr h))
  | die i q run rep hi ht =>
    refine ⟨inv.rep, fun j hj => ?_, (List.length_erase_le).trans inv.cap⟩
    by_cases e : j = i
    · exact Or.inr (Or.inr (Or.inr (e ▸ ht)))
    · rcases inv.cover j hj with h | h | h | h
      · exact Or.inl h
      · exact Or.inr (Or.inl ((List.mem_erase_of_ne e).mpr h))
      · exact Or.inr (Or.inr (Or.inl h))
      · exact Or.inr (Or.inr (Or.inr h))

private theorem inv_run {w n m : Nat} {tasks : Nat → TaskEnd R} {s t : Pool R} (h : PoolRun w tasks s m t) :
    PoolInv w n tasks s → PoolInv w n tasks t := by
  induction h with
  | refl => exact id
  | step hs _ ih => exact fun inv => ih (inv_step hs inv)

private def work (s : Pool R) : Nat := 2 * s.queue.length + s.running.length

private theorem work_step {w : Nat} {tasks : Nat → TaskEnd R} {s t : Pool R} (h : PoolStep w tasks s t) :
    work s = work t + 1 := by
  cases h with
  | start i q run rep hlt => simp [work]; omega
  | finish i r q run rep hi ht =>
    have := List.length_erase_of_mem hi
    have := List.length_pos_of_mem hi
    simp [work]; omega
  | fail i r q run rep hi ht =>
    have := List.length_erase_of_mem hi
    have := List.length_pos_of_mem hi
    simp [work]; omega
  | die i q run rep hi ht =>
    have := List.length_erase_of_mem hi
    have := List.length_pos_of_mem hi
    simp [work]; omega

private theorem work_run {w m : Nat} {tasks : Nat → TaskEnd R} {s t : Pool R} (h : PoolRun w tasks s m t) :
    work s = work t + m := by
  induction h with
  | refl => rfl
  | step hs _ ih => have := work_step hs; omega

/-- C62 (partial): when no parser quits, every schedule of the workers leads to the same data: the results in the order
the sensors were submitted, or the exception of the first sensor in that order that raised one. Missing: parsers that
quit. -/
theorem C62_result_partial {A : Type} (w n m : Nat) (tasks : Nat → TaskEnd (List A)) (s : Pool (List A))
    (run : PoolRun w tasks (poolInit _ n) m s) (hjoin : joinReturns n s) :
    collectPool s (List.range n) = oneByOne ((List.range n).map tasks) := by
  have inv := inv_run (n := n) run (inv_init w n tasks)
  have key : ∀ is : List Nat, (∀ i ∈ is, i < n) → collectPool s is = oneByOne (is.map tasks) := by
    intro is
    induction is with
    | nil => intro _; rfl
    | cons i is ih =>
      intro hlt
      obtain ⟨x, hx⟩ := Option.isSome_iff_exists.mp (hjoin i (hlt i (by simp)))
      have hr := inv.rep i x hx
      have ih := ih (fun j hj => hlt j (by simp [hj]))
      cases x with
      | ok r =>
        simp only [Reports] at hr
        simp only [collectPool, hx, List.map_cons, hr, oneByOne, ih]
        cases oneByOne (is.map tasks) <;> rfl
      | error e =>
        simp only [Reports] at hr
        simp only [collectPool, hx, List.map_cons, hr, oneByOne]
  exact key _ (fun i hi => List.mem_range.mp hi)

/-- C62 (partial): with at least one worker and no parser that quits, every schedule ends after at most two steps per
sensor, and it can only end with all sensors reported, so that `auv_nav parse` goes on. Missing: parsers that quit. -/
theorem C62_terminates_partial (w n m : Nat) (hw : 0 < w) (tasks : Nat → TaskEnd R) (hno : ∀ i < n, tasks i ≠ .exit)
    (s : Pool R) (run : PoolRun w tasks (poolInit R n) m s) :
    m ≤ 2 * n ∧ ((∀ t, ¬ PoolStep w tasks s t) → joinReturns n s) := by
  constructor
  · have := work_run run
    simp only [work, poolInit, List.length_range, List.length_nil] at this
    omega
  · intro hstop i hi
    have inv := inv_run (n := n) run (inv_init w n tasks)
    obtain ⟨q, act, rep⟩ := s
    have hrun : act = [] := by
      cases act with
      | nil => rfl
      | cons j js =>
        exfalso
        cases ht : tasks j with
        | ret r => exact hstop _ (.finish j r q (j :: js) rep (by simp) ht)
        | exc e => exact hstop _ (.fail j e q (j :: js) rep (by simp) ht)
        | exit => exact hstop _ (.die j q (j :: js) rep (by simp) ht)
    have hq : q = [] := by
      cases q with
      | nil => rfl
      | cons j js =>
        exfalso
        exact hstop _ (.start j js act rep (by rw [hrun]; exact hw))
    rcases inv.cover i hi with h | h | h | h
    · rw [hq] at h; cases h
    · rw [hrun] at h; cases h
    · exact h
    · exact absurd h (hno i hi)

/-- C62 is false: when one parser calls `Console.quit`, `auv_nav parse` hangs: whatever the schedule and the number of
workers, waiting for the pool never ends. -/
theorem C62_quit_hangs_false (w n m i : Nat) (tasks : Nat → TaskEnd R) (hi : i < n) (ht : tasks i = .exit) (s : Pool R)
    (run : PoolRun w tasks (poolInit R n) m s) : ¬ joinReturns n s := by
  intro hj
  obtain ⟨x, hx⟩ := Option.isSome_iff_exists.mp (hj i hi)
  have := (inv_run (n := n) run (inv_init w n tasks)).rep i x hx
  cases x with
  | ok r => simp only [Reports, ht] at this; cases this
  | error e => simp only [Reports, ht] at this; cases this

/-- Two sensors on two workers, the second finishing first: the run exists, the pool is joined, the results come in
order of submission. -/
example : ∃ s, PoolRun 2 (fun i => if i = 0 then TaskEnd.ret ["a"] else .ret ["b"]) (poolInit (List String) 2) 4 s ∧
    joinReturns 2 s ∧ collectPool s (List.range 2) = .ok ["a", "b"] := by
  refine ⟨_, .step (.start 0 [1] [] _ (by decide)) (.step (.start 1 [] [0] _ (by decide))
    (.step (.finish 1 ["b"] [] [1, 0] _ (by decide) rfl) (.step (.finish 0 ["a"] [] [0] _ (by decide) rfl) (.refl _)))),
    ?_, rfl⟩
  intro i hi
  rcases Nat.lt_succ_iff_lt_or_eq.mp hi with h | h
  · have : i = 0 := by omega
    subst this; rfl
  · subst h; rfl

end Oplab.Props
