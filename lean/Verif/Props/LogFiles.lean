import Mathlib.Algebra.Order.Ring.Int
import Mathlib.Tactic.Linarith
import Verif.Spec.LogFiles

/-! # C254: log files -/

namespace Oplab.Props
open Oplab Oplab.Spec

private theorem apply_all (hs : List String) (t : String) : ∀ (fs : String → List String) (f : String),
    (hs.foldl (fun fs h => fun f => if f = h then fs f ++ [t] else fs f) fs) f = fs f ++ List.replicate (hs.count f) t := by
  induction hs with
  | nil => intro fs f; simp
  | cons h hs ih =>
    intro fs f
    rw [List.foldl_cons, ih]
    by_cases e : f = h
    · subst e
      rw [if_pos rfl, List.count_cons_self, List.replicate_succ, List.append_assoc]
      rfl
    · rw [if_neg e, List.count_cons_of_ne (fun e' => e e'.symm)]

private theorem record_files (t : String) (s : LogState) (f : String) :
    (logRecord t s).files f = s.files f ++ List.replicate (s.handlers.count f) t := apply_all _ _ _ _

private theorem header_files (header : List String) : ∀ (s : LogState),
    (header.foldl (fun s t => logRecord t s) s).handlers = s.handlers ∧
    (header.foldl (fun s t => logRecord t s) s).stopped = s.stopped ∧
    (header.foldl (fun s t => logRecord t s) s).screen = s.screen ∧
    (header.foldl (fun s t => logRecord t s) s).verbose = s.verbose ∧
    ∀ f, (header.foldl (fun s t => logRecord t s) s).files f = s.files f ++ header.flatMap fun t => List.replicate (s.handlers.count f) t := by
  induction header with
  | nil => intro s; simp
  | cons t header ih =>
    intro s
    obtain ⟨h1, h2, h3, h4, h5⟩ := ih (logRecord t s)
    refine ⟨h1, h2, h3, h4, fun f => ?_⟩
    rw [List.foldl_cons, h5 f, record_files, List.flatMap_cons, List.append_assoc]
    rfl

private theorem stopped_run (l : List LogStep) (s : LogState) (h : s.stopped = true) : logRun s l = s := by
  induction l with
  | nil => rfl
  | cons e l ih =>
    have : logApply s e = s := by simp only [logApply, h, if_true]
    simpa only [logRun, List.foldl_cons, this] using ih

/-- C254: what a run adds to a log file, however often that file and others were opened before: every message of whatever kind, also
those that are not printed, up to the one that ends the run, as many times as the file was opened. This holds at every point of a run. -/
theorem C254_messages (l : List LogStep) (hl : NoOpen l) : ∀ (s : LogState), s.stopped = false →
    ∀ f, (logRun s l).files f = s.files f ++ (texts l).flatMap fun t => List.replicate (s.handlers.count f) t := by
  induction l with
  | nil => intro s hs f; simp [logRun, texts]
  | cons e l ih =>
    intro s hs f
    have ih' := ih (fun e he => hl e (List.mem_cons_of_mem _ he))
    have step : logRun s (e :: l) = logRun (logApply s e) l := rfl
    rw [step]
    cases e with
    | openLog g h => exact absurd rfl (hl (.openLog g h) List.mem_cons_self g h)
    | verbosity v =>
      have e1 : logApply s (.verbosity v) = { s with verbose := v } := by rw [logApply, hs]; rfl
      rw [e1, ih' { s with verbose := v } hs]
      rfl
    | message k t =>
      have hfiles : (logApply s (.message k t)).files f = s.files f ++ List.replicate (s.handlers.count f) t := by
        rw [logApply, hs]
        simp only [Bool.false_eq_true, if_false]
        split <;> split <;> exact record_files _ _ _
      have hh : (logApply s (.message k t)).handlers = s.handlers := by
        rw [logApply, hs]
        simp only [Bool.false_eq_true, if_false]
        split <;> split <;> rfl
      by_cases hk : k = .quit
      · have hst : (logApply s (.message k t)).stopped = true := by
          rw [logApply, hs]
          simp only [Bool.false_eq_true, if_false, if_pos hk]
        rw [stopped_run _ _ hst, hfiles]
        simp only [texts, if_pos hk, List.flatMap_cons, List.flatMap_nil, List.append_nil]
      · have hst : (logApply s (.message k t)).stopped = false := by
          rw [logApply, hs]
          simp only [Bool.false_eq_true, if_false, if_neg hk]
          split
          · rfl
          · exact hs
        rw [ih' _ hst, hfiles, hh]
        simp only [texts, if_neg hk, List.flatMap_cons, List.append_assoc]

private theorem replicate_one (l : List String) : (l.flatMap fun t => List.replicate 1 t) = l := by
  simp

private theorem replicate_zero (l : List String) : (l.flatMap fun t => List.replicate 0 t) = [] := by
  simp

/-- C254: the log of a command, opened in a process that logs nowhere else, holds what was in the file before, the lines about
version, user and host, and all messages since then in their order; no other file is touched. -/
theorem C254_command (f : String) (header : List String) (l : List LogStep) (hl : NoOpen l) (s : LogState)
    (hs : s.stopped = false) (hh : s.handlers = []) :
    (logRun s (.openLog f header :: l)).files f = s.files f ++ header ++ texts l ∧
    ∀ g, g ≠ f → (logRun s (.openLog f header :: l)).files g = s.files g := by
  have step : logRun s (.openLog f header :: l) = logRun (logApply s (.openLog f header)) l := rfl
  have e1 : logApply s (.openLog f header) = header.foldl (fun s t => logRecord t s) { s with handlers := [f] } := by
    rw [logApply, hs, hh]; rfl
  obtain ⟨h1, h2, -, -, h5⟩ := header_files header { s with handlers := [f] }
  rw [step, e1]
  constructor
  · rw [C254_messages l hl _ (h2.trans hs), h5, h1]
    simp only [List.count_singleton_self, replicate_one]
  · intro g hg
    have hc : [f].count g = 0 := List.count_eq_zero.2 (by simpa using hg)
    rw [C254_messages l hl _ (h2.trans hs), h5, h1]
    simp only [hc, replicate_zero, List.append_nil]

/-- C254: messages before a log file is opened are in no file. -/
theorem C254_before (l : List LogStep) (hl : NoOpen l) (f : String) : (logRun {} l).files f = [] := by
  rw [C254_messages l hl {} rfl]
  simp only [List.count_nil, replicate_zero]
  rfl

/-- C254: a message that is printed is printed whether or not there is a log, and the verbose messages exactly if asked for. -/
theorem C254_screen (k : LogKind) (t : String) (s : LogState) (hs : s.stopped = false) :
    (logApply s (.message k t)).screen =
      s.screen ++ if k = .log ∨ ((k = .warnVerbose ∨ k = .infoVerbose) ∧ s.verbose = false) then [] else [(k, t)] := by
  rw [logApply, hs]
  simp only [Bool.false_eq_true, if_false]
  cases k <;> cases hv : s.verbose <;> simp [logPrinted, logRecord]

private def opened : List LogStep := [.message .info "a", .message .infoVerbose "b"]

example : NoOpen opened ∧ texts opened = ["a", "b"] := by
  refine ⟨?_, rfl⟩
  intro e he f h
  simp only [opened, List.mem_cons, List.not_mem_nil, or_false] at he
  rcases he with rfl | rfl <;> simp

example : NoOpen [LogStep.message .quit "x", .message .info "y"] ∧ texts [LogStep.message .quit "x", .message .info "y"] = ["x"] := by
  refine ⟨?_, rfl⟩
  intro e he f h
  simp only [List.mem_cons, List.not_mem_nil, or_false] at he
  rcases he with rfl | rfl <;> simp

/-- C254: the log of a command also gets the messages of the commands after it in the same process. -/
theorem C254_single_false : ¬ LogOfCommand := by
  intro h
  have ho : NoOpen [LogStep.message .info "x"] := by
    intro e he f h
    simp only [List.mem_cons, List.not_mem_nil, or_false] at he
    subst he; simp
  have h1 := (h "parse" "process" [] [] [] [.message .info "x"] (fun e he => absurd he (by simp)) ho (fun e he => absurd he (by simp))).1
    (by decide)
  exact absurd h1 (by decide)

/-- C254: with several dives, `auv_nav parse` writes its log to the first one and `correct_images parse` to the last one. -/
theorem C254_folder (d : String) (ds : List String) (e : String) :
    navParseLog (d :: ds ++ [e]) = .ok d ∧ correctParseLog (d :: ds ++ [e]) = .ok e := by
  constructor
  · rfl
  · rw [correctParseLog, List.getLast?_append]
    rfl

theorem C254_folder_false : ¬ SameLogFolder := by
  intro h
  exact absurd (h ["a", "b"] "a" "b" rfl rfl) (by decide)

/-- C254: the progress bar has its full length at every step of a loop. -/
theorem C254_bar (i total length : ℤ) (h0 : 0 ≤ i) (hi : i ≤ total) (ht : 0 < total) (hl : 0 ≤ length) :
    ∃ filled, progressBar i total length = .ok (filled, length.toNat) ∧ (filled : ℤ) = length * i / total ∧ (i = total → (filled : ℤ) = length) := by
  have hf : Int.fdiv (length * i) total = length * i / total := Int.fdiv_eq_ediv_of_nonneg _ ht.le
  have h1 : 0 ≤ length * i / total := Int.ediv_nonneg (by positivity) ht.le
  have h2 : length * i / total ≤ length := by
    apply Int.ediv_le_of_le_mul ht
    exact mul_le_mul_of_nonneg_left hi hl
  refine ⟨(length * i / total).toNat, ?_, Int.toNat_of_nonneg h1, ?_⟩
  · rw [progressBar, if_neg ht.ne', hf]
    have : (length * i / total).toNat + (length - length * i / total).toNat = length.toNat := by omega
    simp only [this]
  · intro e
    subst e
    rw [Int.toNat_of_nonneg h1]
    exact Int.mul_ediv_cancel _ ht.ne'

example : progressBar 3 10 50 = .ok (15, 50) := by rfl

end Oplab.Props
