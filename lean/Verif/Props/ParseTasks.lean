import Mathlib.Tactic.Tauto
import Mathlib.Data.List.Basic
import Verif.Spec.ParseTasks

/-! # C221: every sensor of the mission is parsed once, by the parser of its format, from its own files -/

namespace Oplab.Props
open Oplab Oplab.Spec

/-- The table of a part of mission.yaml. -/
private def calls : Sec → List (String × ParseTask)
  | .image => imageCalls
  | .usbl => usblCalls
  | .velocity => velocityCalls
  | .orientation => orientationCalls
  | .depth => depthCalls
  | .altitude => altitudeCalls
  | .tide => tideCalls

private def table (s : Sec) (f : String) : Option ParseTask := ((calls s).find? fun e => f = e.1).map Prod.snd

private def order : List Sec := [.image, .usbl, .velocity, .orientation, .depth, .altitude, .tide]

private theorem kind_inj : ∀ s s', kind s = kind s' → s = s' := by
  intro s s'; cases s <;> cases s' <;> decide +kernel

private theorem calls_right : ∀ s, ∀ e ∈ calls s, e.2.category = kind s ∧ e.1 ∈ supported s := by
  intro s; cases s <;> decide +kernel

private theorem calls_all : ∀ s, ∀ f ∈ supported s, ∃ e ∈ calls s, e.1 = f := by
  intro s; cases s <;> decide +kernel

private theorem table_mem (s : Sec) (f : String) (t : ParseTask) (h : table s f = some t) : (f, t) ∈ calls s := by
  simp only [table, Option.map_eq_some_iff] at h
  obtain ⟨e, he, rfl⟩ := h
  have h1 := List.find?_some he
  have h2 := List.mem_of_find?_eq_some he
  simp only [decide_eq_true_eq] at h1
  rw [h1]; exact h2

private theorem table_some (s : Sec) (f : String) (t : ParseTask) (h : table s f = some t) : t.category = kind s ∧ f ∈ supported s :=
  calls_right s _ (table_mem s f t h)

private theorem table_none (s : Sec) (f : String) (h : table s f = none) : f ∉ supported s := by
  intro hf
  obtain ⟨e, he, rfl⟩ := calls_all s f hf
  simp only [table, Option.map_eq_none_iff, List.find?_eq_none] at h
  simpa using h e he

private theorem tasks_eq (m : Sec → SecCfg) :
    parseTasks m = (order.mapM fun s => secTask (m s) (calls s)).map List.flatten := by
  simp only [parseTasks, order, List.mapM_cons, List.mapM_nil, bind, Except.bind, pure, Except.pure, calls, Except.map]
  cases secTask (m .image) imageCalls with
  | error _ => rfl
  | ok _ =>
    cases secTask (m .usbl) usblCalls with
    | error _ => rfl
    | ok _ =>
      cases secTask (m .velocity) velocityCalls with
      | error _ => rfl
      | ok _ =>
        cases secTask (m .orientation) orientationCalls with
        | error _ => rfl
        | ok _ =>
          cases secTask (m .depth) depthCalls with
          | error _ => rfl
          | ok _ =>
            cases secTask (m .altitude) altitudeCalls with
            | error _ => rfl
            | ok _ =>
              cases secTask (m .tide) tideCalls with
              | error _ => rfl
              | ok _ => simp

private theorem sec_cases (m : Sec → SecCfg) (s : Sec) :
    ((m s).present = false ∧ secTask (m s) (calls s) = .ok []) ∨
    ((m s).present = true ∧ ∃ t, table s (m s).format = some t ∧ secTask (m s) (calls s) = .ok [t]) ∨
    ((m s).present = true ∧ (m s).format ∉ supported s ∧ secTask (m s) (calls s) = .error .quit) := by
  unfold secTask table
  cases hp : (m s).present with
  | false => left; simp
  | true =>
    right
    cases ht : (calls s).find? fun e => (m s).format = e.1 with
    | none => right; exact ⟨by rfl, table_none s _ (by simp only [table, ht]; rfl), by simp⟩
    | some e => left; exact ⟨by rfl, e.2, by simp, by simp⟩

private theorem mapM_ok (m : Sec → SecCfg) : ∀ l : List Sec, ∀ r, (l.mapM fun s => secTask (m s) (calls s)) = .ok r →
    r = l.map fun s => if (m s).present then (table s (m s).format).toList else []
  | [], r, h => by simp only [List.mapM_nil, pure, Except.pure, Except.ok.injEq] at h; subst h; rfl
  | s :: l, r, h => by
    rw [List.mapM_cons] at h
    rcases sec_cases m s with ⟨hp, he⟩ | ⟨hp, t, ht, he⟩ | ⟨hp, _, he⟩ <;> rw [he] at h <;> simp only [bind, Except.bind] at h
    · cases hl : (l.mapM fun s => secTask (m s) (calls s)) with
      | error e => rw [hl] at h; cases h
      | ok q =>
        rw [hl] at h; simp only [pure, Except.pure, Except.ok.injEq] at h
        subst h; rw [mapM_ok m l q hl]; simp [hp]
    · cases hl : (l.mapM fun s => secTask (m s) (calls s)) with
      | error e => rw [hl] at h; cases h
      | ok q =>
        rw [hl] at h; simp only [pure, Except.pure, Except.ok.injEq] at h
        subst h; rw [mapM_ok m l q hl]; simp [hp, ht]
    · cases h

private theorem mapM_total (m : Sec → SecCfg) : ∀ l : List Sec,
    (∃ r, (l.mapM fun s => secTask (m s) (calls s)) = .ok r ∧ ∀ s ∈ l, (m s).present = true → (m s).format ∈ supported s) ∨
    ((l.mapM fun s => secTask (m s) (calls s)) = .error .quit ∧ ∃ s ∈ l, (m s).present = true ∧ (m s).format ∉ supported s)
  | [] => by left; exact ⟨[], rfl, by simp⟩
  | s :: l => by
    rw [List.mapM_cons]
    rcases sec_cases m s with ⟨hp, he⟩ | ⟨hp, t, ht, he⟩ | ⟨hp, hn, he⟩ <;> rw [he] <;> simp only [bind, Except.bind]
    · rcases mapM_total m l with ⟨r, hr, hs⟩ | ⟨hr, s', hs', h1⟩ <;> rw [hr]
      · left; exact ⟨_, rfl, by
          intro s' hs' h'
          rcases List.mem_cons.1 hs' with rfl | hs'
          · rw [hp] at h'; cases h'
          · exact hs s' hs' h'⟩
      · right; exact ⟨rfl, s', List.mem_cons_of_mem _ hs', h1⟩
    · rcases mapM_total m l with ⟨r, hr, hs⟩ | ⟨hr, s', hs', h1⟩ <;> rw [hr]
      · left; exact ⟨_, rfl, by
          intro s' hs' h'
          rcases List.mem_cons.1 hs' with rfl | hs'
          · exact (table_some _ _ _ ht).2
          · exact hs s' hs' h'⟩
      · right; exact ⟨rfl, s', List.mem_cons_of_mem _ hs', h1⟩
    · right; exact ⟨trivial, s, by simp, hp, hn⟩

private theorem mem_order (s : Sec) : s ∈ order := by cases s <;> decide +kernel

private theorem ok_form (m : Sec → SecCfg) (ts : List ParseTask) (h : parseTasks m = .ok ts) :
    ts = order.flatMap fun s => if (m s).present then (table s (m s).format).toList else [] := by
  rw [tasks_eq] at h
  cases hl : (order.mapM fun s => secTask (m s) (calls s)) with
  | error e => rw [hl] at h; simp [Except.map] at h
  | ok r =>
    rw [hl] at h
    simp only [Except.map, Except.ok.injEq] at h
    rw [← h, mapM_ok m order r hl]; rfl

/-- C221: if every part of the mission that is there has a supported format, parsers are called; otherwise the program stops before it parses anything. -/
theorem C221_supported (m : Sec → SecCfg) :
    (AllSupported m → ∃ ts, parseTasks m = .ok ts) ∧ (¬ AllSupported m → parseTasks m = .error .quit) := by
  rw [tasks_eq]
  rcases mapM_total m order with ⟨r, hr, hs⟩ | ⟨hr, s, _, hp, hn⟩ <;> rw [hr]
  · exact ⟨fun _ => ⟨_, rfl⟩, fun h => absurd (fun s hp => hs s (mem_order s) hp) h⟩
  · exact ⟨fun h => absurd (h s hp) hn, fun _ => rfl⟩

private theorem mem_tasks (m : Sec → SecCfg) (ts : List ParseTask) (h : parseTasks m = .ok ts) (t : ParseTask) :
    t ∈ ts ↔ ∃ s, (m s).present = true ∧ table s (m s).format = some t := by
  rw [ok_form m ts h, List.mem_flatMap]
  constructor
  · rintro ⟨s, _, hs⟩
    refine ⟨s, ?_⟩
    split_ifs at hs with hp
    · exact ⟨hp, by simpa using hs⟩
    · simp at hs
  · rintro ⟨s, hp, ht⟩
    exact ⟨s, mem_order s, by simp [hp, ht]⟩

/-- C221: for every part of the mission that is there exactly one parser is called, and for the others none. -/
theorem C221_once (m : Sec → SecCfg) (ts : List ParseTask) (h : parseTasks m = .ok ts) (s : Sec) :
    (ts.filter fun t => t.category = kind s).length = if (m s).present then 1 else 0 := by
  have hs : AllSupported m := by
    by_contra hn
    rw [(C221_supported m).2 hn] at h; cases h
  have key : ∀ s', ((if (m s').present then (table s' (m s').format).toList else []).filter fun t => t.category = kind s).length =
      if s' = s then (if (m s).present then 1 else 0) else 0 := by
    intro s'
    by_cases hp : (m s').present = true
    · cases ht : table s' (m s').format with
      | none => exact absurd (hs s' hp) (table_none s' _ ht)
      | some t =>
        have hc := (table_some s' _ t ht).1
        by_cases he : s' = s
        · subst he; simp [hp, hc]
        · have : ¬ t.category = kind s := fun h' => he (kind_inj _ _ (hc.symm.trans h'))
          simp [hp, this, he]
    · have hp' : (m s').present = false := by simpa using hp
      by_cases he : s' = s
      · subst he; simp [hp']
      · simp [hp', he]
  rw [ok_form m ts h, List.filter_flatMap, List.length_flatMap]
  have : (order.map fun a => (List.filter (fun t => decide (t.category = kind s)) (if (m a).present then (table a (m a).format).toList else [])).length) =
      order.map fun s' => if s' = s then (if (m s).present then 1 else 0) else 0 := List.map_congr_left fun a _ => key a
  rw [this]
  cases s <;> simp [order]

/-- C221: every call belongs to a part of the mission that is there. -/
theorem C221_only_configured (m : Sec → SecCfg) (ts : List ParseTask) (h : parseTasks m = .ok ts) (t : ParseTask) (ht : t ∈ ts) :
    ∃ s, (m s).present = true ∧ t.category = kind s := by
  obtain ⟨s, hp, hs⟩ := (mem_tasks m ts h t).1 ht
  exact ⟨s, hp, (table_some s _ t hs).1⟩

set_option maxHeartbeats 2000000 in
/-- C221: with logs that are named alike where they are shared, every sensor but the positions of the second ALR format is read from its own files, by a parser that knows it.
Missing from the full claim: see the theorems below. -/
theorem C221_own_partial (m : Sec → SecCfg) (hm : SharedLogs m) (ts : List ParseTask) (h : parseTasks m = .ok ts) (t : ParseTask) (ht : t ∈ ts) (s : Sec)
    (hs : t.category = kind s) (halr : (m s).format ≠ "alr2") :
    ∃ src, runTask m t = .ok src ∧ Own m s src := by
  obtain ⟨s', hp, hs'⟩ := (mem_tasks m ts h t).1 ht
  have : s' = s := kind_inj _ _ ((table_some s' _ t hs').1.symm.trans hs)
  subst this
  have hmem := table_mem _ _ _ hs'
  have v := hm.vehicle s'
  have ae := hm.ae2000 s'
  have dv := hm.dvl
  have ga := hm.gaps
  have kd := hm.koyoDepth
  have ka := hm.koyoAltitude
  clear hm h ht hs hs' hp
  cases s' <;>
    simp only [calls, imageCalls, usblCalls, velocityCalls, orientationCalls, depthCalls, altitudeCalls, tideCalls, List.mem_cons, List.not_mem_nil, or_false,
      Prod.mk.injEq] at hmem <;>
    (repeat' (rcases hmem with ⟨hf, rfl⟩ | hmem)) <;>
    (try obtain ⟨hf, rfl⟩ := hmem) <;>
    first
    | (exact absurd hf halr)
    | (refine ⟨_, rfl, ?_⟩
       simp only [SameFiles, List.mem_cons, List.not_mem_nil, or_false] at v kd ka
       constructor <;> first | rfl | (intro f h'; first | (cases h'; done) | (cases h'; first | rfl | tauto)) | tauto)

/-- C221: positions in the second format of the ALR are never parsed: the call has one argument too many. -/
theorem C221_alr2_false (m : Sec → SecCfg) (hu : (m .usbl).present = true) (hf : (m .usbl).format = "alr2") (ts : List ParseTask) (h : parseTasks m = .ok ts) :
    ∃ t ∈ ts, t.category = "usbl" ∧ runTask m t = .error .typeError := by
  have : table .usbl "alr2" = some ⟨.alr, "usbl", 6⟩ := by rfl
  refine ⟨⟨.alr, "usbl", 6⟩, (mem_tasks m ts h _).2 ⟨.usbl, hu, by rw [hf]; exact this⟩, rfl, rfl⟩

/-- A mission whose depths are in another log of the PHINS than its velocities. -/
private def twoLogs : Sec → SecCfg
  | .velocity => ⟨true, "phins", "nav/phins/", "20180709_phins.txt"⟩
  | .depth => ⟨true, "phins", "nav/second/", "20180710_phins.txt"⟩
  | _ => ⟨false, "", "", ""⟩

/-- C221: the full claim fails: a depth log with its own name is not read, the velocity log is read instead. -/
theorem C221_own_false : ¬ AllOwn := by
  intro h
  have hp : parseTasks twoLogs = .ok [⟨.phins, "velocity", 5⟩, ⟨.phins, "depth", 5⟩] := rfl
  obtain ⟨src, h1, h2⟩ := h twoLogs _ hp ⟨.phins, "depth", 5⟩ (by simp) .depth rfl
  have h3 : runTask twoLogs ⟨.phins, "depth", 5⟩ = .ok ⟨"nav/phins/", some "20180709_phins.txt", "depth"⟩ := rfl
  rw [h3, Except.ok.injEq] at h1
  subst h1
  have := h2.folder
  revert this
  decide +kernel

/-- A mission with images, positions, and one log of the vehicle. -/
private def usual : Sec → SecCfg
  | .image => ⟨true, "seaxerocks_3", "image/", ""⟩
  | .usbl => ⟨true, "gaps", "nav/gaps/", ""⟩
  | .tide => ⟨false, "", "", ""⟩
  | _ => ⟨true, "phins", "nav/phins/", "20180709_phins.txt"⟩

/-- The hypotheses are met by a mission with six sensors. -/
example : AllSupported usual ∧ SharedLogs usual ∧
    parseTasks usual = .ok [⟨.seaxerocks, "images", 5⟩, ⟨.gaps, "usbl", 5⟩, ⟨.phins, "velocity", 5⟩, ⟨.phins, "orientation", 5⟩, ⟨.phins, "depth", 5⟩,
      ⟨.phins, "altitude", 5⟩] := by
  refine ⟨?_, ⟨?_, ?_, ?_, ?_, ?_, ?_⟩, rfl⟩
  · intro s; cases s <;> decide +kernel
  · intro s; cases s <;> simp only [SameFiles] <;> decide +kernel
  · intro s; cases s <;> decide +kernel
  all_goals (try simp only [SameFiles]); decide +kernel

end Oplab.Props
