import Verif.Spec.SensorTables
import Mathlib.Tactic.Common
import Mathlib.Tactic.Push
import Mathlib.Tactic.IntervalCases

/-! # C272: the tables of the measurements -/

namespace Oplab.Props

open Oplab Oplab.Spec

variable {K : Type}

/-! ### Reading a table -/

private theorem pieces_ne (c : Char) : ∀ t, pieces c t ≠ []
  | [] => by simp [pieces]
  | x :: r => by
    rw [pieces]; split
    · simp
    · split <;> simp

private theorem pieces_sep (c : Char) (rest : Text) : ∀ a : Text, c ∉ a → pieces c (a ++ c :: rest) = a :: pieces c rest
  | [], _ => by simp [pieces]
  | x :: a, h => by
    rw [List.mem_cons, not_or] at h
    rw [List.cons_append, pieces, if_neg (Ne.symm h.1), pieces_sep c rest a h.2]

private theorem pieces_one (c : Char) : ∀ a : Text, c ∉ a → pieces c a = [a]
  | [], _ => by simp [pieces]
  | x :: a, h => by
    rw [List.mem_cons, not_or] at h
    rw [pieces, if_neg (Ne.symm h.1), pieces_one c a h.2]

/-- A line without its end. -/
private def bare : List Text → Text
  | [] => []
  | [a] => a
  | a :: b :: r => a ++ ',' :: bare (b :: r)

private theorem line_bare : ∀ l : List Text, tableLine l = bare l ++ ['\n']
  | [] => rfl
  | [a] => rfl
  | a :: b :: r => by
    rw [tableLine, bare, line_bare (b :: r), List.append_assoc, List.cons_append]

private theorem bare_pieces : ∀ l : List Text, l ≠ [] → (∀ a ∈ l, ',' ∉ a) → pieces ',' (bare l) = l
  | [], h, _ => absurd rfl h
  | [a], _, h => pieces_one _ a (h a (by simp))
  | a :: b :: r, _, h => by
    rw [bare, pieces_sep _ _ a (h a (by simp)), bare_pieces (b :: r) (by simp) fun x hx => h x (List.mem_cons_of_mem _ hx)]

private theorem bare_newline : ∀ l : List Text, (∀ a ∈ l, '\n' ∉ a) → '\n' ∉ bare l
  | [], _ => by simp [bare]
  | [a], h => h a (by simp)
  | a :: b :: r, h => by
    have h1 := h a (by simp)
    have h2 := bare_newline (b :: r) fun x hx => h x (List.mem_cons_of_mem _ hx)
    rw [bare, List.mem_append, List.mem_cons]
    rintro (h' | h' | h')
    · exact h1 h'
    · exact absurd h' (by decide)
    · exact h2 h'

private theorem pieces_lines : ∀ ls : List (List Text), (∀ l ∈ ls, ∀ a ∈ l, '\n' ∉ a) →
    pieces '\n' (ls.map tableLine).flatten = ls.map bare ++ [[]]
  | [], _ => rfl
  | l :: ls, h => by
    rw [List.map_cons, List.flatten_cons, line_bare, List.append_assoc, List.singleton_append,
      pieces_sep _ _ _ (bare_newline l (h l (by simp))), pieces_lines ls fun x hx => h x (List.mem_cons_of_mem _ hx)]
    rfl

private theorem read_lines (h : List Text) (ls : List (List Text)) (hn : ∀ l ∈ h :: ls, ∀ a ∈ l, '\n' ∉ a)
    (hc : ∀ l ∈ h :: ls, l ≠ [] ∧ ∀ a ∈ l, ',' ∉ a) :
    readTable (tableLine h ++ (ls.map tableLine).flatten) = ls.map fun l => h.zip l := by
  have e := pieces_lines (h :: ls) hn
  rw [List.map_cons, List.flatten_cons] at e
  unfold readTable
  rw [e, List.dropLast_concat, List.map_cons]
  dsimp only
  rw [List.map_map]
  apply List.map_congr_left
  intro l hl
  have h1 := hc h (by simp)
  have h2 := hc l (List.mem_cons_of_mem _ hl)
  simp only [Function.comp, bare_pieces h h1.1 h1.2, bare_pieces l h2.1 h2.2]

private theorem column_texts (t : SensorTable) : ∀ a ∈ t.columns.map String.toList, ',' ∉ a ∧ '\n' ∉ a := by
  cases t <;> decide +kernel

private theorem shown_values (str : K → Text) (s : SensorLists K) (t : SensorTable) :
    (s.values t).map (fun vs => (t.columns.map String.toList).zip (vs.map str)) = asTexts str (shown s t) := by
  cases t <;> simp only [SensorLists.values, asTexts, shown, SensorTable.columns, List.map_map] <;> rfl

private theorem values_ne (s : SensorLists K) (t : SensorTable) : ∀ vs ∈ s.values t, vs ≠ [] := by
  intro vs h
  cases t <;> simp only [SensorLists.values, List.mem_map] at h <;> obtain ⟨m, -, rfl⟩ := h <;> simp

private theorem read_rows (str : K → Text) (hs : ∀ v, ',' ∉ str v ∧ '\n' ∉ str v) (s : SensorLists K) (t : SensorTable) (n : ℕ) :
    readTable (t.header ++ ((s.lines str t).take n).flatten) = (asTexts str (shown s t)).take n := by
  have e : (s.lines str t).take n = (((s.values t).take n).map fun vs => vs.map str).map tableLine := by
    rw [SensorLists.lines, ← List.map_take, List.map_map]; rfl
  rw [e, SensorTable.header, read_lines, ← shown_values, List.map_map, List.map_take]
  · rfl
  · intro l hl a ha
    rcases List.mem_cons.mp hl with rfl | hl
    · exact (column_texts t a ha).2
    · obtain ⟨vs, -, rfl⟩ := List.mem_map.mp hl
      obtain ⟨v, -, rfl⟩ := List.mem_map.mp ha
      exact (hs v).2
  · intro l hl
    rcases List.mem_cons.mp hl with rfl | hl
    · exact ⟨by cases t <;> simp [SensorTable.columns], fun a ha => (column_texts t a ha).1⟩
    · obtain ⟨vs, hv, rfl⟩ := List.mem_map.mp hl
      refine ⟨fun h => values_ne s t vs (List.mem_of_mem_take hv) (List.map_eq_nil_iff.mp h), fun a ha => ?_⟩
      obtain ⟨v, -, rfl⟩ := List.mem_map.mp ha
      exact (hs v).1

/-! ### Running the threads -/

/-- Steps on a table. -/
private def onTable (t : SensorTable) : TableStep K → Bool
  | .create u => u = t
  | .append u _ => u = t
  | _ => false

/-- Steps that remove a measurement of a table. -/
private def drops (t : SensorTable) : TableStep K → Bool
  | .dropFirst => t = .velocityInertial
  | _ => false

/-- What a step does to a table whose lines are fixed. -/
private def fileStep (t : SensorTable) (R : List Text) (d : Option Text) : TableStep K → Option Text
  | .create _ => some t.header
  | .append _ i => some (d.getD [] ++ (R[i]?).getD [])
  | _ => d

private theorem modify_map {α β : Type} (f : α → β) (g : α → α) (h : ∀ a, f (g a) = f a) (l : List α) (i : ℕ) :
    (l.modify i g).map f = l.map f := by
  apply List.ext_getElem?
  intro j
  rw [List.getElem?_map, List.getElem?_modify, List.getElem?_map]
  split
  · cases l[j]? <;> simp [h]
  · simp

private theorem step_values (str : K → Text) (s : TableState K) (o : TableStep K) (t : SensorTable) (h : drops t o = false) :
    (s.step str o).lists.values t = s.lists.values t := by
  cases o with
  | create u => rfl
  | append u i => rfl
  | seafloor i v =>
    cases t <;> simp only [TableState.step, SensorLists.values]
    exact modify_map _ _ (by intro a; rfl) _ _
  | extra i v =>
    cases t <;> simp only [TableState.step, SensorLists.values]
    exact modify_map _ _ (by intro a; rfl) _ _
  | dropFirst =>
    cases t <;> simp only [TableState.step, SensorLists.values]
    simp [drops] at h

private theorem run_file (str : K → Text) (t : SensorTable) (R : List Text) : ∀ (l : List (TableStep K)) (s : TableState K),
    s.lists.lines str t = R → (∀ o ∈ l, drops t o = false) →
    (s.run str l).disk t = (l.filter (onTable t)).foldl (fileStep t R) (s.disk t)
  | [], s, _, _ => rfl
  | o :: l, s, hR, hd => by
    have hl : (s.step str o).lists.lines str t = R := by
      rw [← hR, SensorLists.lines, SensorLists.lines, step_values str s o t (hd o (by simp))]
    have ih := run_file str t R l (s.step str o) hl fun x hx => hd x (List.mem_cons_of_mem _ hx)
    have e : s.run str (o :: l) = (s.step str o).run str l := rfl
    rw [e, ih]
    by_cases ho : onTable t o = true
    · rw [List.filter_cons_of_pos ho, List.foldl_cons]
      congr 1
      cases o with
      | create u =>
        simp only [onTable, decide_eq_true_eq] at ho; subst ho
        simp [TableState.step, fileStep]
      | append u i =>
        simp only [onTable, decide_eq_true_eq] at ho; subst ho
        simp [TableState.step, fileStep, hR]
      | _ => simp [onTable] at ho
    · rw [List.filter_cons_of_neg ho]
      congr 1
      cases o with
      | create u =>
        simp only [onTable, decide_eq_true_eq] at ho
        simp [TableState.step, Ne.symm ho]
      | append u i =>
        simp only [onTable, decide_eq_true_eq] at ho
        simp [TableState.step, Ne.symm ho]
      | _ => rfl

private theorem filter_threads {α : Type} (P : α → Bool) (i : Nat) {ts : List (List α)} {l : List α}
    (h : Interleave ts l) (hi : i < ts.length)
    (hother : ∀ j, ∀ t, ts[j]? = some t → j ≠ i → ∀ a ∈ t, P a = false) :
    l.filter P = (ts[i]).filter P := by
  induction h with
  | done hall =>
    rename_i ts
    have := hall ts[i] (List.getElem_mem hi)
    rw [this]
  | step hj _ ih =>
    rename_i ts j a r l _
    have hj' : j < ts.length := by
      by_contra hc
      rw [List.getElem?_eq_none (Nat.not_lt.mp hc)] at hj
      cases hj
    have ih' := ih (by simpa using hi) (fun k t hk hne b hb => by
      rcases eq_or_ne k j with rfl | hkj
      · rw [List.getElem?_set_self hj'] at hk
        cases hk
        exact hother k _ hj hne b (by simp [hb])
      · rw [List.getElem?_set_ne hkj.symm] at hk
        exact hother k t hk hne b hb)
    rw [List.filter_cons, ih']
    rcases eq_or_ne j i with rfl | hne
    · have e : ts[j] = a :: r := by
        rw [List.getElem?_eq_getElem hj'] at hj
        exact Option.some.inj hj
      simp only [List.getElem_set_self, e, List.filter_cons]
    · have := hother j _ hj hne a (by simp)
      rw [this]
      simp [List.getElem_set_ne hne]

private theorem mem_threads {α : Type} {ts : List (List α)} {l : List α} (h : Interleave ts l) :
    ∀ a ∈ l, ∃ t ∈ ts, a ∈ t := by
  induction h with
  | done _ => simp
  | step hj _ ih =>
    rename_i ts j a r l _
    intro b hb
    have hm := List.mem_of_getElem? hj
    rcases List.mem_cons.mp hb with rfl | hb
    · exact ⟨_, hm, by simp⟩
    · obtain ⟨t, ht, hbt⟩ := ih b hb
      rcases List.mem_or_eq_of_mem_set ht with ht | rfl
      · exact ⟨t, ht, hbt⟩
      · exact ⟨_, hm, by simp [hbt]⟩

private theorem writer_mem (t : SensorTable) (n : ℕ) : ∀ o ∈ tableWriter (K := K) t n, o = .create t ∨ ∃ i, o = .append t i := by
  intro o ho
  unfold tableWriter at ho
  split at ho
  · rcases List.mem_cons.mp ho with rfl | ho
    · exact Or.inl rfl
    · obtain ⟨i, -, rfl⟩ := List.mem_map.mp ho
      exact Or.inr ⟨i, rfl⟩
  · simp at ho

private theorem writer_on (t u : SensorTable) (n : ℕ) : ∀ o ∈ tableWriter (K := K) t n, onTable u o = decide (t = u) := by
  intro o ho
  rcases writer_mem t n o ho with rfl | ⟨i, rfl⟩ <;> rfl

private theorem writer_drops (t u : SensorTable) (n : ℕ) : ∀ o ∈ tableWriter (K := K) t n, drops u o = false := by
  intro o ho
  rcases writer_mem t n o ho with rfl | ⟨i, rfl⟩ <;> rfl

/-- The place of the thread of a table. -/
private def slot : SensorTable → ℕ
  | .velocityBody => 1
  | .velocityInertial => 2
  | .altitude => 3
  | .orientation => 4
  | .depth => 5
  | .usbl => 6

private theorem main_on (t : SensorTable) (o : TableStep K) (h : o.isMain = true) : onTable t o = false := by
  cases o <;> first | rfl | cases h

private theorem threads_filter (s : SensorLists K) (main l : List (TableStep K)) (hm : ∀ o ∈ main, o.isMain = true)
    (h : Interleave (tableThreads s main) l) (t : SensorTable) :
    l.filter (onTable t) = tableWriter t (shown s t).length := by
  have hl : slot t < (tableThreads s main).length := by cases t <;> simp [slot, tableThreads]
  rw [filter_threads (onTable t) (slot t) h hl]
  · have e : (tableThreads s main)[slot t] = tableWriter t (shown s t).length := by
      cases t <;> simp [slot, tableThreads, shown]
    rw [e]
    apply List.filter_eq_self.mpr
    intro o ho
    rw [writer_on t t _ o ho]; simp
  · intro j th hj hne o ho
    have hj' : j < 7 := by
      by_contra hc
      rw [List.getElem?_eq_none (by simpa [tableThreads] using hc)] at hj
      cases hj
    interval_cases j
    · simp only [tableThreads, List.getElem?_cons_zero, Option.some.injEq] at hj
      subst hj
      exact main_on t o (hm o ho)
    all_goals
      simp only [tableThreads, List.getElem?_cons_succ, List.getElem?_cons_zero, Option.some.injEq] at hj
      subst hj
      rw [writer_on _ t _ o ho]
      cases t <;> first | rfl | exact absurd rfl hne

private theorem threads_drops (s : SensorLists K) (main l : List (TableStep K)) (t : SensorTable)
    (hd : t = .velocityInertial → TableStep.dropFirst ∉ main) (h : Interleave (tableThreads s main) l) :
    ∀ o ∈ l, drops t o = false := by
  intro o ho
  obtain ⟨th, hth, hot⟩ := mem_threads h o ho
  simp only [tableThreads, List.mem_cons, List.not_mem_nil, or_false] at hth
  rcases hth with rfl | rfl | rfl | rfl | rfl | rfl | rfl
  · cases o with
    | dropFirst =>
      by_contra hc
      rw [Bool.not_eq_false] at hc
      exact hd (by simpa [drops] using hc) hot
    | _ => rfl
  all_goals exact writer_drops _ t _ o hot

private theorem file_rows (t : SensorTable) (R : List Text) (d : Option Text) : ∀ n ≤ R.length,
    ((TableStep.create t : TableStep K) :: (List.range n).map (.append t)).foldl (fileStep t R) d = some (t.header ++ (R.take n).flatten)
  | 0, _ => by simp [fileStep]
  | n + 1, h => by
    have ih := file_rows t R d n (by omega)
    rw [List.range_succ, List.map_append, ← List.cons_append, List.foldl_append, ih]
    have hn : n < R.length := by omega
    simp only [List.map_cons, List.map_nil, List.foldl_cons, List.foldl_nil, fileStep, Option.getD_some,
      List.getElem?_eq_getElem hn, List.append_assoc, List.take_add_one, Option.toList_some, List.flatten_append, List.flatten_cons,
      List.flatten_nil, List.append_nil]

private theorem lines_length (str : K → Text) (s : SensorLists K) (t : SensorTable) :
    (s.lines str t).length = (shown s t).length := by
  cases t <;> simp [SensorLists.lines, SensorLists.values, shown]

/-- C272: for all measurements and texts of values, for every schedule of the six threads and
of a main thread that stores anything else in the measurements and ends whenever and however
it does, the table of a sensor with at least two measurements shows all of them, in order,
each value under its name.  Missing: tables of one measurement; inertial velocities when the
main thread removes the first one. -/
theorem C272_complete_partial (str : K → Text) (hs : ∀ v, ',' ∉ str v ∧ '\n' ∉ str v) (s : TableState K)
    (main l : List (TableStep K)) (hm : ∀ o ∈ main, o.isMain = true) (h : Interleave (tableThreads s.lists main) l)
    (t : SensorTable) (hd : t = .velocityInertial → TableStep.dropFirst ∉ main) (h2 : 2 ≤ (shown s.lists t).length) :
    ∃ f, (s.run str l).disk t = some f ∧ readTable f = asTexts str (shown s.lists t) := by
  have e := run_file str t _ l s rfl (threads_drops s.lists main l t hd h)
  rw [threads_filter s.lists main l hm h t, tableWriter, if_pos (by omega),
    file_rows t _ _ _ (le_of_eq (lines_length str s.lists t).symm)] at e
  refine ⟨_, e, ?_⟩
  rw [read_rows str hs, List.take_of_length_le]
  simp [asTexts]

/-- C272: a run that is killed at any moment leaves each of these tables as it was before, or
with the names of its columns and its first measurements. -/
theorem C272_killed_partial (str : K → Text) (hs : ∀ v, ',' ∉ str v ∧ '\n' ∉ str v) (s : TableState K)
    (main l done : List (TableStep K)) (hm : ∀ o ∈ main, o.isMain = true) (h : Interleave (tableThreads s.lists main) l)
    (hp : done <+: l) (t : SensorTable) (hd : t = .velocityInertial → TableStep.dropFirst ∉ main) :
    (s.run str done).disk t = s.disk t ∨
    ∃ f n, (s.run str done).disk t = some f ∧ readTable f = (asTexts str (shown s.lists t)).take n := by
  have e := run_file str t _ done s rfl fun o ho => threads_drops s.lists main l t hd h o (hp.subset ho)
  have hpre : done.filter (onTable t) <+: tableWriter t (shown s.lists t).length := by
    rw [← threads_filter s.lists main l hm h t]
    exact hp.filter _
  by_cases h2 : 1 < (shown s.lists t).length
  · rw [tableWriter, if_pos h2, List.prefix_cons_iff] at hpre
    rcases hpre with h0 | ⟨q, hq, hq'⟩
    · left; rw [e, h0]; rfl
    · right
      obtain ⟨k, hk, hk'⟩ : ∃ k ≤ (shown s.lists t).length, q = (List.range k).map (.append t) := by
        refine ⟨q.length, by simpa using hq'.length_le, ?_⟩
        have := List.prefix_iff_eq_take.mp hq'
        rw [← List.map_take, List.take_range] at this
        rwa [min_eq_left (by simpa using hq'.length_le)] at this
      rw [hq, hk', file_rows t _ _ k (by rw [lines_length]; exact hk)] at e
      exact ⟨_, k, e, read_rows str hs _ _ _⟩
  · rw [tableWriter, if_neg h2, List.prefix_nil] at hpre
    left; rw [e, hpre]; rfl

/-! ### What fails -/

private def noLists : SensorLists ℕ := ⟨[], [], [], [], [], []⟩

private def digit (n : ℕ) : Text := List.replicate n '1'

private theorem digit_text : ∀ v, ',' ∉ digit v ∧ '\n' ∉ digit v := by
  intro v
  constructor <;> intro h <;> have := List.eq_of_mem_replicate h <;> exact absurd this (by decide)

/-- C272 is false for a sensor with one measurement: nothing is written, and a table of an
earlier run stays as it was. -/
theorem C272_single_false : ¬ TablesComplete := by
  intro h
  have h1 : Interleave (tableThreads { noLists with depth := [⟨1, 2, 3⟩] } []) ([] : List (TableStep ℕ)) :=
    Interleave.done (by intro t ht; simpa [tableThreads, noLists, tableWriter] using ht)
  obtain ⟨f, hf, -⟩ := h digit ⟨{ noLists with depth := [⟨1, 2, 3⟩] }, fun _ => none⟩ [] [] .depth digit_text (by simp) h1
    (by simp [shown])
  cases hf

private def twoInertial : SensorLists ℕ :=
  { noLists with velocityInertial := [⟨1, 2, 3, 4, 5, 6, 7, ⟨0, 0, 0, 0, 0, 0⟩⟩, ⟨2, 2, 3, 4, 5, 6, 7, ⟨0, 0, 0, 0, 0, 0⟩⟩] }

private def raceSchedule : List (TableStep ℕ) :=
  [.create .velocityInertial, .append .velocityInertial 0, .dropFirst, .append .velocityInertial 1]

private theorem race_runs : Interleave (tableThreads twoInertial [.dropFirst]) raceSchedule := by
  refine Interleave.step (i := 2) (r := [.append .velocityInertial 0, .append .velocityInertial 1]) rfl ?_
  refine Interleave.step (i := 2) (r := [.append .velocityInertial 1]) rfl ?_
  refine Interleave.step (i := 0) (r := []) rfl ?_
  refine Interleave.step (i := 2) (r := []) rfl ?_
  exact Interleave.done (by intro t ht; simpa [tableThreads, twoInertial, noLists, tableWriter] using ht)

/-- C272 is false for inertial velocities: the main thread removes the first of them, which
has no place among the orientations, from the list that the thread is still writing, so that
with some schedules a line is missing from the table. -/
theorem C272_race_false : ¬ TablesScheduleFree := by
  intro h
  obtain ⟨f, hf, hr⟩ := h digit ⟨twoInertial, fun _ => none⟩ [.dropFirst] raceSchedule .velocityInertial digit_text
    (by simp [TableStep.isMain]) race_runs (by decide)
  have e : (TableState.run digit ⟨twoInertial, fun _ => none⟩ raceSchedule).disk .velocityInertial =
      some (SensorTable.velocityInertial.header ++ ((twoInertial.lines digit .velocityInertial).take 1).flatten) := by
    decide +kernel
  rw [e] at hf
  cases hf
  rw [read_rows digit digit_text] at hr
  have := congrArg List.length hr
  simp [asTexts, shown, twoInertial] at this

private def altitudes (std : ℕ) : SensorLists ℕ := { noLists with altitude := [⟨1, 5, std, 0⟩, ⟨2, 6, std, 0⟩] }

private theorem altitudes_run (std : ℕ) : Interleave (tableThreads (altitudes std) [])
    ([.create .altitude, .append .altitude 0, .append .altitude 1] : List (TableStep ℕ)) := by
  refine Interleave.step (i := 3) (r := [.append .altitude 0, .append .altitude 1]) rfl ?_
  refine Interleave.step (i := 3) (r := [.append .altitude 1]) rfl ?_
  refine Interleave.step (i := 3) (r := []) rfl ?_
  exact Interleave.done (by intro t ht; simpa [tableThreads, altitudes, noLists, tableWriter] using ht)

/-- C272 is false of the uncertainties of altitudes: although they are stored and the folder
is called after values and uncertainties, the table does not have them. -/
theorem C272_altitude_false : ¬ AltitudeStdShown := by
  intro h
  have := h digit ⟨altitudes 1, fun _ => none⟩ ⟨altitudes 2, fun _ => none⟩ _ _
    (fun a b hab => by simpa [digit] using congrArg List.length hab) digit_text (altitudes_run 1) (altitudes_run 2)
    (by decide +kernel) (by decide) (by decide)
  exact absurd this (by decide)

/-- The hypotheses of C272 are met by two inertial velocities while the main thread stores
other values. -/
example : Interleave (tableThreads twoInertial [.extra 0 ⟨1, 2, 3, 4, 5, 6⟩])
    [.create .velocityInertial, .append .velocityInertial 0, .extra 0 ⟨1, 2, 3, 4, 5, 6⟩, .append .velocityInertial 1] ∧
    2 ≤ (shown twoInertial .velocityInertial).length := by
  refine ⟨?_, by decide⟩
  refine Interleave.step (i := 2) (r := [.append .velocityInertial 0, .append .velocityInertial 1]) rfl ?_
  refine Interleave.step (i := 2) (r := [.append .velocityInertial 1]) rfl ?_
  refine Interleave.step (i := 0) (r := []) rfl ?_
  refine Interleave.step (i := 2) (r := []) rfl ?_
  exact Interleave.done (by intro t ht; simpa [tableThreads, twoInertial, noLists, tableWriter] using ht)

/-- What the main thread does: depths of the sea floor, positions of velocities over ground, and dropping the first record. -/
example (v : ℕ) (e : InertialExtra ℕ) : ∀ o ∈ [TableStep.seafloor 0 v, .extra 1 e, .dropFirst], o.isMain = true := by
  simp [TableStep.isMain]

end Oplab.Props
