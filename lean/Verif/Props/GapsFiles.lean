import Mathlib.Data.List.Perm.Basic
import Mathlib.Data.List.Pairwise
import Verif.Spec.GapsFiles

/-! # C253: the order in which log files are listed -/

namespace Oplab.Props
open Oplab Oplab.Spec

/-! ## Sorting -/

private theorem le_total : ∀ a b, (lexLe a b || lexLe b a) = true
  | [], b => by simp [lexLe]
  | a :: as, [] => by simp [lexLe]
  | a :: as, b :: bs => by
    simp only [lexLe]
    rcases Nat.lt_trichotomy a b with h | h | h
    · simp [h]
    · subst h; simpa using le_total as bs
    · simp [h]

private theorem le_trans' : ∀ a b c, lexLe a b = true → lexLe b c = true → lexLe a c = true
  | [], _, _, _, _ => by simp [lexLe]
  | a :: as, [], _, h, _ => by simp [lexLe] at h
  | a :: as, b :: bs, [], _, h => by simp [lexLe] at h
  | a :: as, b :: bs, c :: cs, h1, h2 => by
    simp only [lexLe] at h1 h2 ⊢
    split at h1
    · split at h2
      · rw [if_pos (by omega)]
      · split at h2
        · rw [if_pos (by omega)]
        · simp at h2
    · split at h1
      · rename_i _ e; subst e
        split at h2
        · rw [if_pos (by omega)]
        · split at h2
          · rename_i _ e; subst e
            simp [le_trans' as bs cs h1 h2]
          · simp at h2
      · simp at h1

private theorem le_antisymm' : ∀ a b, lexLe a b = true → lexLe b a = true → a = b
  | [], [], _, _ => rfl
  | [], _ :: _, _, h => by simp [lexLe] at h
  | _ :: _, [], h, _ => by simp [lexLe] at h
  | a :: as, b :: bs, h1, h2 => by
    simp only [lexLe] at h1 h2
    rcases Nat.lt_trichotomy a b with h | h | h
    · rw [if_neg (by omega), if_neg (by omega)] at h2; cases h2
    · subst h
      simp only [lt_irrefl, if_false, if_true] at h1 h2
      rw [le_antisymm' as bs h1 h2]
    · rw [if_neg (by omega), if_neg (by omega)] at h1; cases h1

private theorem interlace_perm {α} (a b : List (Stamp × α)) (hp : a.Perm b)
    (hd : a.Pairwise fun x y => x.1.text ≠ y.1.text) : interlace a = interlace b := by
  unfold interlace
  by_cases ha : a = []
  · subst ha
    rw [if_pos rfl, if_pos hp.symm.eq_nil]
  rw [if_neg ha, if_neg (fun e => ha (by subst e; exact hp.eq_nil))]
  congr 1
  have tr : ∀ x y z : Stamp × α, lexLe x.1.text y.1.text = true → lexLe y.1.text z.1.text = true → lexLe x.1.text z.1.text = true :=
    fun x y z => le_trans' _ _ _
  have tot : ∀ x y : Stamp × α, (lexLe x.1.text y.1.text || lexLe y.1.text x.1.text) = true := fun x y => le_total _ _
  refine List.Perm.eq_of_pairwise (le := fun x y => lexLe x.1.text y.1.text = true) ?_ (List.pairwise_mergeSort tr tot a)
    (List.pairwise_mergeSort tr tot b) ((List.mergeSort_perm _ _).trans (hp.trans (List.mergeSort_perm _ _).symm))
  intro x y hx hy h1 h2
  have hx' : x ∈ a := (List.mergeSort_perm _ _).mem_iff.1 hx
  have hy' : y ∈ a := hp.mem_iff.2 ((List.mergeSort_perm _ _).mem_iff.1 hy)
  by_contra hne
  have : Std.Symm (fun x y : Stamp × α => x.1.text ≠ y.1.text) := ⟨fun _ _ h => h.symm⟩
  exact hd.forall hx' hy' hne (le_antisymm' _ _ h1 h2)

private theorem keep_some (rs : List (List (Stamp × Json ℚ))) :
    (keepResults (rs.map fun r => r.map some)).flatten = rs.flatten.map some := by
  induction rs with
  | nil => rfl
  | cons r rs ih =>
    cases r with
    | nil => simpa [keepResults] using ih
    | cons e r =>
      have h : keepResults (((e :: r) :: rs).map fun r => r.map some) = (e :: r).map some :: keepResults (rs.map fun r => r.map some) := by
        simp [keepResults]
      rw [h, List.flatten_cons, ih, List.flatten_cons, List.map_append]

private theorem read_some (l : List (Stamp × Json ℚ)) : readEntries (l.map some) = .ok l := by
  induction l with
  | nil => rfl
  | cons e l ih => simp [readEntries, ih, bind, Except.bind]

private theorem parseNav_eq (o : Json ℚ) (rs : List (List (Stamp × Json ℚ))) :
    parseNav o (rs.map fun r => r.map some) = (interlace (originRecord o :: rs.flatten)).map fun l => l.map Prod.snd := by
  have h : compileNav o (rs.map fun r => r.map some) = (originRecord o :: rs.flatten).map some := by
    rw [compileNav, keep_some, List.map_cons]
  rw [parseNav, h, read_some]
  cases hi : interlace (originRecord o :: rs.flatten) <;> simp only [bind, Except.bind, hi, Except.map]

/-- C253 (partial): the navigation file is the same for every order of the records in the logs, of the logs and of the sensors,
if their time stamps differ. Missing: records with equal time stamps, see `C253_ties_false`. -/
theorem C253_file_partial (o : Json ℚ) (a b : List (List (Stamp × Json ℚ))) (hp : a.flatten.Perm b.flatten) (hd : StampsDiffer a.flatten) :
    parseNav o (a.map fun r => r.map some) = parseNav o (b.map fun r => r.map some) := by
  rw [parseNav_eq, parseNav_eq, interlace_perm _ _ (hp.cons _)]
  exact List.pairwise_cons.2 ⟨fun e he => (hd.2 e he).symm, hd.1⟩

private def recA : Stamp × Json ℚ := (⟨[1, 5], [2]⟩, .str "a")
private def recB : Stamp × Json ℚ := (⟨[1, 5], [5]⟩, .str "b")
private def recB' : Stamp × Json ℚ := (⟨[1, 5], [2]⟩, .str "b")

example : StampsDiffer [[recA], [recB]].flatten ∧ [[recA], [recB]].flatten.Perm [[recB, recA]].flatten :=
  ⟨⟨by decide, by decide⟩, List.Perm.swap _ _ _⟩

/-- C253: two records with the same time are written in the order in which they were found. -/
theorem C253_ties_false : ¬ NavFileOrderFree := by
  intro h
  have h1 := h (.num 0) [[recA, recB']] [[recB', recA]] (List.Perm.swap _ _ _)
  rw [parseNav_eq, parseNav_eq] at h1
  have e1 : interlace (originRecord (.num 0) :: [[recA, recB']].flatten) = .ok [originRecord (.num 0), recA, recB'] := by
    simp [interlace, originRecord, recA, recB', List.mergeSort, List.MergeSort.Internal.splitInTwo, lexLe, Stamp.text]
  have e2 : interlace (originRecord (.num 0) :: [[recB', recA]].flatten) = .ok [originRecord (.num 0), recB', recA] := by
    simp [interlace, originRecord, recA, recB', List.mergeSort, List.MergeSort.Internal.splitInTwo, lexLe, Stamp.text]
  rw [e1, e2] at h1
  simp only [Except.map, Except.ok.injEq, List.map_cons, List.map_nil, List.cons.injEq, recA, recB', Json.str.injEq] at h1
  exact absurd h1.2.1 (by decide)

/-- C253: a record that is not valid makes parsing fail, unless it is the first one of its sensor, in which case all records of
the sensor are left out: which of them depends on the order of the logs. -/
theorem C253_invalid_false : ¬ NavFileInvalidFree := by
  intro h
  obtain ⟨l, hl⟩ := h (.num 0) [none, some recA] [some recA, none] (List.Perm.swap _ _ _)
    ⟨[(originRecord (.num 0)).2], by
      simp [parseNav, compileNav, keepResults, readEntries, interlace, bind, Except.bind]⟩
  simp [parseNav, compileNav, keepResults, readEntries, bind, Except.bind] at hl

/-! ## GAPS -/

/-- The variable, with a value of the file or else the one it had before. -/
private def over (f : List Char) (x : Option ℕ) (old : Option GapsSource) : Option GapsSource :=
  match x with
  | some n => some (f, n)
  | none => old

private structure Over (f : List Char) (s0 : GapsVars) (s : GapsState) (m : GapsVars) : Prop where
  flag : m.flag = s.flag
  priorShip : m.priorShip = over f s.priorShip s0.priorShip
  priorHeading : m.priorHeading = over f s.priorHeading s0.priorHeading
  target : m.target = over f s.target s0.target
  postShip : m.postShip = over f s.postShip s0.postShip
  postHeading : m.postHeading = over f s.postHeading s0.postHeading

private theorem over_read (f : List Char) (s0 : GapsVars) (s : GapsState) (m : GapsVars) (i : ℕ) (l : GapsLine) (h : Over f s0 s m) :
    Over f s0 (gapsRead s i l) (gapsReadIn m (f, i) l) := by
  obtain ⟨h1, h2, h3, h4, h5, h6⟩ := h
  cases l with
  | ship =>
    simp only [gapsRead, gapsReadIn, h1]
    split <;> constructor <;> simp_all [over]
  | heading =>
    simp only [gapsRead, gapsReadIn, h1]
    split <;> constructor <;> simp_all [over]
  | target v t =>
    simp only [gapsRead, gapsReadIn, h1]
    split
    · split <;> constructor <;> simp_all [over]
    · constructor <;> simp_all
  | other => exact ⟨h1, h2, h3, h4, h5, h6⟩

private theorem over_emit (f : List Char) (s0 : GapsVars) (s : GapsState) (m : GapsVars) (i : ℕ) (h : Over f s0 s m) (s' : GapsState)
    (out : List GapsFix) (he : gapsEmit s i = .ok (s', out)) :
    ∃ m', gapsEmitIn m (f, i) = .ok (m', out.map (inFile f)) ∧ Over f s0 s' m' := by
  obtain ⟨h1, h2, h3, h4, h5, h6⟩ := h
  unfold gapsEmit at he
  unfold gapsEmitIn
  rw [h1]
  by_cases hf : 5 ≤ s.flag
  · rw [if_pos hf] at he ⊢
    split at he
    · rename_i a b c d e ea eb ec ed ee
      simp only [Except.ok.injEq, Prod.mk.injEq] at he
      obtain ⟨hs, ho⟩ := he
      subst hs; subst ho
      rw [h2, h3, h4, h5, h6, ea, eb, ec, ed, ee]
      exact ⟨_, rfl, rfl, rfl, rfl, rfl, rfl, rfl⟩
    · cases he
  · rw [if_neg hf] at he ⊢
    simp only [Except.ok.injEq, Prod.mk.injEq] at he
    obtain ⟨hs, ho⟩ := he
    subst hs; subst ho
    exact ⟨m, rfl, h1, h2, h3, h4, h5, h6⟩

private theorem over_run (f : List Char) (s0 : GapsVars) (ls : List GapsLine) : ∀ (s : GapsState) (m : GapsVars) (i : ℕ) (out : List GapsFix),
    Over f s0 s m → gapsRun s i ls = .ok out → ∃ m', gapsLines f m i ls = .ok (m', out.map (inFile f)) := by
  induction ls with
  | nil =>
    intro s m i out h hr
    simp only [gapsRun, Except.ok.injEq] at hr
    subst hr
    exact ⟨m, rfl⟩
  | cons l ls ih =>
    intro s m i out h hr
    simp only [gapsRun] at hr
    cases he : gapsEmit (gapsRead s i l) i with
    | error e => rw [he] at hr; cases hr
    | ok p =>
      obtain ⟨s', o1⟩ := p
      rw [he] at hr
      simp only [bind, Except.bind] at hr
      cases hr2 : gapsRun s' (i + 1) ls with
      | error e => rw [hr2] at hr; cases hr
      | ok o2 =>
        rw [hr2] at hr
        simp only [Except.ok.injEq] at hr
        subst hr
        obtain ⟨m', hm, ho⟩ := over_emit f s0 _ _ i (over_read f s0 s m i l h) s' o1 he
        obtain ⟨m'', hm2⟩ := ih s' m' (i + 1) o2 ho hr2
        refine ⟨m'', ?_⟩
        simp only [gapsLines, hm, hm2, bind, Except.bind, List.map_append]

private theorem loop_files (files : List (List Char × List GapsLine)) (g : List GapsLine → List GapsFix)
    (hg : ∀ e ∈ files, parseGaps e.2 = .ok (g e.2)) :
    ∀ s, gapsLoop s files = .ok (files.flatMap fun e => (g e.2).map (inFile e.1)) := by
  induction files with
  | nil => intro s; rfl
  | cons e files ih =>
    intro s
    obtain ⟨f, ls⟩ := e
    obtain ⟨m, hm⟩ := over_run f { s with flag := 0 } ls {} { s with flag := 0 } 0 (g ls)
      ⟨rfl, rfl, rfl, rfl, rfl, rfl⟩ (hg (f, ls) (by simp))
    simp only [gapsLoop, hm, bind, Except.bind, ih (fun e he => hg e (by simp [he])) m, List.flatMap_cons]

/-- C253: if each log can be read by itself, what is read from the folder are the fixes of its logs, one log after the other. -/
theorem C253_gaps (listing : List (List Char × List GapsLine)) (g : List GapsLine → List GapsFix)
    (hg : ∀ e ∈ listing, hasDat e.1 = true → parseGaps e.2 = .ok (g e.2)) :
    gapsFolder listing = .ok ((listing.filter fun e => hasDat e.1).flatMap fun e => (g e.2).map (inFile e.1)) :=
  loop_files _ g (fun e he => hg e (List.mem_filter.1 he).1 (List.mem_filter.1 he).2) _

/-- C253 (partial): the same fixes are read for every order of the listing, each from the lines of one log, if each log can be
read by itself. Missing: logs that lack a ship position or heading, see `C253_gaps_false`. -/
theorem C253_gaps_partial (a b : List (List Char × List GapsLine)) (hp : a.Perm b)
    (hg : ∀ e ∈ a, hasDat e.1 = true → ∃ l, parseGaps e.2 = .ok l) :
    ∃ l l', gapsFolder a = .ok l ∧ gapsFolder b = .ok l' ∧ l'.Perm l ∧ ∀ x ∈ l, OneFile x := by
  classical
  let g : List GapsLine → List GapsFix := fun ls => match parseGaps ls with
    | .ok l => l
    | .error _ => []
  have hga : ∀ e ∈ a, hasDat e.1 = true → parseGaps e.2 = .ok (g e.2) := by
    intro e he hd
    obtain ⟨l, hl⟩ := hg e he hd
    simp only [g, hl]
  refine ⟨_, _, C253_gaps a g hga, C253_gaps b g (fun e he => hga e (hp.mem_iff.2 he)), ((hp.symm.filter _).flatMap_right _), ?_⟩
  intro x hx
  obtain ⟨e, -, hx⟩ := List.mem_flatMap.1 hx
  obtain ⟨y, -, rfl⟩ := List.mem_map.1 hx
  exact ⟨_, _, rfl⟩

/-- C253 (partial): the navigation file is the same for every order of the listing of the GAPS logs, if each log can be read by
itself and the time stamps of all records differ (`record` gives the record of a fix). -/
theorem C253_run_partial (o : Json ℚ) (others : List (List (Stamp × Json ℚ))) (record : GapsFileFix → Stamp × Json ℚ)
    (a b : List (List Char × List GapsLine)) (hp : a.Perm b) (hg : ∀ e ∈ a, hasDat e.1 = true → ∃ l, parseGaps e.2 = .ok l)
    (hd : ∀ l, gapsFolder a = .ok l → StampsDiffer (others ++ [l.map record]).flatten) :
    ∃ l l', gapsFolder a = .ok l ∧ gapsFolder b = .ok l' ∧
      parseNav o ((others ++ [l.map record]).map fun r => r.map some) = parseNav o ((others ++ [l'.map record]).map fun r => r.map some) := by
  obtain ⟨l, l', h1, h2, h3, -⟩ := C253_gaps_partial a b hp hg
  refine ⟨l, l', h1, h2, C253_file_partial o _ _ ?_ (hd l h1)⟩
  simp only [List.flatten_append, List.flatten_cons, List.flatten_nil, List.append_nil]
  exact List.Perm.append_left _ (h3.symm.map record)

private def okLog : List GapsLine := [.ship, .heading, .target true true, .ship, .heading]
private def poorLog : List GapsLine := [.ship, .heading, .target true true, .ship, .ship]
private def logA : List Char × List GapsLine := (['a', '.', 'd', 'a', 't'], okLog)
private def logB : List Char × List GapsLine := (['b', '.', 'd', 'a', 't'], okLog)
private def logC : List Char × List GapsLine := (['c', '.', 'd', 'a', 't'], poorLog)

example : parseGaps okLog = .ok [⟨0, 1, 2, 3, 4, 4⟩] ∧ hasDat logA.1 = true ∧ [logA, logB].Perm [logB, logA] :=
  ⟨by rfl, by decide, List.Perm.swap _ _ _⟩

example : ∀ l, gapsFolder [logA, logB] = .ok l →
    StampsDiffer ([] ++ [l.map fun x : GapsFileFix => if x.at_.1 = logA.1 then recA else recB]).flatten := by
  intro l hl
  have e : gapsFolder [logA, logB] = .ok [inFile logA.1 ⟨0, 1, 2, 3, 4, 4⟩, inFile logB.1 ⟨0, 1, 2, 3, 4, 4⟩] := by rfl
  rw [e] at hl
  simp only [Except.ok.injEq] at hl
  subst hl
  exact ⟨by decide, by decide⟩

private theorem mixed : gapsFolder [logA, logC] = .ok [inFile logA.1 ⟨0, 1, 2, 3, 4, 4⟩,
    ⟨(logC.1, 0), (logC.1, 1), (logC.1, 2), (logC.1, 4), (logA.1, 4), (logC.1, 4)⟩] := by rfl

/-- C253: a log in which two ship positions and no heading follow a fix can only be read after another log. -/
theorem C253_gaps_false : ¬ GapsListingFree := by
  intro h
  obtain ⟨l, hl, -⟩ := h [logA, logC] [logC, logA] (by decide) (List.Perm.swap _ _ _) _ mixed
  have e : gapsFolder [logC, logA] = .error .unboundLocal := by rfl
  rw [e] at hl
  cases hl

/-- C253: it then takes the heading of the ship from the other log. -/
theorem C253_mixed_false : ¬ GapsFixOneFile := by
  intro h
  obtain ⟨f, y, hy⟩ := h [logA, logC] (by decide) _ mixed
    ⟨(logC.1, 0), (logC.1, 1), (logC.1, 2), (logC.1, 4), (logA.1, 4), (logC.1, 4)⟩ (by simp)
  simp only [inFile, GapsFileFix.mk.injEq, Prod.mk.injEq] at hy
  have := hy.1.1.trans hy.2.2.2.2.1.1.symm
  exact absurd this (by decide)

/-- C253: the files read are those with `.dat` in their names, wherever it is. -/
theorem C253_dat_names (n : List Char) : hasDat n = true ↔ ".dat".toList <:+: n := by
  have e : ".dat".toList = ['.', 'd', 'a', 't'] := by decide +kernel
  rw [e]
  induction n with
  | nil => simp [hasDat]
  | cons c cs ih =>
    rw [hasDat, Bool.or_eq_true, List.infix_cons_iff, List.isPrefixOf_iff_prefix]
    exact or_congr_right ih

end Oplab.Props
