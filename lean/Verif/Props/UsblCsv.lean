import Verif.Model.UsblCsv
import Verif.Spec.UsblCsv
import Verif.Lemmas.Split
import Verif.Props.CsvFiles

/-! C231: the file of the USBL fixes. -/

namespace Oplab.Props
open Oplab Oplab.Spec

variable {F : Type} [DecidableEq F]

/-- The six values of a fix in the order of the header. -/
def fixCells (f : FixTexts) : List Text := [f.time, f.north, f.east, f.depth, f.lat, f.lon]

/-- Texts that can be told apart in a csv file: `str` of a number has neither commas nor line ends. -/
def PlainFix (f : FixTexts) : Prop := ∀ t ∈ fixCells f, ',' ∉ t ∧ '\n' ∉ t

omit [DecidableEq F] in
private theorem ops_rows (file : F) (l : List FixTexts) :
    usblRowOps file l = (rowOps file none (l.map fun f => ((.ok (usblLine f), .ok []) : Res Text × Res Text))).1 := by
  induction l with
  | nil => rfl
  | cons f t ih => simp only [usblRowOps, List.map_cons, rowOps, ih, appendOps]

omit [DecidableEq F] in
private theorem ops_eq (flag : Bool) (file : F) (l : List FixTexts) :
    usblOps flag file l =
      (writeCsv flag file usblHeader none (l.map fun f => ((.ok (usblLine f), .ok []) : Res Text × Res Text))).1 := by
  unfold usblOps writeCsv
  cases flag
  · simp
  · by_cases h : 1 < l.length
    · simp [h, ops_rows, createOps]
    · simp [h]

private theorem good_rows (l : List FixTexts) :
    (goodRows false (l.map fun f => ((.ok (usblLine f), .ok []) : Res Text × Res Text))).map (·.1) = l.map usblLine := by
  induction l with
  | nil => rfl
  | cons f t ih => simp [goodRows, ih]

private theorem sep_nl (a rest : List Char) (h : '\n' ∉ a) :
    splitAtSep (· == '\n') (a ++ '\n' :: rest) = a :: splitAtSep (· == '\n') rest := by
  have e : splitAtSep (· == '\n') a = [a] := splitSep_none _ _ fun c hc => by
    simp only [beq_eq_false_iff_ne]
    rintro rfl
    exact h hc
  rw [splitSep_append _ '\n' (by decide), e]
  rfl

private theorem sep_comma (a rest : List Char) (h : ',' ∉ a) :
    splitAtSep (· == ',') (a ++ ',' :: rest) = a :: splitAtSep (· == ',') rest := by
  have e : splitAtSep (· == ',') a = [a] := splitSep_none _ _ fun c hc => by
    simp only [beq_eq_false_iff_ne]
    rintro rfl
    exact h hc
  rw [splitSep_append _ ',' (by decide), e]
  rfl

private theorem comma_last (a : List Char) (h : ',' ∉ a) : splitAtSep (· == ',') a = [a] := by
  apply splitSep_none
  intro c hc
  simp only [beq_eq_false_iff_ne]
  rintro rfl
  exact h hc

/-- The line of a fix without its end. -/
private def body (f : FixTexts) : Text :=
  f.time ++ ',' :: (f.north ++ ',' :: (f.east ++ ',' :: (f.depth ++ ',' :: (f.lat ++ ',' :: f.lon))))

private theorem line_body (f : FixTexts) : usblLine f = body f ++ ['\n'] := by simp [usblLine, body]

private theorem body_cells (f : FixTexts) (h : PlainFix f) : splitAtSep (· == ',') (body f) = fixCells f := by
  have g : ∀ t ∈ fixCells f, ',' ∉ t := fun t ht => (h t ht).1
  simp only [fixCells, List.mem_cons, List.not_mem_nil, or_false, forall_eq_or_imp, forall_eq] at g
  obtain ⟨g1, g2, g3, g4, g5, g6⟩ := g
  rw [body, sep_comma _ _ g1, sep_comma _ _ g2, sep_comma _ _ g3, sep_comma _ _ g4, sep_comma _ _ g5, comma_last _ g6]
  rfl

private theorem body_nl (f : FixTexts) (h : PlainFix f) : '\n' ∉ body f := by
  have g : ∀ t ∈ fixCells f, '\n' ∉ t := fun t ht => (h t ht).2
  simp only [fixCells, List.mem_cons, List.not_mem_nil, or_false, forall_eq_or_imp, forall_eq] at g
  obtain ⟨g1, g2, g3, g4, g5, g6⟩ := g
  simp [body, g1, g2, g3, g4, g5, g6]

private theorem lines_split (l : List FixTexts) (h : ∀ f ∈ l, PlainFix f) :
    splitAtSep (· == '\n') (l.map usblLine).flatten = l.map body ++ [[]] := by
  induction l with
  | nil => rfl
  | cons f t ih =>
    rw [List.map_cons, List.flatten_cons, line_body, List.append_assoc, List.singleton_append,
      sep_nl _ _ (body_nl f (h f (by simp))), ih fun g hg => h g (by simp [hg])]
    rfl

/-- The header without its end. -/
private def headBody : Text :=
  "Timestamp, Northing [m], Easting [m], Depth [m],                         Latitude [deg], Longitude [deg]".toList

private theorem head_eq : usblHeader = headBody ++ ['\n'] := by decide +kernel

private theorem head_nl : '\n' ∉ headBody := by decide +kernel

/-- C231: with at least two fixes, the finished file gives back the values of all fixes, in order, six in a line, under six names; whatever
was in the file before. -/
theorem C231_read_back_partial (file : F) (fixes : List FixTexts) (h2 : 2 ≤ fixes.length) (hp : ∀ f ∈ fixes, PlainFix f)
    (fs : Files F) : ∃ text, (fs.run (usblOps true file fixes) file).disk = some text ∧
      csvCells text = fixes.map fixCells ∧
      csvNames text = ["Timestamp".toList, "Northing [m]".toList, "Easting [m]".toList, "Depth [m]".toList,
        "Latitude [deg]".toList, "Longitude [deg]".toList] := by
  have hc := (C38_complete_plain_partial file usblHeader (fixes.map fun f => (usblLine f, .ok [])) (by simpa using h2) fs).2
  simp only [List.map_map] at hc
  refine ⟨usblHeader ++ (fixes.map usblLine).flatten, ?_, ?_, ?_⟩
  · rw [ops_eq]
    exact hc
  · rw [csvCells, head_eq, List.append_assoc, List.singleton_append, sep_nl _ _ head_nl, lines_split fixes hp,
      ← List.cons_append, List.dropLast_concat, List.drop_one, List.tail_cons, List.map_map]
    exact List.map_congr_left fun f hf => body_cells f (hp f hf)
  · rw [csvNames, head_eq, List.append_assoc, List.singleton_append, sep_nl _ _ head_nl, List.headD_cons]
    decide +kernel

/-- C231: wherever the run is cut off, the file has whole lines of the first fixes, at most the last one incomplete. -/
theorem C231_crash (flag : Bool) (file : F) (fixes : List FixTexts) (fs : Files F) (hm : fs file = ⟨none, []⟩) (p : List (FOp F))
    (hp : p <+: usblOps flag file fixes) :
    ∃ m, ∀ c, CrashContent (fs.run p file) c → HoldsLines (usblHeader :: fixes.map usblLine) m c := by
  rw [ops_eq] at hp
  have h := C38_crash_plain flag file usblHeader _ fs hm p hp
  rwa [good_rows] at h

/-- C231: no other file is touched, and none at all if the file is not asked for. -/
theorem C231_other_files (flag : Bool) (file : F) (fixes : List FixTexts) (fs : Files F) (g : F) (h : g ≠ file ∨ flag = false) :
    fs.run (usblOps flag file fixes) g = fs g := by
  have key : ∀ ops : List (FOp F), (∀ o ∈ ops, g ≠ o.file) → ∀ fs : Files F, fs.run ops g = fs g := by
    intro ops
    induction ops with
    | nil => intro _ fs; rfl
    | cons o t ih =>
      intro ho fs
      have := ih (fun x hx => ho x (by simp [hx])) (fs.step o)
      simp only [Files.run, List.foldl_cons] at this ⊢
      rw [this, Files.step, if_neg (ho o (by simp))]
  rcases h with h | h
  · have rows : ∀ l : List FixTexts, ∀ o ∈ usblRowOps file l, g ≠ o.file := by
      intro l
      induction l with
      | nil => simp [usblRowOps]
      | cons f t ih =>
        intro o ho
        simp only [usblRowOps, List.mem_append, List.mem_cons, List.not_mem_nil, or_false] at ho
        rcases ho with (rfl | rfl | rfl) | ho
        · exact h
        · exact h
        · exact h
        · exact ih o ho
    apply key
    intro o ho
    unfold usblOps at ho
    split_ifs at ho with h1 h2
    · simp only [List.mem_append, List.mem_cons, List.not_mem_nil, or_false] at ho
      rcases ho with (rfl | rfl | rfl) | ho
      · exact h
      · exact h
      · exact h
      · exact rows _ o ho
    · simp at ho
    · simp at ho
  · subst h
    rfl

/-- C231 as stated, with any number of fixes. -/
def FixesAreWritten : Prop :=
  ∀ (fixes : List FixTexts), fixes ≠ [] → (∀ f ∈ fixes, PlainFix f) → ∀ fs : Files Nat,
    ∃ text, (fs.run (usblOps true 0 fixes) 0).disk = some text ∧ csvCells text = fixes.map fixCells

/-- C231 is false: a single fix is not written; an old file stays as it is. -/
theorem C231_single_false : ¬ FixesAreWritten := by
  intro h
  obtain ⟨t, h1, _⟩ := h [⟨['1'], ['2'], ['3'], ['4'], ['5'], ['6']⟩] (by simp)
    (by unfold PlainFix fixCells; decide) (fun _ => ⟨none, []⟩)
  simp [usblOps, Files.run] at h1

/-- C231 is false: if a writer of raw measurements creates the folder after `process` has found it missing, making it fails, and with it the run. -/
theorem C231_folder_false : ∃ l, Interleave (usblDirThreads 1) l ∧ (l.foldl UsblDir.step ⟨false, false, false⟩).failed = true := by
  refine ⟨[.look, .thread, .make], ?_, by decide⟩
  refine Interleave.step (i := 0) (r := [.make]) rfl ?_
  refine Interleave.step (i := 1) (r := []) rfl ?_
  refine Interleave.step (i := 0) (r := []) rfl ?_
  exact Interleave.done (by simp [usblDirThreads])

private theorem fold_threads (l : List UsblDirEv) (h : ∀ e ∈ l, e = .thread) (s : UsblDir) :
    l.foldl UsblDir.step s = { s with there := s.there || !l.isEmpty } := by
  induction l generalizing s with
  | nil => simp
  | cons e t ih =>
    rw [List.foldl_cons, ih fun x hx => h x (by simp [hx]), h e (by simp)]
    simp [UsblDir.step]

private theorem shape {T : List (List UsblDirEv)} {l : List UsblDirEv} (h : Interleave T l) :
    ∀ (m : List UsblDirEv) (ts : List (List UsblDirEv)), T = m :: ts → (∀ t ∈ ts, ∀ e ∈ t, e = .thread) →
      (m = [] → ∀ e ∈ l, e = .thread) ∧
      (m = [.make] → ∃ b c, l = b ++ .make :: c ∧ (∀ e ∈ b, e = .thread) ∧ ∀ e ∈ c, e = .thread) ∧
      (m = [.look, .make] → ∃ a b c, l = a ++ .look :: (b ++ .make :: c) ∧ (∀ e ∈ a, e = .thread) ∧ (∀ e ∈ b, e = .thread) ∧
        ∀ e ∈ c, e = .thread) := by
  induction h with
  | done hd =>
    rintro m ts rfl hts
    have hm : m = [] := hd m (by simp)
    subst hm
    simp
  | @step T i e r l hi _ ih =>
    rintro m ts rfl hts
    cases i with
    | zero =>
      simp only [List.getElem?_cons_zero, Option.some.injEq] at hi
      subst hi
      obtain ⟨i1, i2, i3⟩ := ih r ts rfl hts
      refine ⟨by simp, ?_, ?_⟩
      · intro he
        simp only [List.cons.injEq] at he
        obtain ⟨rfl, rfl⟩ := he
        exact ⟨[], l, rfl, by simp, i1 rfl⟩
      · intro he
        simp only [List.cons.injEq] at he
        obtain ⟨rfl, rfl⟩ := he
        obtain ⟨b, c, rfl, hb, hc⟩ := i2 rfl
        exact ⟨[], b, c, rfl, by simp, hb, hc⟩
    | succ i =>
      simp only [List.getElem?_cons_succ] at hi
      have hmem : (e :: r) ∈ ts := List.mem_of_getElem? hi
      have he : e = .thread := hts _ hmem e (by simp)
      subst he
      have hts' : ∀ t ∈ ts.set i r, ∀ x ∈ t, x = .thread := by
        intro t ht x hx
        rcases List.mem_or_eq_of_mem_set ht with h' | rfl
        · exact hts t h' x hx
        · exact hts _ hmem x (by simp [hx])
      obtain ⟨i1, i2, i3⟩ := ih m (ts.set i r) rfl hts'
      refine ⟨fun hm => ?_, fun hm => ?_, fun hm => ?_⟩
      · simpa using i1 hm
      · obtain ⟨b, c, rfl, hb, hc⟩ := i2 hm
        exact ⟨.thread :: b, c, rfl, by simpa using hb, hc⟩
      · obtain ⟨a, b, c, rfl, ha, hb, hc⟩ := i3 hm
        exact ⟨.thread :: a, b, c, rfl, by simpa using ha, hb, hc⟩

/-- C231: in every schedule the folder is there in the end; the run fails exactly if the folder was missing, no writer created it before
`process` looked, and one did between that and making it. -/
theorem C231_folder_partial (n : Nat) (l : List UsblDirEv) (h : Interleave (usblDirThreads n) l) (there : Bool) :
    let s := l.foldl UsblDir.step ⟨there, false, false⟩
    s.there = true ∧ ∃ a b c, l = a ++ .look :: (b ++ .make :: c) ∧ (∀ e ∈ a ++ b ++ c, e = .thread) ∧
      (s.failed = true ↔ there = false ∧ a = [] ∧ b ≠ []) := by
  obtain ⟨a, b, c, rfl, ha, hb, hc⟩ := (shape h _ _ rfl (by
    intro t ht e he
    rw [List.eq_of_mem_replicate ht] at he
    simpa using he)).2.2 rfl
  intro s
  have hs : s = c.foldl UsblDir.step (UsblDir.step (b.foldl UsblDir.step (UsblDir.step (a.foldl UsblDir.step ⟨there, false, false⟩) .look)) .make) := by
    simp [s, List.foldl_append]
  rw [fold_threads a ha, fold_threads b hb, fold_threads c hc] at hs
  refine ⟨?_, a, b, c, rfl, ?_, ?_⟩
  · rw [hs]
    cases there <;> cases a <;> cases b <;> simp [UsblDir.step]
  · intro e he
    simp only [List.mem_append] at he
    rcases he with (he | he) | he
    · exact ha e he
    · exact hb e he
    · exact hc e he
  · rw [hs]
    cases there <;> cases a <;> cases b <;> simp [UsblDir.step]

/-- Non-vacuity: two fixes read back; a crash point within the second line; a schedule without failure. -/
example : (∀ f ∈ [(⟨['1'], ['2'], ['3'], ['4'], ['5'], ['6']⟩ : FixTexts), ⟨['7'], ['8'], ['9'], ['4'], ['5'], ['6']⟩], PlainFix f) ∧
    (usblOps true (0 : Nat) [⟨['1'], ['2'], ['3'], ['4'], ['5'], ['6']⟩, ⟨['7'], ['8'], ['9'], ['4'], ['5'], ['6']⟩]).length = 9 ∧
    Interleave (usblDirThreads 1) [.thread, .look, .make] := by
  refine ⟨by unfold PlainFix fixCells; decide, by decide, ?_⟩
  refine Interleave.step (i := 1) (r := []) rfl ?_
  refine Interleave.step (i := 0) (r := [.make]) rfl ?_
  refine Interleave.step (i := 0) (r := []) rfl ?_
  exact Interleave.done (by simp [usblDirThreads])

end Oplab.Props
