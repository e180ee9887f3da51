import Verif.Model.CsvFiles
import Mathlib.Data.List.Basic
import Mathlib.Tactic.Common

/-! C38 (crash points of `write_csv`), C39 (schedules of the writer threads). -/

namespace Oplab.Props
open Oplab

variable {F : Type} [DecidableEq F]

/-! ### C38 -/

/-- What may be found on disk after a crash: nothing more happens to a file, except that an
arbitrary part of the buffered text may have reached it. -/
def CrashContent (s : FileSt) (c : Text) : Prop :=
  ∃ d p, s.disk = some d ∧ p <+: s.buf ∧ c = d ++ p

/-- `c` consists of the first `m` lines, followed by a part of the next one. -/
def HoldsLines (lines : List Text) (m : Nat) (c : Text) : Prop :=
  m ≤ lines.length ∧ ∃ p, p <+: (lines[m]?).getD [] ∧ c = (lines.take m).flatten ++ p

/-- The rows written before the first one that could not be produced. -/
def goodRows (withCov : Bool) : List (Res Text × Res Text) → List (Text × Text)
  | [] => []
  | (r, c) :: rest =>
    match r with
    | .error _ => []
    | .ok s =>
      if withCov then
        match c with
        | .error _ => []
        | .ok sc => (s, sc) :: goodRows withCov rest
      else (s, []) :: goodRows withCov rest

private theorem run_append (fs : Files F) (a b : List (FOp F)) : fs.run (a ++ b) = (fs.run a).run b := by
  simp [Files.run]

private theorem prefix_split {α : Type} {p a b : List α} (h : p <+: a ++ b) :
    (p <+: a) ∨ ∃ q, q <+: b ∧ p = a ++ q := by
  rcases List.prefix_or_prefix_of_prefix h (List.prefix_append a b) with h1 | h1
  · exact Or.inl h1
  · obtain ⟨q, rfl⟩ := h1
    exact Or.inr ⟨q, (List.prefix_append_right_inj a).mp h, rfl⟩

omit [DecidableEq F] in
private theorem rowOps_cov (main cf : F) : ∀ rows, (rowOps main (some cf) rows).1
    = (goodRows true rows).flatMap (fun r => appendOps cf r.2 ++ appendOps main r.1) := by
  intro rows
  induction rows with
  | nil => rfl
  | cons r t ih =>
    obtain ⟨r, c⟩ := r
    cases r with
    | error e => rfl
    | ok s =>
      cases c with
      | error e => rfl
      | ok sc => simp [rowOps, goodRows, ih]

omit [DecidableEq F] in
private theorem rowOps_none (main : F) : ∀ rows, (rowOps main none rows).1
    = (goodRows false rows).flatMap (fun r => appendOps main r.1) := by
  intro rows
  induction rows with
  | nil => rfl
  | cons r t ih =>
    obtain ⟨r, c⟩ := r
    cases r with
    | error e => rfl
    | ok s => simp [rowOps, goodRows, ih]

private theorem crash_iff (d b c : Text) : CrashContent ⟨some d, b⟩ c ↔ ∃ p, p <+: b ∧ c = d ++ p := by
  constructor
  · rintro ⟨d', p, h1, h2, h3⟩
    cases h1
    exact ⟨p, h2, h3⟩
  · rintro ⟨p, h2, h3⟩
    exact ⟨d, p, rfl, h2, h3⟩

/-- What is found in a file that has `d` followed by lines. -/
private def Found (s : FileSt) (d : Text) (lines : List Text) (m : Nat) : Prop :=
  ∀ c, CrashContent s c → ∃ c', c = d ++ c' ∧ HoldsLines lines m c'

private theorem found_closed (d : Text) (lines : List Text) : Found ⟨some d, []⟩ d lines 0 := by
  intro c hc
  obtain ⟨p, hp, rfl⟩ := (crash_iff _ _ _).mp hc
  have : p = [] := List.prefix_nil.mp hp
  subst this
  exact ⟨[], by simp, by simp, [], by simp, by simp⟩

private theorem found_torn (d s : Text) (lines : List Text) : Found ⟨some d, s⟩ d (s :: lines) 0 := by
  intro c hc
  obtain ⟨p, hp, rfl⟩ := (crash_iff _ _ _).mp hc
  exact ⟨p, rfl, by simp, p, by simpa using hp, by simp⟩

private theorem found_cons (st : FileSt) (d s : Text) (lines : List Text) (m : Nat)
    (h : Found st (d ++ s) lines m) : Found st d (s :: lines) (m + 1) := by
  intro c hc
  obtain ⟨c', rfl, hm, p, hp, rfl⟩ := h c hc
  exact ⟨s ++ ((lines.take m).flatten ++ p), by simp, by simpa using hm, p, by simpa using hp, by simp⟩

private theorem phase_cov (main cf : F) (hne : main ≠ cf) : ∀ (g : List (Text × Text)) (fs : Files F)
    (M C : Text) (p : List (FOp F)), fs main = ⟨some M, []⟩ → fs cf = ⟨some C, []⟩ →
    p <+: g.flatMap (fun r => appendOps cf r.2 ++ appendOps main r.1) →
    ∃ k kc, k ≤ kc ∧ kc ≤ k + 1 ∧ kc ≤ g.length ∧ Found (fs.run p main) M (g.map (·.1)) k ∧
      Found (fs.run p cf) C (g.map (·.2)) kc := by
  intro g
  induction g with
  | nil =>
    intro fs M C p hm hc hp
    have : p = [] := List.prefix_nil.mp hp
    subst this
    refine ⟨0, 0, by omega, by omega, by simp, ?_, ?_⟩
    · simp only [Files.run, List.foldl_nil, hm]; exact found_closed _ _
    · simp only [Files.run, List.foldl_nil, hc]; exact found_closed _ _
  | cons r t ih =>
    intro fs M C p hm hc hp
    obtain ⟨s, sc⟩ := r
    rw [List.flatMap_cons] at hp
    rcases prefix_split hp with h | ⟨q, hq, rfl⟩
    · simp only [appendOps, List.cons_append, List.nil_append, List.prefix_cons_iff,
        List.prefix_nil] at h
      have hcm : cf ≠ main := hne.symm
      rcases h with rfl | ⟨_, rfl, rfl | ⟨_, rfl, rfl | ⟨_, rfl, rfl | ⟨_, rfl, rfl | ⟨_, rfl, rfl | ⟨_, rfl, rfl⟩⟩⟩⟩⟩⟩
      · refine ⟨0, 0, by omega, by omega, by simp, ?_, ?_⟩
        · simp [Files.run, hm]; exact found_closed _ _
        · simp [Files.run, hc]; exact found_closed _ _
      · refine ⟨0, 0, by omega, by omega, by simp, ?_, ?_⟩
        · simp [Files.run, Files.step, FOp.file, hm, hne]; exact found_closed _ _
        · simp [Files.run, Files.step, FOp.file, FileSt.apply, hc]; exact found_closed _ _
      · refine ⟨0, 0, by omega, by omega, by simp, ?_, ?_⟩
        · simp [Files.run, Files.step, FOp.file, hm, hne]; exact found_closed _ _
        · simp [Files.run, Files.step, FOp.file, FileSt.apply, hc]; exact found_torn _ _ _
      · refine ⟨0, 1, by omega, by omega, by simp, ?_, ?_⟩
        · simp [Files.run, Files.step, FOp.file, hm, hne]; exact found_closed _ _
        · simp [Files.run, Files.step, FOp.file, FileSt.apply, hc]
          exact found_cons _ _ _ _ _ (found_closed _ _)
      · refine ⟨0, 1, by omega, by omega, by simp, ?_, ?_⟩
        · simp [Files.run, Files.step, FOp.file, FileSt.apply, hm, hne]; exact found_closed _ _
        · simp [Files.run, Files.step, FOp.file, FileSt.apply, hc, hcm]
          exact found_cons _ _ _ _ _ (found_closed _ _)
      · refine ⟨0, 1, by omega, by omega, by simp, ?_, ?_⟩
        · simp [Files.run, Files.step, FOp.file, FileSt.apply, hm, hne]; exact found_torn _ _ _
        · simp [Files.run, Files.step, FOp.file, FileSt.apply, hc, hcm]
          exact found_cons _ _ _ _ _ (found_closed _ _)
      · refine ⟨1, 1, by omega, by omega, by simp, ?_, ?_⟩
        · simp [Files.run, Files.step, FOp.file, FileSt.apply, hm, hne]
          exact found_cons _ _ _ _ _ (found_closed _ _)
        · simp [Files.run, Files.step, FOp.file, FileSt.apply, hc, hcm]
          exact found_cons _ _ _ _ _ (found_closed _ _)
    · have hm' : (fs.run (appendOps cf sc ++ appendOps main s)) main = ⟨some (M ++ s), []⟩ := by
        simp [appendOps, Files.run, Files.step, FOp.file, FileSt.apply, hm, hne]
      have hc' : (fs.run (appendOps cf sc ++ appendOps main s)) cf = ⟨some (C ++ sc), []⟩ := by
        simp [appendOps, Files.run, Files.step, FOp.file, FileSt.apply, hc, hne.symm]
      obtain ⟨k, kc, h1, h2, h3, h4, h5⟩ := ih _ _ _ q hm' hc' hq
      rw [← run_append] at h4 h5
      exact ⟨k + 1, kc + 1, by omega, by omega, by simpa using h3,
        found_cons _ _ _ _ _ h4, found_cons _ _ _ _ _ h5⟩

private theorem phase_none (main : F) : ∀ (g : List (Text × Text)) (fs : Files F)
    (M : Text) (p : List (FOp F)), fs main = ⟨some M, []⟩ →
    p <+: g.flatMap (fun r => appendOps main r.1) →
    ∃ k, k ≤ g.length ∧ Found (fs.run p main) M (g.map (·.1)) k := by
  intro g
  induction g with
  | nil =>
    intro fs M p hm hp
    have : p = [] := List.prefix_nil.mp hp
    subst this
    exact ⟨0, by simp, by simp only [Files.run, List.foldl_nil, hm]; exact found_closed _ _⟩
  | cons r t ih =>
    intro fs M p hm hp
    obtain ⟨s, sc⟩ := r
    rw [List.flatMap_cons] at hp
    rcases prefix_split hp with h | ⟨q, hq, rfl⟩
    · simp only [appendOps, List.prefix_cons_iff, List.prefix_nil] at h
      rcases h with rfl | ⟨_, rfl, rfl | ⟨_, rfl, rfl | ⟨_, rfl, rfl⟩⟩⟩
      · refine ⟨0, by simp, ?_⟩
        simp [Files.run, hm]; exact found_closed _ _
      · refine ⟨0, by simp, ?_⟩
        simp [Files.run, Files.step, FOp.file, FileSt.apply, hm]; exact found_closed _ _
      · refine ⟨0, by simp, ?_⟩
        simp [Files.run, Files.step, FOp.file, FileSt.apply, hm]; exact found_torn _ _ _
      · refine ⟨1, by simp, ?_⟩
        simp [Files.run, Files.step, FOp.file, FileSt.apply, hm]
        exact found_cons _ _ _ _ _ (found_closed _ _)
    · have hm' : (fs.run (appendOps main s)) main = ⟨some (M ++ s), []⟩ := by
        simp [appendOps, Files.run, Files.step, FOp.file, FileSt.apply, hm]
      obtain ⟨k, h1, h2⟩ := ih _ _ q hm' hq
      rw [← run_append] at h2
      exact ⟨k + 1, by simpa using h1, found_cons _ _ _ _ _ h2⟩

private theorem found_nil {st : FileSt} {lines : List Text} {m : Nat} (h : Found st [] lines m) :
    ∀ c, CrashContent st c → HoldsLines lines m c := by
  intro c hc
  obtain ⟨c', rfl, h'⟩ := h c hc
  simpa using h'

private theorem absent (c : Text) (st : FileSt) (h : st.disk = none) : ¬ CrashContent st c := by
  rintro ⟨d, p, h1, _⟩
  rw [h] at h1
  cases h1

/-- C38: whatever the records, and wherever the run is cut off (after any prefix of its file
operations, with any part of the buffered text on disk), in a folder without these files
the CSV holds the header and the first rows, at most the last line incomplete, and so does
the covariance file; the number of complete lines is the same in both or one more in the
covariance file (one less only before its header is written). -/
theorem C38_crash (flag : Bool) (main cf : F) (hne : main ≠ cf) (header hcov : Text)
    (rows : List (Res Text × Res Text)) (fs : Files F) (hm : fs main = ⟨none, []⟩)
    (hc : fs cf = ⟨none, []⟩) (p : List (FOp F))
    (hp : p <+: (writeCsv flag main header (some (cf, hcov)) rows).1) :
    ∃ m mc, (∀ c, CrashContent (fs.run p main) c →
        HoldsLines (header :: (goodRows true rows).map (·.1)) m c) ∧
      (∀ c, CrashContent (fs.run p cf) c →
        HoldsLines (hcov :: (goodRows true rows).map (·.2)) mc c) ∧
      (m ≤ mc ∧ mc ≤ m + 1 ∨ m = 1 ∧ mc = 0) := by
  have hcm : cf ≠ main := hne.symm
  unfold writeCsv at hp
  split_ifs at hp with hlen
  · simp only [Option.map_some, rowOps_cov, List.append_assoc] at hp
    rcases prefix_split hp with h | ⟨q, hq, rfl⟩
    · simp only [createOps, List.prefix_cons_iff, List.prefix_nil] at h
      rcases h with rfl | ⟨_, rfl, rfl | ⟨_, rfl, rfl | ⟨_, rfl, rfl⟩⟩⟩
      · refine ⟨0, 0, fun c hcc => absurd hcc (absent _ _ ?_), fun c hcc => absurd hcc (absent _ _ ?_),
          Or.inl ⟨by omega, by omega⟩⟩
        · simp [Files.run, hm]
        · simp [Files.run, hc]
      · refine ⟨0, 0, found_nil ?_, fun c hcc => absurd hcc (absent _ _ ?_), Or.inl ⟨by omega, by omega⟩⟩
        · simp [Files.run, Files.step, FOp.file, FileSt.apply]; exact found_closed _ _
        · simp [Files.run, Files.step, FOp.file, hc, hcm]
      · refine ⟨0, 0, found_nil ?_, fun c hcc => absurd hcc (absent _ _ ?_), Or.inl ⟨by omega, by omega⟩⟩
        · simp [Files.run, Files.step, FOp.file, FileSt.apply]; exact found_torn _ _ _
        · simp [Files.run, Files.step, FOp.file, hc, hcm]
      · refine ⟨1, 0, found_nil ?_, fun c hcc => absurd hcc (absent _ _ ?_), Or.inr ⟨rfl, rfl⟩⟩
        · simp [Files.run, Files.step, FOp.file, FileSt.apply]
          exact found_cons _ _ _ _ _ (found_closed _ _)
        · simp [Files.run, Files.step, FOp.file, hc, hcm]
    · have hm1 : (fs.run (createOps main header)) main = ⟨some header, []⟩ := by
        simp [createOps, Files.run, Files.step, FOp.file, FileSt.apply]
      have hc1 : (fs.run (createOps main header)) cf = ⟨none, []⟩ := by
        simp [createOps, Files.run, Files.step, FOp.file, hc, hcm]
      rw [run_append]
      generalize fs.run (createOps main header) = fs1 at *
      rcases prefix_split hq with h | ⟨q', hq', rfl⟩
      · simp only [createOps, List.prefix_cons_iff, List.prefix_nil] at h
        have hmain : ∀ lines, Found ⟨some header, []⟩ [] (header :: lines) 1 := fun lines =>
          found_cons _ _ _ _ _ (found_closed _ _)
        rcases h with rfl | ⟨_, rfl, rfl | ⟨_, rfl, rfl | ⟨_, rfl, rfl⟩⟩⟩
        · refine ⟨1, 0, found_nil ?_, fun c hcc => absurd hcc (absent _ _ ?_), Or.inr ⟨rfl, rfl⟩⟩
          · simp [Files.run, hm1]; exact hmain _
          · simp [Files.run, hc1]
        · refine ⟨1, 0, found_nil ?_, found_nil ?_, Or.inr ⟨rfl, rfl⟩⟩
          · simp [Files.run, Files.step, FOp.file, hm1, hne]; exact hmain _
          · simp [Files.run, Files.step, FOp.file, FileSt.apply]; exact found_closed _ _
        · refine ⟨1, 0, found_nil ?_, found_nil ?_, Or.inr ⟨rfl, rfl⟩⟩
          · simp [Files.run, Files.step, FOp.file, hm1, hne]; exact hmain _
          · simp [Files.run, Files.step, FOp.file, FileSt.apply]; exact found_torn _ _ _
        · refine ⟨1, 1, found_nil ?_, found_nil ?_, Or.inl ⟨by omega, by omega⟩⟩
          · simp [Files.run, Files.step, FOp.file, hm1, hne]; exact hmain _
          · simp [Files.run, Files.step, FOp.file, FileSt.apply]
            exact found_cons _ _ _ _ _ (found_closed _ _)
      · have hm2 : (fs1.run (createOps cf hcov)) main = ⟨some ([] ++ header), []⟩ := by
          simp [createOps, Files.run, Files.step, FOp.file, hm1, hne]
        have hc2 : (fs1.run (createOps cf hcov)) cf = ⟨some ([] ++ hcov), []⟩ := by
          simp [createOps, Files.run, Files.step, FOp.file, FileSt.apply]
        rw [run_append]
        obtain ⟨k, kc, h1, h2, _, h4, h5⟩ := phase_cov main cf hne _ _ _ _ q' hm2 hc2 hq'
        exact ⟨k + 1, kc + 1, found_nil (found_cons _ _ _ _ _ h4), found_nil (found_cons _ _ _ _ _ h5),
          Or.inl ⟨by omega, by omega⟩⟩
  · have : p = [] := List.prefix_nil.mp hp
    subst this
    refine ⟨0, 0, fun c hcc => absurd hcc (absent _ _ ?_), fun c hcc => absurd hcc (absent _ _ ?_),
      Or.inl ⟨by omega, by omega⟩⟩
    · simp [Files.run, hm]
    · simp [Files.run, hc]

/-- C38: the same without a covariance file. -/
theorem C38_crash_plain (flag : Bool) (main : F) (header : Text)
    (rows : List (Res Text × Res Text)) (fs : Files F) (hm : fs main = ⟨none, []⟩) (p : List (FOp F))
    (hp : p <+: (writeCsv flag main header none rows).1) :
    ∃ m, ∀ c, CrashContent (fs.run p main) c →
        HoldsLines (header :: (goodRows false rows).map (·.1)) m c := by
  unfold writeCsv at hp
  split_ifs at hp with hlen
  · simp only [Option.map_none, rowOps_none, List.append_nil] at hp
    rcases prefix_split hp with h | ⟨q, hq, rfl⟩
    · simp only [createOps, List.prefix_cons_iff, List.prefix_nil] at h
      rcases h with rfl | ⟨_, rfl, rfl | ⟨_, rfl, rfl | ⟨_, rfl, rfl⟩⟩⟩
      · exact ⟨0, fun c hcc => absurd hcc (absent _ _ (by simp [Files.run, hm]))⟩
      · refine ⟨0, found_nil ?_⟩
        simp [Files.run, Files.step, FOp.file, FileSt.apply]; exact found_closed _ _
      · refine ⟨0, found_nil ?_⟩
        simp [Files.run, Files.step, FOp.file, FileSt.apply]; exact found_torn _ _ _
      · refine ⟨1, found_nil ?_⟩
        simp [Files.run, Files.step, FOp.file, FileSt.apply]
        exact found_cons _ _ _ _ _ (found_closed _ _)
    · have hm1 : (fs.run (createOps main header)) main = ⟨some ([] ++ header), []⟩ := by
        simp [createOps, Files.run, Files.step, FOp.file, FileSt.apply]
      rw [run_append]
      obtain ⟨k, _, h⟩ := phase_none main _ _ _ q hm1 hq
      exact ⟨k + 1, found_nil (found_cons _ _ _ _ _ h)⟩
  · have : p = [] := List.prefix_nil.mp hp
    subst this
    exact ⟨0, fun c hcc => absurd hcc (absent _ _ (by simp [Files.run, hm]))⟩

private theorem full_cov (main cf : F) (hne : main ≠ cf) : ∀ (rows : List (Text × Text)) (fs : Files F)
    (M C : Text), fs main = ⟨some M, []⟩ → fs cf = ⟨some C, []⟩ →
    (rowOps main (some cf) (rows.map fun r => (.ok r.1, .ok r.2))).2 = .ok () ∧
    fs.run (rowOps main (some cf) (rows.map fun r => (.ok r.1, .ok r.2))).1 main
      = ⟨some (M ++ (rows.map (·.1)).flatten), []⟩ ∧
    fs.run (rowOps main (some cf) (rows.map fun r => (.ok r.1, .ok r.2))).1 cf
      = ⟨some (C ++ (rows.map (·.2)).flatten), []⟩ := by
  intro rows
  induction rows with
  | nil => intro fs M C hm hc; simp [rowOps, Files.run, hm, hc]
  | cons r t ih =>
    intro fs M C hm hc
    have hm' : (fs.run (appendOps cf r.2 ++ appendOps main r.1)) main = ⟨some (M ++ r.1), []⟩ := by
      simp [appendOps, Files.run, Files.step, FOp.file, FileSt.apply, hm, hne]
    have hc' : (fs.run (appendOps cf r.2 ++ appendOps main r.1)) cf = ⟨some (C ++ r.2), []⟩ := by
      simp [appendOps, Files.run, Files.step, FOp.file, FileSt.apply, hc, hne.symm]
    obtain ⟨h1, h2, h3⟩ := ih _ _ _ hm' hc'
    simp only [List.map_cons, rowOps, run_append _ (appendOps cf r.2 ++ appendOps main r.1)]
    refine ⟨h1, ?_, ?_⟩
    · rw [h2]; simp
    · rw [h3]; simp

private theorem full_none (main : F) : ∀ (rows : List (Text × Res Text)) (fs : Files F)
    (M : Text), fs main = ⟨some M, []⟩ →
    (rowOps main none (rows.map fun r => (.ok r.1, r.2))).2 = .ok () ∧
    fs.run (rowOps main none (rows.map fun r => (.ok r.1, r.2))).1 main
      = ⟨some (M ++ (rows.map (·.1)).flatten), []⟩ := by
  intro rows
  induction rows with
  | nil => intro fs M hm; simp [rowOps, Files.run, hm]
  | cons r t ih =>
    intro fs M hm
    have hm' : (fs.run (appendOps main r.1)) main = ⟨some (M ++ r.1), []⟩ := by
      simp [appendOps, Files.run, Files.step, FOp.file, FileSt.apply, hm]
    obtain ⟨h1, h2⟩ := ih _ _ hm'
    simp only [List.map_cons, rowOps, run_append _ (appendOps main r.1)]
    refine ⟨h1, ?_⟩
    rw [h2]; simp

/-- C38: when the run completes, both files hold the header and all rows in order, whatever
was in them before.  For at least two records: a single record is not written at all, see
`C38_single_false`. -/
theorem C38_complete_partial (main cf : F) (hne : main ≠ cf) (header hcov : Text)
    (rows : List (Text × Text)) (h2 : 2 ≤ rows.length) (fs : Files F) :
    let r := writeCsv true main header (some (cf, hcov)) (rows.map fun r => (.ok r.1, .ok r.2))
    r.2 = .ok () ∧
    (fs.run r.1 main).disk = some (header ++ (rows.map (·.1)).flatten) ∧
    (fs.run r.1 cf).disk = some (hcov ++ (rows.map (·.2)).flatten) := by
  have hg : (true && decide (1 < (rows.map fun r => ((.ok r.1, .ok r.2) : Res Text × Res Text)).length)) = true := by
    simp; omega
  simp only [writeCsv, if_pos hg, Option.map_some]
  have hm : (fs.run (createOps main header ++ createOps cf hcov)) main = ⟨some header, []⟩ := by
    simp [createOps, Files.run, Files.step, FOp.file, FileSt.apply, hne]
  have hc : (fs.run (createOps main header ++ createOps cf hcov)) cf = ⟨some hcov, []⟩ := by
    simp [createOps, Files.run, Files.step, FOp.file, FileSt.apply]
  obtain ⟨a, b, c⟩ := full_cov main cf hne rows _ _ _ hm hc
  rw [run_append _ (createOps main header ++ createOps cf hcov), b, c]
  exact ⟨a, rfl, rfl⟩

/-- C38: the same without a covariance file. -/
theorem C38_complete_plain_partial (main : F) (header : Text)
    (rows : List (Text × Res Text)) (h2 : 2 ≤ rows.length) (fs : Files F) :
    let r := writeCsv true main header none (rows.map fun r => (.ok r.1, r.2))
    r.2 = .ok () ∧ (fs.run r.1 main).disk = some (header ++ (rows.map (·.1)).flatten) := by
  have hg : (true && decide (1 < (rows.map fun r => ((.ok r.1, r.2) : Res Text × Res Text)).length)) = true := by
    simp; omega
  simp only [writeCsv, if_pos hg, Option.map_none, List.append_nil]
  have hm : (fs.run (createOps main header)) main = ⟨some header, []⟩ := by
    simp [createOps, Files.run, Files.step, FOp.file, FileSt.apply]
  obtain ⟨a, b⟩ := full_none main rows _ _ hm
  rw [run_append _ (createOps main header), b]
  exact ⟨a, rfl⟩

/-- Non-vacuity: two rows, two files, a crash after five operations. -/
example : (true : Bool) = true ∧ (0 : Nat) ≠ 1 ∧
    (((writeCsv true (0 : Nat) ['h'] (some (1, ['c'])) [(.ok ['a'], .ok ['b']), (.ok ['d'], .ok ['e'])]).1).take 5)
      <+: (writeCsv true (0 : Nat) ['h'] (some (1, ['c'])) [(.ok ['a'], .ok ['b']), (.ok ['d'], .ok ['e'])]).1 :=
  ⟨rfl, by decide, List.take_prefix _ _⟩

omit [DecidableEq F] in
/-- C38 is false for a single record: nothing is written, and the call ends normally. -/
theorem C38_single_false (main : F) (header : Text) (cov : Option (F × Text)) (row : Res Text × Res Text) :
    writeCsv true main header cov [row] = ([], .ok ()) := by
  simp [writeCsv]

/-- C38: if a record cannot be turned into a row because of an index error, the run quits
after writing the rows before it. -/
theorem C38_bad_row (main : F) (header : Text) (good : List Text) (c : Res Text)
    (rest : List (Res Text × Res Text)) (fs : Files F) (h : good ≠ [] ∨ rest ≠ []) :
    let r := writeCsv true main header none (good.map (fun s => (.ok s, .ok [])) ++ (.error .indexError, c) :: rest)
    r.2 = .error .quit ∧ (fs.run r.1 main).disk = some (header ++ good.flatten) := by
  have hg : (true && decide (1 < (good.map (fun s => ((.ok s, .ok []) : Res Text × Res Text))
      ++ (.error .indexError, c) :: rest).length)) = true := by
    simp
    rcases h with h | h
    · have := List.length_pos_iff.mpr h; omega
    · have := List.length_pos_iff.mpr h; omega
  simp only [writeCsv, if_pos hg, Option.map_none, List.append_nil]
  have hm : (fs.run (createOps main header)) main = ⟨some header, []⟩ := by
    simp [createOps, Files.run, Files.step, FOp.file, FileSt.apply]
  rw [run_append]
  generalize fs.run (createOps main header) = fs1 at *
  clear hg h
  induction good generalizing fs1 header with
  | nil => simp [rowOps, csvErr, Files.run, hm]
  | cons s t ih =>
    have hm' : (fs1.run (appendOps main s)) main = ⟨some (header ++ s), []⟩ := by
      simp [appendOps, Files.run, Files.step, FOp.file, FileSt.apply, hm]
    obtain ⟨a, b⟩ := ih _ _ hm'
    simp only [List.map_cons, List.cons_append, rowOps, run_append _ (appendOps main s)]
    exact ⟨a, by rw [b]; simp⟩

/-- C38: covariance rows are whole lines exactly when the record has a covariance, so the
two files have equally many lines if all records have one, and not otherwise. -/
theorem C38_cov_lines (name : Text) (cov : Option (List Text)) (hn : '\n' ∉ name)
    (he : ∀ es, cov = some es → ∀ e ∈ es, '\n' ∉ e) :
    (covRow name cov).count '\n' = if cov.isSome then 1 else 0 := by
  cases cov with
  | none => rfl
  | some es =>
    have h : ∀ es : List Text, (∀ e ∈ es, '\n' ∉ e) → (es.flatMap (fun e => ',' :: e)).count '\n' = 0 := by
      intro es
      induction es with
      | nil => intro _; rfl
      | cons e t ih =>
        intro h
        rw [List.flatMap_cons, List.count_append, ih fun x hx => h x (by simp [hx])]
        have : (',' :: e).count '\n' = 0 := by
          rw [List.count_eq_zero]
          simp [h e (by simp)]
        rw [this]
    simp only [covRow, List.count_append, h es (he es rfl), List.count_eq_zero.mpr hn]
    rfl

/-! ### C39 -/

private theorem run_filter (f : F) : ∀ (ops : List (FOp F)) (fs gs : Files F), fs f = gs f →
    fs.run ops f = gs.run (ops.filter (fun o => decide (o.file = f))) f := by
  intro ops
  induction ops with
  | nil => intro fs gs h; simpa [Files.run] using h
  | cons o t ih =>
    intro fs gs h
    by_cases ho : o.file = f
    · rw [List.filter_cons_of_pos (by simpa using ho)]
      exact ih _ _ (by simp only [Files.step, ho, if_true, h])
    · rw [List.filter_cons_of_neg (by simpa using ho)]
      exact ih _ _ (by
        have : ¬ f = o.file := fun h' => ho h'.symm
        simp only [Files.step, if_neg this, h])

private theorem filter_interleave {α : Type} (P : α → Bool) (i : Nat) {ts : List (List α)} {l : List α}
    (h : Interleave ts l) (hi : i < ts.length)
    (hother : ∀ j, ∀ t, ts[j]? = some t → j ≠ i → ∀ a ∈ t, P a = false) :
    l.filter P = (ts[i]).filter P := by
  induction h with
  | done hall =>
    rename_i ts
    have := hall ts[i] (List.getElem_mem hi)
    rw [this]
  | step hj _ ih =>
    rename_i ts j a r l _
    have hj' : j < ts.length := by
      by_contra hc
      rw [List.getElem?_eq_none (Nat.not_lt.mp hc)] at hj
      cases hj
    have ih' := ih (by simpa using hi) (fun k t hk hne b hb => by
      rcases eq_or_ne k j with rfl | hkj
      · rw [List.getElem?_set_self hj'] at hk
        cases hk
        exact hother k _ hj hne b (by simp [hb])
      · rw [List.getElem?_set_ne hkj.symm] at hk
        exact hother k t hk hne b hb)
    rw [List.filter_cons, ih']
    rcases eq_or_ne j i with rfl | hne
    · have e : ts[j] = a :: r := by
        rw [List.getElem?_eq_getElem hj'] at hj
        exact Option.some.inj hj
      simp only [List.getElem_set_self, e, List.filter_cons]
    · have := hother j _ hj hne a (by simp)
      rw [this]
      simp [List.getElem_set_ne hne]

/-- C39: however the operations of concurrently running threads are interleaved, a file used
by one thread only ends up as if that thread had run alone. -/
theorem C39_schedule (ts : List (List (FOp F))) (l : List (FOp F)) (h : Interleave ts l)
    (fs : Files F) (i : Nat) (hi : i < ts.length) (f : F)
    (hown : ∀ j, ∀ t, ts[j]? = some t → j ≠ i → ∀ o ∈ t, o.file ≠ f) :
    fs.run l f = fs.run ts[i] f := by
  rw [run_filter f l fs fs rfl, run_filter f ts[i] fs fs rfl,
    filter_interleave (fun o => decide (o.file = f)) i h hi fun j t hj hne o ho => by
      simpa using hown j t hj hne o ho]

/-- A CSV file to be written by a thread: its rows and, if there are covariances, its
covariance file. -/
structure CsvJob (F : Type) where
  main : F
  header : Text
  cov : Option (F × Text)
  rows : List (Text × Text)

/-- The files of a job. -/
def CsvJob.files (j : CsvJob F) : List F := j.main :: (j.cov.map (·.1)).toList

/-- The operations of the thread running `write_csv` on a job. -/
def CsvJob.ops (j : CsvJob F) : List (FOp F) :=
  (writeCsv true j.main j.header j.cov (j.rows.map fun r => (.ok r.1, .ok r.2))).1

omit [DecidableEq F] in
private theorem job_files (j : CsvJob F) : ∀ o ∈ j.ops, o.file ∈ j.files := by
  obtain ⟨main, header, cov, rows⟩ := j
  intro o ho
  simp only [CsvJob.ops, writeCsv] at ho
  split_ifs at ho
  · cases cov with
    | none =>
      simp only [Option.map_none, rowOps_none, List.append_nil, List.mem_append, List.mem_flatMap] at ho
      rcases ho with ho | ⟨r, _, ho⟩
      · simp only [createOps, List.mem_cons, List.not_mem_nil, or_false] at ho
        rcases ho with rfl | rfl | rfl <;> simp [FOp.file, CsvJob.files]
      · simp only [appendOps, List.mem_cons, List.not_mem_nil, or_false] at ho
        rcases ho with rfl | rfl | rfl <;> simp [FOp.file, CsvJob.files]
    | some c =>
      simp only [Option.map_some, rowOps_cov, List.mem_append, List.mem_flatMap] at ho
      rcases ho with (ho | ho) | ⟨r, _, ho | ho⟩
      · simp only [createOps, List.mem_cons, List.not_mem_nil, or_false] at ho
        rcases ho with rfl | rfl | rfl <;> simp [FOp.file, CsvJob.files]
      · simp only [createOps, List.mem_cons, List.not_mem_nil, or_false] at ho
        rcases ho with rfl | rfl | rfl <;> simp [FOp.file, CsvJob.files]
      · simp only [appendOps, List.mem_cons, List.not_mem_nil, or_false] at ho
        rcases ho with rfl | rfl | rfl <;> simp [FOp.file, CsvJob.files]
      · simp only [appendOps, List.mem_cons, List.not_mem_nil, or_false] at ho
        rcases ho with rfl | rfl | rfl <;> simp [FOp.file, CsvJob.files]
  · simp at ho

/-- C39: any number of writer threads on disjoint files, each with at least two records that
nobody changes meanwhile, leave every file complete, for every schedule.  (Records that are
changed meanwhile: see `C39_spp_false`.) -/
theorem C39_files_partial (jobs : List (CsvJob F)) (l : List (FOp F))
    (h : Interleave (jobs.map CsvJob.ops) l) (fs : Files F) (i : Nat) (hi : i < jobs.length)
    (hdis : ∀ j, ∀ hj : j < jobs.length, j ≠ i → ∀ f ∈ jobs[j].files, f ∉ jobs[i].files)
    (h2 : 2 ≤ jobs[i].rows.length) (hcov : ∀ c ∈ jobs[i].cov, c.1 ≠ jobs[i].main) :
    (fs.run l jobs[i].main).disk = some (jobs[i].header ++ (jobs[i].rows.map (·.1)).flatten) ∧
    ∀ c ∈ jobs[i].cov, (fs.run l c.1).disk = some (c.2 ++ (jobs[i].rows.map (·.2)).flatten) := by
  have hi' : i < (jobs.map CsvJob.ops).length := by simpa using hi
  have hown : ∀ f ∈ jobs[i].files, ∀ j, ∀ t, (jobs.map CsvJob.ops)[j]? = some t → j ≠ i →
      ∀ o ∈ t, o.file ≠ f := by
    intro f hf j t ht hne o ho he
    rw [List.getElem?_map] at ht
    obtain ⟨jb, hjb, rfl⟩ := Option.map_eq_some_iff.mp ht
    obtain ⟨hj, rfl⟩ := List.getElem?_eq_some_iff.mp hjb
    exact hdis j hj hne _ (job_files jobs[j] o ho) (he ▸ hf)
  have hrun : ∀ f ∈ jobs[i].files, fs.run l f = fs.run jobs[i].ops f := by
    intro f hf
    rw [C39_schedule _ l h fs i hi' f (hown f hf)]
    simp
  constructor
  · rw [hrun _ (by simp [CsvJob.files])]
    cases hc : jobs[i].cov with
    | none =>
      have := C38_complete_plain_partial jobs[i].main jobs[i].header
        (jobs[i].rows.map fun r => (r.1, .ok r.2)) (by simpa using h2) fs
      simp only [List.map_map] at this
      simp only [CsvJob.ops, hc]
      exact this.2
    | some c =>
      have := C38_complete_partial jobs[i].main c.1 (fun e => hcov c (by simp [hc]) e.symm) jobs[i].header c.2
        jobs[i].rows h2 fs
      simp only [CsvJob.ops, hc]
      exact this.2.1
  · intro c hc
    rw [hrun _ (by simp [CsvJob.files, Option.mem_def.mp hc])]
    have := C38_complete_partial jobs[i].main c.1 (fun e => hcov c hc e.symm) jobs[i].header c.2
        jobs[i].rows h2 fs
    simp only [CsvJob.ops, Option.mem_def.mp hc]
    exact this.2.2

/-- C39 is false when SLAM++ output is requested: the main thread makes the poses relative
while the thread writing them may still be running.  Two schedules of the same two threads
write different files. -/
theorem C39_spp_false :
    ∃ (poses : List Int) (l l' : List PoseOp), Interleave (poseThreads 2) l ∧
      Interleave (poseThreads 2) l' ∧
      (l.foldl poseStep (poses, [])).2 = poses ∧ (l'.foldl poseStep (poses, [])).2 ≠ poses := by
  refine ⟨[5, 7], [.emit 0, .emit 1, .rel 0], [.rel 0, .emit 0, .emit 1], ?_, ?_, by decide, by decide⟩
  · refine Interleave.step (i := 0) (r := [.emit 1]) rfl ?_
    refine Interleave.step (i := 0) (r := []) rfl ?_
    refine Interleave.step (i := 1) (r := []) rfl ?_
    exact Interleave.done (by simp [poseThreads])
  · refine Interleave.step (i := 1) (r := []) rfl ?_
    refine Interleave.step (i := 0) (r := [.emit 1]) rfl ?_
    refine Interleave.step (i := 0) (r := []) rfl ?_
    exact Interleave.done (by simp [poseThreads])

/-! #### The shared folder -/

/-- Invariant: a thread writes, or is about to release the mutex, only once the folder
exists; the mutex is held by exactly the thread inside the critical section. -/
private def DirInv (s : DirSt) : Prop :=
  (∀ i : Nat, s.pcs[i]? = some .writing ∨ s.pcs[i]? = some .release → s.exist = true) ∧
  (∀ i : Nat, s.owner = some i ↔ (s.pcs[i]? = some (.mkdir true) ∨ s.pcs[i]? = some .release))

private theorem get_set (l : List DirPc) (i j : Nat) (p q : DirPc) (h : l[i]? = some p) :
    (l.set i q)[j]? = if j = i then some q else l[j]? := by
  have hi : i < l.length := by
    by_contra hc
    rw [List.getElem?_eq_none (Nat.not_lt.mp hc)] at h
    cases h
  by_cases e : j = i
  · subst e; rw [List.getElem?_set_self hi, if_pos rfl]
  · rw [List.getElem?_set_ne (fun h => e h.symm), if_neg e]

private theorem dir_inv_step (w : Nat → Bool) (s t : DirSt) (hs : DirStep w s t) (h : DirInv s) :
    DirInv t := by
  obtain ⟨h1, h2⟩ := h
  cases hs with
  | skip hp he =>
    rename_i i
    refine ⟨fun j _ => he, fun j => ?_⟩
    simp only [get_set s.pcs i j _ _ hp]
    by_cases e : j = i
    · subst e; simpa [hp] using h2 j
    · simpa [e] using h2 j
  | lock hp he hw =>
    rename_i i
    refine ⟨fun j => ?_, fun j => ?_⟩
    · simp only [get_set s.pcs i j _ _ hp]
      by_cases e : j = i
      · simp [e]
      · simpa [e] using h1 j
    · simp only [get_set s.pcs i j _ _ hp]
      by_cases e : j = i
      · subst e; simpa [hp] using h2 j
      · simpa [e] using h2 j
  | nolock hp he hw =>
    rename_i i
    refine ⟨fun j => ?_, fun j => ?_⟩
    · simp only [get_set s.pcs i j _ _ hp]
      by_cases e : j = i
      · simp [e]
      · simpa [e] using h1 j
    · simp only [get_set s.pcs i j _ _ hp]
      by_cases e : j = i
      · subst e; simpa [hp] using h2 j
      · simpa [e] using h2 j
  | acquire hp ho =>
    rename_i i
    refine ⟨fun j => ?_, fun j => ?_⟩
    · simp only [get_set s.pcs i j _ _ hp]
      by_cases e : j = i
      · simp [e]
      · simpa [e] using h1 j
    · simp only [get_set s.pcs i j _ _ hp]
      by_cases e : j = i
      · simp [e]
      · have := h2 j
        rw [ho] at this
        have hno : ¬ (s.pcs[j]? = some (.mkdir true) ∨ s.pcs[j]? = some .release) := fun h' => by
          have := this.mpr h'; cases this
        simp only [e, if_false]
        constructor
        · intro h'; exact absurd (Option.some.inj h').symm e
        · intro h'; exact absurd h' hno
  | mkLocked hp =>
    rename_i i
    refine ⟨fun j _ => rfl, fun j => ?_⟩
    simp only [get_set s.pcs i j _ _ hp]
    by_cases e : j = i
    · subst e; simpa [hp] using h2 j
    · simpa [e] using h2 j
  | mk hp =>
    rename_i i
    refine ⟨fun j _ => rfl, fun j => ?_⟩
    simp only [get_set s.pcs i j _ _ hp]
    by_cases e : j = i
    · subst e; simpa [hp] using h2 j
    · simpa [e] using h2 j
  | release hp =>
    rename_i i
    have hi : s.owner = some i := (h2 i).mpr (Or.inr hp)
    refine ⟨fun j _ => h1 i (Or.inr hp), fun j => ?_⟩
    simp only [get_set s.pcs i j _ _ hp]
    by_cases e : j = i
    · simp [e]
    · have := h2 j
      rw [hi] at this
      have hno : ¬ (s.pcs[j]? = some (.mkdir true) ∨ s.pcs[j]? = some .release) := fun h' =>
        e (Option.some.inj (this.mpr h')).symm
      simp only [e, if_false]
      constructor
      · intro h'; cases h'
      · intro h'; exact absurd h' hno

/-- The threads before any has started. -/
def dirInit (exist : Bool) (n : Nat) : DirSt := ⟨exist, none, List.replicate n .start⟩

private theorem dir_inv (w : Nat → Bool) (exist : Bool) (n : Nat) (s : DirSt)
    (h : DirRun w (dirInit exist n) s) : DirInv s := by
  induction h with
  | refl =>
    refine ⟨fun i hi => ?_, fun i => ?_⟩
    · rw [dirInit, List.getElem?_replicate] at hi
      split_ifs at hi <;> simp at hi
    · rw [dirInit, List.getElem?_replicate]
      split_ifs <;> simp
  | tail _ hs ih => exact dir_inv_step w _ _ hs ih

/-- C39: in every reachable state, with or without the mutex and for any number of threads, a
thread that writes finds the folder there. -/
theorem C39_folder_exists (w : Nat → Bool) (exist : Bool) (n : Nat) (s : DirSt)
    (h : DirRun w (dirInit exist n) s) (i : Nat) (hi : s.pcs[i]? = some .writing) : s.exist = true :=
  (dir_inv w exist n s h).1 i (Or.inl hi)

/-- C39: no deadlock: in every reachable state in which some thread is not writing yet, some
thread can go on. -/
theorem C39_no_deadlock (w : Nat → Bool) (exist : Bool) (n : Nat) (s : DirSt)
    (h : DirRun w (dirInit exist n) s) (hnot : ∃ pc ∈ s.pcs, pc ≠ .writing) :
    ∃ t, DirStep w s t := by
  obtain ⟨pc, hpc, hne⟩ := hnot
  obtain ⟨i, hi, he⟩ := List.mem_iff_getElem.mp hpc
  have hp : s.pcs[i]? = some pc := by rw [List.getElem?_eq_getElem hi, he]
  cases pc with
  | start =>
    cases hex : s.exist
    · cases hw : w i
      · exact ⟨_, .nolock hp hex hw⟩
      · exact ⟨_, .lock hp hex hw⟩
    · exact ⟨_, .skip hp hex⟩
  | acquire =>
    cases ho : s.owner with
    | none => exact ⟨_, .acquire hp ho⟩
    | some j =>
      rcases ((dir_inv w exist n s h).2 j).mp ho with hj | hj
      · exact ⟨_, .mkLocked hj⟩
      · exact ⟨_, .release hj⟩
  | mkdir b =>
    cases b
    · exact ⟨_, .mk hp⟩
    · exact ⟨_, .mkLocked hp⟩
  | release => exact ⟨_, .release hp⟩
  | writing => exact absurd rfl hne

/-- C39: mutual exclusion: two threads are never both between taking and releasing the
mutex. -/
theorem C39_exclusive (w : Nat → Bool) (exist : Bool) (n : Nat) (s : DirSt)
    (h : DirRun w (dirInit exist n) s) (i j : Nat)
    (hi : s.pcs[i]? = some (.mkdir true) ∨ s.pcs[i]? = some .release)
    (hj : s.pcs[j]? = some (.mkdir true) ∨ s.pcs[j]? = some .release) : i = j := by
  have a := ((dir_inv w exist n s h).2 i).mpr hi
  have b := ((dir_inv w exist n s h).2 j).mpr hj
  rw [a] at b
  exact Option.some.inj b

/-- Steps a thread has still to make. -/
private def pcCost : DirPc → Nat
  | .start => 4
  | .acquire => 3
  | .mkdir true => 2
  | .mkdir false => 1
  | .release => 1
  | .writing => 0

private theorem sum_set (l : List DirPc) (i : Nat) (p q : DirPc) (h : l[i]? = some p) :
    ((l.set i q).map pcCost).sum + pcCost p = (l.map pcCost).sum + pcCost q := by
  induction l generalizing i with
  | nil => simp at h
  | cons a t ih =>
    cases i with
    | zero => simp at h; subst h; simp; omega
    | succ i => simp at h; have := ih i h; simp only [List.set_cons_succ, List.map_cons, List.sum_cons]; omega

/-- C39: every schedule gets all threads past the creation of the folder in at most four
steps each. -/
theorem C39_folder_terminates (w : Nat → Bool) (exist : Bool) (n : Nat) :
    ∃ cost : DirSt → Nat, cost (dirInit exist n) = 4 * n ∧
      ∀ s t, DirStep w s t → cost t < cost s := by
  refine ⟨fun s => (s.pcs.map pcCost).sum, by simp [dirInit, pcCost, Nat.mul_comm], fun s t h => ?_⟩
  cases h with
  | skip hp _ => have := sum_set _ _ _ .writing hp; simp only [pcCost] at this ⊢; omega
  | lock hp _ _ => have := sum_set _ _ _ .acquire hp; simp only [pcCost] at this ⊢; omega
  | nolock hp _ _ => have := sum_set _ _ _ (.mkdir false) hp; simp only [pcCost] at this ⊢; omega
  | acquire hp _ => have := sum_set _ _ _ (.mkdir true) hp; simp only [pcCost] at this ⊢; omega
  | mkLocked hp => have := sum_set _ _ _ .release hp; simp only [pcCost] at this ⊢; omega
  | mk hp => have := sum_set _ _ _ .writing hp; simp only [pcCost] at this ⊢; omega
  | release hp => have := sum_set _ _ _ .writing hp; simp only [pcCost] at this ⊢; omega

/-- Non-vacuity: a run of two threads sharing the mutex, the second of which has to wait. -/
example : DirRun (fun _ => true) (dirInit false 2)
    ⟨true, some 0, [.release, .acquire]⟩ := by
  refine .tail (.tail (.tail (.tail .refl (.lock (i := 0) rfl rfl rfl)) (.lock (i := 1) rfl rfl rfl))
    (.acquire (i := 0) rfl rfl)) (.mkLocked (i := 0) rfl)

end Oplab.Props
