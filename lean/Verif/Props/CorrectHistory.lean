import Verif.Spec.CorrectHistory
import Verif.Props.Correct

/-! # C275: folders of corrected images over many runs -/

namespace Oplab.Props
open Oplab.Spec

private theorem content_write (fs : CorrFs OutFile) (folder : String) (n : List Char) : ∀ files : List (List Char × OutFile),
    ((∃ c, (n, c) ∈ files ∧ (fs.writeAll folder files).content folder n = some c) ∨
      ((∀ c, (n, c) ∉ files) ∧ (fs.writeAll folder files).content folder n = fs.content folder n)) := by
  intro files
  induction files using List.reverseRecOn with
  | nil => right; exact ⟨by simp, rfl⟩
  | append_singleton files f ih =>
    have hw : fs.writeAll folder (files ++ [f]) = ((folder, f.1), f.2) :: fs.writeAll folder files := by
      unfold CorrFs.writeAll; rw [List.foldl_append]; rfl
    rw [hw]
    by_cases hf : n = f.1
    · left
      refine ⟨f.2, by rw [hf]; simp, ?_⟩
      unfold CorrFs.content
      rw [List.lookup_cons, hf]; simp
    · have hc : CorrFs.content (((folder, f.1), f.2) :: fs.writeAll folder files) folder n = (fs.writeAll folder files).content folder n := by
        unfold CorrFs.content
        rw [List.lookup_cons]
        have : ((folder, n) == (folder, f.1)) = false := by
          rw [beq_eq_false_iff_ne]; intro he; exact hf (Prod.ext_iff.1 he).2
        rw [this]
      rw [hc]
      rcases ih with ⟨c, h1, h2⟩ | ⟨h1, h2⟩
      · exact .inl ⟨c, by simp [h1], h2⟩
      · refine .inr ⟨fun c => ?_, h2⟩
        rw [List.mem_append, not_or]
        exact ⟨h1 c, by rw [List.mem_singleton]; rintro rfl; exact hf rfl⟩

private theorem list_dot : hasDot fileListName = true := by decide +kernel

private theorem files_done (i : ℕ) (r : CorrectRun) (h : r.killed = none) (n : List Char) (c : OutFile) :
    (n, c) ∈ runFiles i r ↔ (n ∈ r.images ∧ c = .image i) ∨ (n = fileListName ∧ c = .list i r.images) := by
  rw [runFiles, h]
  simp only [List.mem_append, List.mem_map, List.mem_singleton, Prod.mk.injEq]
  constructor
  · rintro (⟨x, hx, rfl, rfl⟩ | ⟨rfl, rfl⟩)
    · exact .inl ⟨hx, rfl⟩
    · exact .inr ⟨rfl, rfl⟩
  · rintro (⟨hx, rfl⟩ | ⟨rfl, rfl⟩)
    · exact .inl ⟨n, hx, rfl, rfl⟩
    · exact .inr ⟨rfl, rfl⟩

private theorem files_any (i : ℕ) (r : CorrectRun) (hr : NamedWell r) (n : List Char) (c : OutFile) (h : (n, c) ∈ runFiles i r) :
    (n ∈ r.images ∧ (c = .image i ∨ c = .cut)) ∨ (n = fileListName ∧ (c = .list i r.images ∧ r.killed = none ∨ c = .cut)) := by
  cases hk : r.killed with
  | none =>
    rw [files_done i r hk] at h
    rcases h with ⟨h1, h2⟩ | ⟨h1, h2⟩
    · exact .inl ⟨h1, .inl h2⟩
    · exact .inr ⟨h1, .inl ⟨h2, rfl⟩⟩
  | some ko =>
    obtain ⟨k, o⟩ := ko
    rw [runFiles, hk] at h
    simp only [List.mem_append, List.mem_map, Prod.mk.injEq] at h
    rcases h with ⟨x, hx, rfl, rfl⟩ | ⟨x, hx, rfl, rfl⟩
    · exact .inl ⟨List.mem_of_mem_take hx, .inl rfl⟩
    · rcases hr.opened k o hk x hx with h | h
      · exact .inl ⟨h, .inr rfl⟩
      · exact .inr ⟨h, .inr rfl⟩

private theorem steps_append (folder : String) : ∀ (a b : List CorrectRun) (fs : CorrFs OutFile) (i : ℕ),
    correctSteps folder fs i (a ++ b) = correctSteps folder (correctSteps folder fs i a) (i + a.length) b
  | [], b, fs, i => rfl
  | r :: a, b, fs, i => by
    rw [List.cons_append, correctSteps, steps_append folder a b, correctSteps, List.length_cons]
    congr 1; omega

private theorem step_forced (folder : String) (fs : CorrFs OutFile) (i : ℕ) (r : CorrectRun) (h : r.force = true) :
    correctStep folder fs i r = fs.writeAll folder (runFiles i r) := by
  rw [correctStep, C55_runs fs folder (runFiles i r) r.force (.inl h)]

/-- C275 in part: after a run with -F that is not killed, the list names the images of this run and all of them are there, whatever runs, killed or
not, came before. -/
theorem C275_listed_partial (folder : String) (before : List CorrectRun) (r : CorrectRun) (hr : NamedWell r) (hf : r.force = true)
    (hk : r.killed = none) :
    let fs := correctSteps folder [] 0 (before ++ [r])
    fs.content folder "filelist.csv".toList = some (.list before.length r.images) ∧
    ∀ n ∈ r.images, fs.content folder n = some (.image before.length) := by
  intro fs
  have e : fs = (correctSteps folder [] 0 before).writeAll folder (runFiles before.length r) := by
    change correctSteps folder [] 0 (before ++ [r]) = _
    rw [steps_append, Nat.zero_add]
    exact step_forced folder _ _ r hf
  have key : ∀ n c, (n, c) ∈ runFiles before.length r → (∀ c', (n, c') ∈ runFiles before.length r → c' = c) → fs.content folder n = some c := by
    intro n c hc hu
    rw [e]
    rcases content_write (correctSteps folder [] 0 before) folder n (runFiles before.length r) with ⟨c', h1, h2⟩ | ⟨h1, -⟩
    · rw [h2, hu c' h1]
    · exact absurd hc (h1 c)
  constructor
  · refine key fileListName _ ((files_done _ r hk _ _).2 (.inr ⟨rfl, rfl⟩)) fun c' h => ?_
    rcases (files_done _ r hk _ _).1 h with ⟨h1, -⟩ | ⟨-, h2⟩
    · exact absurd h1 hr.not_list
    · exact h2
  · intro n hn
    refine key n _ ((files_done _ r hk _ _).2 (.inl ⟨hn, rfl⟩)) fun c' h => ?_
    rcases (files_done _ r hk _ _).1 h with ⟨-, h2⟩ | ⟨h1, -⟩
    · exact h2
    · subst h1; exact absurd hn hr.not_list

/-- What is in the folder comes from the images of the runs. -/
private theorem steps_names (folder : String) (S : List Char → Prop) : ∀ (runs : List CorrectRun) (fs : CorrFs OutFile) (i : ℕ),
    (∀ x ∈ runs, NamedWell x ∧ ∀ n ∈ x.images, S n) → (∀ n, ¬ S n → n ≠ fileListName → fs.content folder n = none) →
    ∀ n, ¬ S n → n ≠ fileListName → (correctSteps folder fs i runs).content folder n = none
  | [], _, _, _, h => h
  | r :: rs, fs, i, hr, h => by
    refine steps_names folder S rs _ (i + 1) (fun x hx => hr x (List.mem_cons_of_mem _ hx)) ?_
    intro n hn hl
    rw [correctStep, processRun]
    cases correctGuard false r.force fs folder with
    | error e => exact h n hn hl
    | ok u =>
      rcases content_write fs folder n (runFiles i r) with ⟨c, h1, -⟩ | ⟨-, h2⟩
      · rcases files_any i r (hr r (by simp)).1 n c h1 with ⟨h, -⟩ | ⟨h, -⟩
        · exact absurd ((hr r (by simp)).2 n h) hn
        · exact absurd h hl
      · simp only [h2]; exact h n hn hl

/-- C275 if all runs correct images of the same names: after a run with -F that is not killed, the folder holds exactly its images. -/
theorem C275_same_images_partial (folder : String) (before : List CorrectRun) (r : CorrectRun) (hw : ∀ x ∈ r :: before, NamedWell x)
    (hs : ∀ x ∈ before, ∀ n ∈ x.images, n ∈ r.images) (hf : r.force = true) (hk : r.killed = none) :
    HoldsRun (correctSteps folder [] 0 (before ++ [r])) folder before.length r.images := by
  obtain ⟨h1, h2⟩ := C275_listed_partial folder before r (hw r (by simp)) hf hk
  refine ⟨h1, h2, fun n hn hl => ?_⟩
  refine steps_names folder (fun n => n ∈ r.images) (before ++ [r]) [] 0 ?_ (fun _ _ _ => rfl) n hn hl
  intro x hx
  rcases List.mem_append.1 hx with hx | hx
  · exact ⟨hw x (List.mem_cons_of_mem _ hx), hs x hx⟩
  · rw [List.mem_singleton] at hx; subst hx; exact ⟨hw x (by simp), fun n h => h⟩

/-- A folder that is not empty is left as it is by runs without -F. -/
private theorem refused (folder : String) : ∀ (runs : List CorrectRun) (fs : CorrFs OutFile) (i : ℕ), (∀ x ∈ runs, x.force = false) →
    (∃ n c, hasDot n = true ∧ fs.content folder n = some c) → correctSteps folder fs i runs = fs
  | [], _, _, _, _ => rfl
  | r :: rs, fs, i, hr, ⟨n, c, hn, hc⟩ => by
    have hg : ∃ e, correctGuard false false fs folder = .error e := by
      have hm : n ∈ fs.names folder := by
        by_contra hm
        have : fs.content folder n = none := by
          unfold CorrFs.content
          rw [List.lookup_eq_none_iff]
          intro p hp
          simp only [bne_iff_ne, ne_eq]
          intro he
          apply hm
          unfold CorrFs.names
          rw [List.mem_map]
          exact ⟨p, List.mem_filter.2 ⟨hp, by rw [← he]; simp⟩, by rw [← he]⟩
        rw [this] at hc; cases hc
      refine ⟨.quit, ?_⟩
      unfold correctGuard
      simp only [Bool.false_eq_true, if_false]
      rw [if_pos ⟨List.length_pos_iff.2 fun he => (List.filter_eq_nil_iff.1 he) n hm hn, trivial⟩]
    obtain ⟨e, he⟩ := hg
    have : correctStep folder fs i r = fs := by rw [correctStep, hr r (by simp), processRun, he]
    rw [correctSteps, this]
    exact refused folder rs fs (i + 1) (fun x hx => hr x (List.mem_cons_of_mem _ hx)) ⟨n, c, hn, hc⟩

private theorem step_empty (folder : String) (r : CorrectRun) (i : ℕ) : correctStep folder [] i r = CorrFs.writeAll [] folder (runFiles i r) := by
  rw [correctStep, C55_runs [] folder (runFiles i r) r.force (.inr (by simp [CorrFs.names]))]

/-- C275 without -F: whatever runs, killed or not, were made, all files in the folder come from one of them; a whole list is only there if this
run was not killed, and then the folder holds exactly its images. -/
theorem C275_unforced_partial (folder : String) : ∀ (runs : List CorrectRun), (∀ x ∈ runs, NamedWell x ∧ x.force = false) →
    (∀ n, (correctSteps folder [] 0 runs).content folder n = none) ∨
    ∃ i r, runs[i]? = some r ∧
      (∀ n c, (correctSteps folder [] 0 runs).content folder n = some c →
        (n ∈ r.images ∧ (c = .image i ∨ c = .cut)) ∨ (n = "filelist.csv".toList ∧ (c = .list i r.images ∧ r.killed = none ∨ c = .cut))) ∧
      (r.killed = none → HoldsRun (correctSteps folder [] 0 runs) folder i r.images) := by
  have gen : ∀ (runs : List CorrectRun) (j : ℕ), (∀ x ∈ runs, NamedWell x ∧ x.force = false) →
      (∀ n, (correctSteps folder [] j runs).content folder n = none) ∨
      ∃ i r, runs[i]? = some r ∧
        (∀ n c, (correctSteps folder [] j runs).content folder n = some c →
          (n ∈ r.images ∧ (c = .image (j + i) ∨ c = .cut)) ∨ (n = fileListName ∧ (c = .list (j + i) r.images ∧ r.killed = none ∨ c = .cut))) ∧
        (r.killed = none → HoldsRun (correctSteps folder [] j runs) folder (j + i) r.images) := by
    intro runs
    induction runs with
    | nil => intro j _; exact .inl fun n => rfl
    | cons r rs ih =>
      intro j hr
      obtain ⟨hw, hf⟩ := hr r (by simp)
      by_cases he : runFiles j r = []
      · have hs : correctSteps folder [] j (r :: rs) = correctSteps folder [] (j + 1) rs := by
          rw [correctSteps, step_empty, he]; rfl
        rw [hs]
        rcases ih (j + 1) (fun x hx => hr x (List.mem_cons_of_mem _ hx)) with h | ⟨i, x, h1, h2, h3⟩
        · exact .inl h
        · refine .inr ⟨i + 1, x, by simpa using h1, ?_, ?_⟩
          · intro n c hc; have := h2 n c hc; rwa [show j + (i + 1) = j + 1 + i by omega]
          · intro hk; have := h3 hk; rwa [show j + (i + 1) = j + 1 + i by omega]
      · right
        have hdot : ∀ n c, (n, c) ∈ runFiles j r → hasDot n = true := by
          intro n c h
          rcases files_any j r hw n c h with ⟨h, -⟩ | ⟨h, -⟩
          · simpa [hasDot] using hw.dotted n h
          · rw [h]; exact list_dot
        obtain ⟨⟨n0, c0⟩, hm⟩ := List.exists_mem_of_ne_nil _ he
        have hs : correctSteps folder [] j (r :: rs) = CorrFs.writeAll [] folder (runFiles j r) := by
          rw [correctSteps, step_empty]
          refine refused folder rs _ (j + 1) (fun x hx => (hr x (List.mem_cons_of_mem _ hx)).2) ⟨n0, ?_⟩
          rcases content_write [] folder n0 (runFiles j r) with ⟨c, h1, h2⟩ | ⟨h1, -⟩
          · exact ⟨c, hdot n0 c h1, h2⟩
          · exact absurd hm (h1 c0)
        have all : ∀ n c, (CorrFs.writeAll [] folder (runFiles j r)).content folder n = some c → (n, c) ∈ runFiles j r := by
          intro n c hc
          rcases content_write [] folder n (runFiles j r) with ⟨c', h1, h2⟩ | ⟨-, h2⟩
          · rw [h2] at hc; cases hc; exact h1
          · rw [h2] at hc; cases hc
        refine ⟨0, r, rfl, ?_, ?_⟩
        · intro n c hc
          rw [hs] at hc
          exact files_any j r hw n c (all n c hc)
        · intro hk
          have key : ∀ n c, (n, c) ∈ runFiles j r → (∀ c', (n, c') ∈ runFiles j r → c' = c) →
              (CorrFs.writeAll [] folder (runFiles j r)).content folder n = some c := by
            intro n c hc hu
            rcases content_write [] folder n (runFiles j r) with ⟨c', h1, h2⟩ | ⟨h1, -⟩
            · rw [h2, hu c' h1]
            · exact absurd hc (h1 c)
          rw [hs]
          refine ⟨?_, ?_, ?_⟩
          · refine key fileListName _ ((files_done _ r hk _ _).2 (.inr ⟨rfl, rfl⟩)) fun c' h => ?_
            rcases (files_done _ r hk _ _).1 h with ⟨h1, -⟩ | ⟨-, h2⟩
            · exact absurd h1 hw.not_list
            · exact h2
          · intro n hn
            refine key n _ ((files_done _ r hk _ _).2 (.inl ⟨hn, rfl⟩)) fun c' h => ?_
            rcases (files_done _ r hk _ _).1 h with ⟨-, h2⟩ | ⟨h1, -⟩
            · exact h2
            · subst h1; exact absurd hn hw.not_list
          · intro n hn hl
            cases hc : (CorrFs.writeAll [] folder (runFiles j r)).content folder n with
            | none => rfl
            | some c =>
              rcases (files_done _ r hk _ _).1 (all n c hc) with ⟨h, -⟩ | ⟨h, -⟩
              · exact absurd h hn
              · exact absurd h hl
  intro runs h
  have := gen runs 0 h
  simp only [Nat.zero_add] at this
  exact this

private def jpg (c : Char) : List Char := [c, '.', 'j', 'p', 'g']

private theorem named (f : Bool) (l : List Char) (k : Option (ℕ × List (List Char)))
    (hk : ∀ m o, k = some (m, o) → ∀ n ∈ o, n ∈ l.map jpg ∨ n = "filelist.csv".toList) : NamedWell ⟨f, l.map jpg, k⟩ := by
  refine ⟨?_, ?_, hk⟩
  · intro n hn; obtain ⟨c, -, rfl⟩ := List.mem_map.1 hn; simp [jpg]
  · intro h
    obtain ⟨c, -, hc⟩ := List.mem_map.1 h
    have := congrArg List.length hc
    revert this
    have e : "filelist.csv".toList.length = 12 := by decide +kernel
    rw [e]; simp [jpg]

/-- A run with -F that corrects fewer images leaves the others of the run before in the folder. -/
theorem C275_leftover_false : ¬ HoldsLastCorrection := by
  intro h
  have := (h "corrected" [⟨false, ['a', 'b'].map jpg, none⟩] ⟨true, ['a'].map jpg, none⟩ (by
    intro x hx
    simp only [List.mem_cons, List.not_mem_nil, or_false] at hx
    rcases hx with rfl | rfl <;> exact named _ _ _ (by simp)) rfl rfl).nothing_else (jpg 'b') (by simp [jpg]) (by decide +kernel)
  revert this
  decide +kernel

/-- A run with -F that is killed leaves the list of the run before beside its own images. -/
theorem C275_list_false : ¬ ListIsTrue := by
  intro h
  have := h "corrected" [⟨false, ['a', 'b'].map jpg, none⟩, ⟨true, ['a', 'b'].map jpg, some (1, [])⟩] (by
    intro x hx
    simp only [List.mem_cons, List.not_mem_nil, or_false] at hx
    rcases hx with rfl | rfl
    · exact named _ _ _ (by simp)
    · refine named _ _ _ ?_
      rintro m o ⟨⟩ n hn; simp at hn) 0 (['a', 'b'].map jpg) (by decide +kernel) (jpg 'a') (by simp)
  revert this
  decide +kernel

/-- A run that was killed after its first image cannot be completed without -F. -/
theorem C275_repeat_false : ¬ CorrectionCanBeRepeated := by
  intro h
  have := (h "corrected" (['a', 'b'].map jpg) (1, []) (by
    refine named _ _ _ ?_
    rintro m o ⟨⟩ n hn; simp at hn)).listed
  revert this
  decide +kernel

/-- Not vacuous: a killed run, one with -F that is killed as well, and a last one. -/
example : NamedWell ⟨true, ['a', 'b'].map jpg, none⟩ ∧ NamedWell ⟨false, ['a', 'b'].map jpg, some (1, [jpg 'b'])⟩ := by
  refine ⟨named _ _ _ (by simp), named _ _ _ ?_⟩
  rintro m o ⟨⟩ n hn
  simp only [List.mem_singleton] at hn
  subst hn
  exact .inl (by simp)

end Oplab.Props
