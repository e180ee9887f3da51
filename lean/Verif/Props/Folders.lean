import Verif.Spec.Folders
import Mathlib.Tactic.Common

/-! # C42: folder translation; C73: listing and removing a folder -/

namespace Oplab.Props
open Oplab Oplab.Spec

private theorem idxOf_first (pre post : PathParts) (k : String) (h : k ∉ pre) :
    (pre ++ k :: post).idxOf k = pre.length := by
  induction pre with
  | nil => simp
  | cons a t ih =>
    simp only [List.mem_cons, not_or] at h
    have : a ≠ k := fun e => h.1 e.symm
    have hb : (a == k) = false := by simp [this]
    simp [List.idxOf_cons, hb, ih h.2]

private theorem change_first (pre post : PathParts) (k new : String) (h : k ∉ pre) :
    changeSubfolder (pre ++ k :: post) k new = .ok (pre ++ new :: post) := by
  unfold changeSubfolder
  rw [if_pos (by simp), idxOf_first pre post k h]
  simp

private theorem getFolder_split {path pre post : PathParts} {k name : String}
    (h : OneKeyword path pre post k) (hn : isKeyword name) :
    getFolder path name = .ok (pre ++ name :: post) := by
  obtain ⟨rfl, hk, hb, ha⟩ := h
  have nb : ∀ s, isKeyword s → s ∉ pre := fun s hs hm => hb s hm hs
  have na : ∀ s, isKeyword s → s ∉ post := fun s hs hm => ha s hm hs
  have hmem : ∀ s, isKeyword s → (s ∈ pre ++ k :: post ↔ s = k) := by
    intro s hs
    simp [nb s hs, na s hs]
  unfold getFolder
  by_cases e : name = k
  · subst e; rw [if_pos (by simp)]
  · rw [if_neg (by rw [hmem name hn]; exact e)]
    rcases hk with rfl | rfl | rfl
    · rw [if_neg (by rw [hmem _ (Or.inr (Or.inl rfl))]; decide), if_pos (by simp)]
      exact change_first _ _ _ _ (nb _ (Or.inl rfl))
    · rw [if_pos (by simp)]
      exact change_first _ _ _ _ (nb _ (Or.inr (Or.inl rfl)))
    · rw [if_neg (by rw [hmem _ (Or.inr (Or.inl rfl))]; decide),
        if_neg (by rw [hmem _ (Or.inl rfl)]; decide), if_pos (by simp)]
      exact change_first _ _ _ _ (nb _ (Or.inr (Or.inr rfl)))

/-- C42: for a path `pre / k / post` with one keyword, the three functions give `pre / raw / post`,
`pre / processed / post` and `pre / configuration / post`. -/
theorem C42_translate (path pre post : PathParts) (k : String) (h : OneKeyword path pre post k) :
    getRawFolder path = .ok (pre ++ "raw" :: post) ∧
    getProcessedFolder path = .ok (pre ++ "processed" :: post) ∧
    getConfigFolder path = .ok (pre ++ "configuration" :: post) :=
  ⟨getFolder_split h (Or.inl rfl), getFolder_split h (Or.inr (Or.inl rfl)),
    getFolder_split h (Or.inr (Or.inr rfl))⟩

example : OneKeyword ["/", "data", "raw", "dive1"] ["/", "data"] ["dive1"] "raw" := by
  refine ⟨rfl, Or.inl rfl, ?_, ?_⟩ <;> simp [isKeyword]

/-- C42: translating to any keyword and then to any other loses nothing; in particular translating back gives
the path started from. -/
theorem C42_back_and_forth (path pre post : PathParts) (k a b : String) (h : OneKeyword path pre post k)
    (ha : isKeyword a) (hb : isKeyword b) :
    ∃ q, getFolder path a = .ok q ∧ getFolder q b = getFolder path b ∧ getFolder q k = .ok path := by
  refine ⟨pre ++ a :: post, getFolder_split h ha, ?_, ?_⟩
  · rw [getFolder_split h hb]
    exact getFolder_split ⟨rfl, ha, h.before, h.after⟩ hb
  · rw [getFolder_split (pre := pre) (post := post) (k := a) ⟨rfl, ha, h.before, h.after⟩ h.keyword, h.split]

private theorem change_mem {path q : PathParts} {prior new : String}
    (h : changeSubfolder path prior new = .ok q) :
    new ∈ q ∧ q.length = path.length ∧ ∃ i, path[i]? = some prior ∧ q = path.set i new := by
  unfold changeSubfolder at h
  split_ifs at h with hm
  simp only [Except.ok.injEq] at h
  subst h
  have hl : path.idxOf prior < path.length := List.idxOf_lt_length_iff.2 hm
  refine ⟨?_, by simp, path.idxOf prior, ?_, rfl⟩
  · exact List.mem_set hl new
  · rw [List.getElem?_eq_getElem hl]
    simp

/-- C42: each function is idempotent, on all paths. -/
theorem C42_idempotent (path q : PathParts) (name : String) (h : getFolder path name = .ok q) :
    getFolder q name = .ok q := by
  have : name ∈ q := by
    unfold getFolder at h
    split_ifs at h with h1 h2 h3 h4
    · simp only [Except.ok.injEq] at h; subst h; exact h1
    · exact (change_mem h).1
    · exact (change_mem h).1
    · exact (change_mem h).1
  unfold getFolder
  rw [if_pos this]

example : getFolder ["/", "data", "raw", "dive1"] "processed" = .ok ["/", "data", "processed", "dive1"] := rfl

/-- C42: on all paths the result differs from the input in at most one part, which was a keyword and becomes
the keyword asked for. -/
theorem C42_one_part (path q : PathParts) (name : String) (h : getFolder path name = .ok q) :
    q.length = path.length ∧
    (q = path ∨ ∃ i k, path[i]? = some k ∧ isKeyword k ∧ q = path.set i name) := by
  unfold getFolder at h
  split_ifs at h with h1 h2 h3 h4
  · simp only [Except.ok.injEq] at h; subst h; exact ⟨rfl, Or.inl rfl⟩
  · obtain ⟨-, hl, i, hi, hq⟩ := change_mem h
    exact ⟨hl, Or.inr ⟨i, _, hi, Or.inr (Or.inl rfl), hq⟩⟩
  · obtain ⟨-, hl, i, hi, hq⟩ := change_mem h
    exact ⟨hl, Or.inr ⟨i, _, hi, Or.inl rfl, hq⟩⟩
  · obtain ⟨-, hl, i, hi, hq⟩ := change_mem h
    exact ⟨hl, Or.inr ⟨i, _, hi, Or.inr (Or.inr rfl), hq⟩⟩

/-- C42: for a keyword, the program ends with an error exactly on the paths without any keyword; on all others
it returns a folder. -/
theorem C42_outside (path : PathParts) (name : String) (hn : isKeyword name) :
    (getFolder path name = .error .quit ↔ ∀ s ∈ path, ¬ isKeyword s) ∧
    ((∃ s ∈ path, isKeyword s) → ∃ q, getFolder path name = .ok q) := by
  have key : (∃ s ∈ path, isKeyword s) → ∃ q, getFolder path name = .ok q := by
    rintro ⟨s, hs, hk⟩
    unfold getFolder
    split_ifs with h1 h2 h3 h4
    · exact ⟨_, rfl⟩
    · exact ⟨_, by unfold changeSubfolder; rw [if_pos h2]⟩
    · exact ⟨_, by unfold changeSubfolder; rw [if_pos h3]⟩
    · exact ⟨_, by unfold changeSubfolder; rw [if_pos h4]⟩
    · rcases hk with rfl | rfl | rfl
      · exact absurd hs h3
      · exact absurd hs h2
      · exact absurd hs h4
  refine ⟨⟨?_, ?_⟩, key⟩
  · intro h s hs hk
    obtain ⟨q, hq⟩ := key ⟨s, hs, hk⟩
    rw [hq] at h; cases h
  · intro h
    unfold getFolder
    rw [if_neg (fun hm => h _ hm hn), if_neg (fun hm => h _ hm (Or.inr (Or.inl rfl))),
      if_neg (fun hm => h _ hm (Or.inl rfl)), if_neg (fun hm => h _ hm (Or.inr (Or.inr rfl)))]

example : getFolder ["/", "home", "me"] "raw" = .error .quit := rfl

/-- C42 needs the single keyword: when a parent folder is itself called `processed`, the "processed folder" of
a raw dive is the raw dive itself, so results are written among the raw data. -/
theorem C42_two_keywords_false :
    getProcessedFolder ["/", "processed", "raw", "dive1"] = .ok ["/", "processed", "raw", "dive1"] ∧
    getRawFolder ["/", "processed", "raw", "dive1"] = .ok ["/", "processed", "raw", "dive1"] := ⟨rfl, rfl⟩

/-! ## Listing and removing -/

private theorem below_mono {cs : List FsNode} {c : FsNode} {p : PathParts} (h : FileBelow cs p) :
    FileBelow (c :: cs) p := by
  cases h with
  | here h => exact .here (List.mem_cons_of_mem _ h)
  | sub h h' => exact .sub (List.mem_cons_of_mem _ h) h'

/-- C73: `get_file_list` lists exactly the files below the directory, at every depth. -/
theorem C73_file_list (cs : List FsNode) (p : PathParts) : p ∈ fileList cs ↔ FileBelow cs p := by
  fun_induction fileList cs generalizing p with
  | case1 =>
    refine ⟨fun h => (by simp at h), fun h => ?_⟩
    cases h with
    | here h => simp at h
    | sub h _ => simp at h
  | case2 n rest ih =>
    rw [List.mem_cons, ih]
    constructor
    · rintro (rfl | h)
      · exact .here (List.mem_cons_self)
      · exact below_mono h
    · intro h
      cases h with
      | here h =>
        rcases List.mem_cons.1 h with e | h
        · cases e; exact Or.inl rfl
        · exact Or.inr (.here h)
      | sub h h' =>
        rcases List.mem_cons.1 h with e | h
        · cases e
        · exact Or.inr (.sub h h')
  | case3 n cs rest ih1 ih2 =>
    rw [List.mem_append, List.mem_map, ih2]
    constructor
    · rintro (⟨q, hq, rfl⟩ | h)
      · exact .sub List.mem_cons_self ((ih1 q).1 hq)
      · exact below_mono h
    · intro h
      cases h with
      | here h =>
        rcases List.mem_cons.1 h with e | h
        · cases e
        · exact Or.inr (.here h)
      | sub h h' =>
        rcases List.mem_cons.1 h with e | h
        · cases e; exact Or.inl ⟨_, (ih1 _).2 h', rfl⟩
        · exact Or.inr (.sub h h')

example : FileBelow [.dir "a" [.file "x", .dir "b" [.file "y"]]] ["a", "b", "y"] :=
  .sub (List.mem_cons_self) (.sub (List.mem_cons_of_mem _ List.mem_cons_self) (.here List.mem_cons_self))

/-- C73: `remove_directory` always empties the directory (so that the final `rmdir` succeeds), at every depth. -/
theorem C73_remove (cs : List FsNode) : removeChildren cs = .ok [] := by
  fun_induction removeChildren cs with
  | case1 => rfl
  | case2 _ rest ih => exact ih
  | case3 n cs rest ih1 ih2 => 
    rw [ih1]
    simpa [bind, Except.bind] using ih2

end Oplab.Props
