import Verif.Spec.PathTree

/-! C280: drawing a tree of folders. -/

namespace Oplab.Props
open Oplab Oplab.Spec

mutual
private theorem node_sub (max : Nat) (up : List (String × Bool)) (last o : Bool) (this : Nat) :
    (t : FsTree) → List.Sublist ((treeNode max up last o this t).map placeOf) (entries (up.map (·.1)) t)
  | .file n => by simp [treeNode, entries, placeOf]
  | .dir n cs => by
    rw [treeNode, entries, List.map_cons]
    refine List.Sublist.cons_cons _ ?_
    split
    · exact loop_sub max ((n, last) :: up) this cs
    · exact List.nil_sublist _
private theorem loop_sub (max : Nat) (up : List (String × Bool)) (this : Nat) :
    (cs : List FsTree) → List.Sublist ((treeLoop max up this cs).map placeOf) (entriesIn (up.map (·.1)) cs)
  | [] => by simp [treeLoop, entriesIn]
  | c :: cs => by
    rw [treeLoop, entriesIn, List.map_append]
    exact (node_sub max up _ _ _ c).append (loop_sub max up _ cs)
end

private theorem next_le (max this : Nat) (c : FsTree) (last : Bool) : nextDepth max this c last ≤ this + (if c.isDir = true then 1 else 0) := by
  unfold nextDepth
  split
  · rename_i h; simp [h.1]
  · omega

mutual
private theorem node_all (max : Nat) (up : List (String × Bool)) (last : Bool) (this : Nat) :
    (t : FsTree) → this + folders t ≤ max + (if t.isDir = true then 1 else 0) →
      (treeNode max up last true this t).map placeOf = entries (up.map (·.1)) t
  | .file n, _ => by simp [treeNode, entries, placeOf]
  | .dir n cs, h => by
    rw [treeNode, entries, List.map_cons]
    have h' : this + foldersIn cs ≤ max := by
      simp only [folders, FsTree.isDir, if_true] at h
      omega
    rw [if_pos rfl, loop_all max ((n, last) :: up) this cs h']
    rfl
private theorem loop_all (max : Nat) (up : List (String × Bool)) (this : Nat) :
    (cs : List FsTree) → this + foldersIn cs ≤ max → (treeLoop max up this cs).map placeOf = entriesIn (up.map (·.1)) cs
  | [], _ => by simp [treeLoop, entriesIn]
  | c :: cs, h => by
    rw [treeLoop, entriesIn, List.map_append]
    have hn := next_le max this c cs.isEmpty
    simp only [foldersIn] at h
    have hd : c.isDir = true → 1 ≤ folders c := by
      cases c with
      | file n => intro h; cases h
      | dir n k => intro _; simp only [folders]; omega
    have e1 : (treeNode max up cs.isEmpty (decide (this < max)) (nextDepth max this c cs.isEmpty) c).map placeOf = entries (up.map (·.1)) c := by
      cases hc : c.isDir with
      | true =>
        have hfc := hd hc
        rw [decide_eq_true (by omega : this < max)]
        refine node_all max up _ _ c ?_
        rw [hc] at hn ⊢
        simp only [if_true] at hn ⊢
        omega
      | false =>
        cases c with
        | file n => simp [treeNode, entries, placeOf]
        | dir n k => cases hc
    rw [e1, loop_all max up _ cs ?_]
    cases hc : c.isDir with
    | true =>
      have hfc := hd hc
      rw [hc] at hn
      simp only [if_true] at hn
      omega
    | false =>
      rw [hc] at hn
      simp only [Bool.false_eq_true, if_false] at hn
      omega
end

private theorem shown (max : Nat) (name : String) (cs : List FsTree) :
    ((makeTree max name cs).filter fun p => decide (p.depth < max)).map placeOf =
      ((makeTree max name cs).map placeOf).filter fun e => decide (e.1.length < max) := by
  rw [List.filter_map]
  congr 1
  refine List.filter_congr fun p _ => ?_
  show decide (p.parents.length < max) = decide ((p.parents.map _).length < max)
  simp only [List.length_map]

/-- **C280**, partial: trees with not more folders in the root than the greatest depth, which is 100 unless told otherwise, are shown in full:
exactly the entries at a smaller depth, each once, folders before their content. -/
theorem C280_shows_partial (max : Nat) (name : String) (cs : List FsTree) (h : foldersIn cs ≤ max) : ShowsTree max name cs := by
  refine ⟨_, rfl, ?_⟩
  rw [shown]
  congr 1
  exact node_all max [] false 0 (.dir name cs) (by simp only [folders, FsTree.isDir, if_true]; omega)

/-- **C280**: nothing is shown that is not there, nothing twice, and the order is kept, for all trees. -/
theorem C280_only (max : Nat) (name : String) (cs : List FsTree) :
    ∃ l, showTree max (some (name, cs)) = .ok l ∧
      List.Sublist (l.map placeOf) ((entries [] (.dir name cs)).filter fun e => decide (e.1.length < max)) := by
  refine ⟨_, rfl, ?_⟩
  rw [shown]
  exact (node_sub max [] false true 0 (.dir name cs)).filter _

/-- **C280**: a line is indented by four characters for every folder that holds it; a folder is told by the slash at the end. -/
theorem C280_indent (p : PathLine) :
    ∃ pre, p.text = pre ++ p.name.toList ++ (if p.isDir = true then ['/'] else []) ∧ pre.length = 4 * p.depth := by
  unfold PathLine.text PathLine.label PathLine.depth
  have hl : ∀ l : List (String × Bool), (l.flatMap fun a => parentPrefix a.2).length = 4 * l.length := by
    intro l
    induction l with
    | nil => rfl
    | cons a l ih =>
      rw [List.flatMap_cons, List.length_append, ih, List.length_cons]
      have : (parentPrefix a.2).length = 4 := by
        unfold parentPrefix
        split <;> decide +kernel
      omega
  cases hp : p.parents with
  | nil => exact ⟨[], by simp, rfl⟩
  | cons a l =>
    refine ⟨((a :: l).dropLast.reverse.flatMap fun a => parentPrefix a.2) ++ (if p.last = true then "└──".toList else "├──".toList) ++ [' '], ?_, ?_⟩
    · simp only [List.append_assoc, List.cons_append, List.nil_append]
    · rw [List.length_append, List.length_append, hl, List.length_reverse, List.length_dropLast]
      have : (if p.last = true then "└──".toList else "├──".toList).length = 3 := by
        split <;> decide +kernel
      rw [this]
      simp only [List.length_cons, List.length_nil]
      omega

/-- **C280**: the line of the last entry of a folder, and no other, starts with a corner. -/
theorem C280_corner (max : Nat) (up : List (String × Bool)) (this : Nat) (pre : List FsTree) (c : FsTree) (post : List FsTree) :
    ∃ before p rest after, treeLoop max up this (pre ++ c :: post) = before ++ (p :: rest) ++ after ∧
      p.name = c.name ∧ p.isDir = c.isDir ∧ p.parents = up ∧ p.last = post.isEmpty := by
  induction pre generalizing this with
  | nil =>
    rw [List.nil_append, treeLoop]
    cases c with
    | file n => exact ⟨[], _, [], _, by rw [treeNode]; rfl, rfl, rfl, rfl, rfl⟩
    | dir n k => exact ⟨[], _, _, _, by rw [treeNode]; rfl, rfl, rfl, rfl, rfl⟩
  | cons d pre ih =>
    rw [List.cons_append, treeLoop]
    obtain ⟨b, p, r, a, h, h'⟩ := ih (nextDepth max this d (pre ++ c :: post).isEmpty)
    exact ⟨treeNode max up (pre ++ c :: post).isEmpty (decide (this < max)) (nextDepth max this d (pre ++ c :: post).isEmpty) d ++ b, p, r, a,
      by rw [h]; simp only [List.append_assoc], h'⟩

/-- **C280**: without a root there is nothing to show and the call fails. -/
theorem C280_no_root (max : Nat) : ∃ e, showTree max none = .error e := ⟨_, rfl⟩

private def leaf (n : String) : FsTree := .dir n [.file "x"]

/-- **C280** is false: the depth is counted up from one folder to the next one beside it, so the content of later folders is missing. -/
theorem C280_shows_false : ¬ ∀ max name cs, ShowsTree max name cs := by
  intro h
  obtain ⟨l, hl, h⟩ := h 3 "r" [leaf "a", leaf "b", leaf "c", leaf "d"]
  cases hl
  have := congrArg List.length h
  exact absurd this (by decide +kernel)

/-- Default depth, three folders: all of it is shown. -/
example : ShowsTree 100 "r" [leaf "a", .file "b", .dir "c" [leaf "d", .file "e"]] := C280_shows_partial _ _ _ (by decide)

example : (makeTree 100 "r" [leaf "a", .dir "c" [.file "d"]]).map (fun p => String.ofList p.text) =
    ["r/", "├── a/", "│   └── x", "└── c/", "    └── d"] := by decide +kernel

end Oplab.Props
