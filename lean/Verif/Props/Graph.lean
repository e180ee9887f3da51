import Verif.Spec.Graph
import Mathlib.Tactic

/-! # C248: paths in graphs -/

namespace Oplab.Props
open Oplab Oplab.Spec

variable {V : Type} [DecidableEq V]

/-- What the search finds is the path so far with a path to the goal that avoids it. -/
private theorem sound_aux (g : GraphDict V) (goal : V) : ∀ (n : ℕ) (start : V) (path : List V) (h : start ∉ path),
    ((g.map Prod.fst).filter (· ∉ path)).length ≤ n → ∀ p, findPath g goal start path h = some p →
    ∃ q, p = path ++ q ∧ Leads g start goal q ∧ q.Nodup ∧ ∀ v ∈ q, v ∉ path := by
  intro n
  induction n with
  | zero =>
    intro start path h hn p hp
    rw [findPath] at hp
    split_ifs at hp with hs
    · cases hp
      subst hs
      exact ⟨[start], rfl, Leads.here _, by simp, by simpa using h⟩
    · split at hp
      · cases hp
      · rename_i next hl
        have hm : start ∈ g.map Prod.fst := by
          obtain ⟨l1, l2, rfl, -⟩ := List.lookup_eq_some_iff.mp hl
          simp
        have : start ∈ (g.map Prod.fst).filter (· ∉ path) := List.mem_filter.mpr ⟨hm, by simpa using h⟩
        have := List.length_pos_of_mem this
        omega
  | succ n ih =>
    intro start path h hn p hp
    rw [findPath] at hp
    split_ifs at hp with hs
    · cases hp
      subst hs
      exact ⟨[start], rfl, Leads.here _, by simp, by simpa using h⟩
    · split at hp
      · cases hp
      · rename_i next hl
        have hm : start ∈ g.map Prod.fst := by
          obtain ⟨l1, l2, rfl, -⟩ := List.lookup_eq_some_iff.mp hl
          simp
        rw [List.findSome?_eq_some_iff] at hp
        obtain ⟨l1, v, l2, hnext, hv, -⟩ := hp
        split_ifs at hv with hvp
        have hlt : ((g.map Prod.fst).filter (· ∉ path ++ [start])).length ≤ n := by
          have hsub : ((g.map Prod.fst).filter (· ∉ path ++ [start])).length < ((g.map Prod.fst).filter (· ∉ path)).length := by
            have e : (g.map Prod.fst).filter (· ∉ path ++ [start]) = ((g.map Prod.fst).filter (· ∉ path)).filter (· ≠ start) := by
              rw [List.filter_filter]
              apply List.filter_congr
              intro x _
              by_cases h1 : x = start <;> by_cases h2 : x ∈ path <;> simp [h1, h2]
            rw [e]
            have : start ∈ (g.map Prod.fst).filter (· ∉ path) := List.mem_filter.mpr ⟨hm, by simpa using h⟩
            exact List.length_filter_lt_length_iff_exists.mpr ⟨start, this, by simp⟩
          omega
        obtain ⟨q, rfl, hq, hnd, hav⟩ := ih v (path ++ [start]) hvp hlt p hv
        refine ⟨start :: q, by simp, Leads.step ⟨next, hl, by rw [hnext]; simp⟩ hq, ?_, ?_⟩
        · rw [List.nodup_cons]
          refine ⟨fun hmem => ?_, hnd⟩
          exact hav start hmem (by simp)
        · intro x hx
          rcases List.mem_cons.mp hx with rfl | hx
          · exact h
          · intro hxp
            exact hav x hx (by simp [hxp])

/-- C248: what is returned is a path along edges from the first vertex to the last that visits no vertex twice. -/
theorem C248_path (g : GraphDict V) (a b : V) (p : List V) (h : graphPath g a b = some p) : Leads g a b p ∧ p.Nodup := by
  obtain ⟨q, rfl, h1, h2, -⟩ := sound_aux g b _ a [] (by simp) le_rfl p h
  exact ⟨h1, h2⟩

/-- The search fails only if no path avoids the vertices visited so far. -/
private theorem complete_aux (g : GraphDict V) (goal : V) : ∀ (q : List V) (start : V) (path : List V) (h : start ∉ path),
    Leads g start goal q → q.Nodup → (∀ v ∈ q, v ∉ path) → findPath g goal start path h ≠ none := by
  intro q
  induction q with
  | nil => intro start path h hl; cases hl
  | cons x q ih =>
    intro start path h hl hnd hav
    rw [findPath]
    split_ifs with hs
    · simp
    · cases hl with
      | here => exact absurd rfl hs
      | step he hq =>
        rename_i b
        obtain ⟨next, hnext, hb⟩ := he
        rw [List.nodup_cons] at hnd
        have hbq : b ∈ q := by cases hq <;> simp
        have hbp : b ∉ path ++ [x] := by
          simp only [List.mem_append, List.mem_singleton, not_or]
          exact ⟨hav b (List.mem_cons_of_mem _ hbq), fun e => hnd.1 (e ▸ hbq)⟩
        have hrec := ih b (path ++ [x]) hbp hq hnd.2 (by
          intro v hv
          simp only [List.mem_append, List.mem_singleton, not_or]
          exact ⟨hav v (List.mem_cons_of_mem _ hv), fun e => hnd.1 (e ▸ hv)⟩)
        split
        · rename_i hn
          rw [hnext] at hn
          cases hn
        · rename_i next' hn
          rw [hnext] at hn
          cases hn
          intro hnone
          rw [List.findSome?_eq_none_iff] at hnone
          have := hnone b hb
          rw [dif_pos hbp] at this
          exact hrec this

/-- Every walk can be shortened to one without repetition. -/
private theorem shorten (g : GraphDict V) : ∀ (p : List V) (a b : V), Leads g a b p → ∃ q, Leads g a b q ∧ q.Nodup ∧ ∀ v ∈ q, v ∈ p := by
  have suffix : ∀ (q : List V) (b c v : V), Leads g b c q → q.Nodup → v ∈ q → ∃ r, Leads g v c r ∧ r.Nodup ∧ ∀ x ∈ r, x ∈ q := by
    intro q
    induction q with
    | nil => intro b c v _ _ hv; cases hv
    | cons x q ih =>
      intro b c v hl hnd hv
      cases hl with
      | here =>
        rw [List.mem_singleton.mp hv]
        exact ⟨[x], Leads.here x, by simp, by simp⟩
      | step he hq =>
        by_cases hvx : v = x
        · subst hvx
          exact ⟨_, Leads.step he hq, hnd, fun _ h => h⟩
        · have hvq : v ∈ q := by simpa [hvx] using hv
          obtain ⟨r, h1, h2, h3⟩ := ih _ c v hq (List.nodup_cons.mp hnd).2 hvq
          exact ⟨r, h1, h2, fun y hy => List.mem_cons_of_mem _ (h3 y hy)⟩
  intro p
  induction p with
  | nil => intro a b h; cases h
  | cons x p ih =>
    intro a b h
    cases h with
    | here => exact ⟨[x], Leads.here x, by simp, by simp⟩
    | step he hq =>
      obtain ⟨q, h1, h2, h3⟩ := ih _ b hq
      by_cases ha : x ∈ q
      · obtain ⟨r, r1, r2, r3⟩ := suffix q _ b x h1 h2 ha
        exact ⟨r, r1, r2, fun y hy => List.mem_cons_of_mem _ (h3 y (r3 y hy))⟩
      · refine ⟨x :: q, Leads.step he h1, List.nodup_cons.mpr ⟨ha, h2⟩, ?_⟩
        intro y hy
        rcases List.mem_cons.mp hy with rfl | hy
        · exact List.mem_cons_self
        · exact List.mem_cons_of_mem _ (h3 y hy)

/-- C248: a path is found whenever there is one. -/
theorem C248_found (g : GraphDict V) (a b : V) : graphPath g a b ≠ none ↔ ∃ p, Leads g a b p := by
  constructor
  · intro h
    obtain ⟨p, hp⟩ := Option.ne_none_iff_exists'.mp h
    exact ⟨p, (C248_path g a b p hp).1⟩
  · rintro ⟨p, hp⟩
    obtain ⟨q, h1, h2, -⟩ := shorten g p a b hp
    exact complete_aux g b q a [] (by simp) h1 h2 (by simp)

private def robot : GraphDict String := [("origin", ["cameras", "dvl"]), ("cameras", ["LM165", "origin"]), ("dvl", []), ("LM165", [])]

example : Leads robot "origin" "LM165" ["origin", "cameras", "LM165"] :=
  Leads.step ⟨_, rfl, by simp⟩ (Leads.step ⟨_, rfl, by simp⟩ (Leads.here _))

/-! ## Adding vertices and edges -/

private theorem lookup_appendTo (g : GraphDict V) (a b v : V) : (appendTo g a b).lookup v = if v = a then (g.lookup a).map (· ++ [b]) else g.lookup v := by
  induction g with
  | nil => simp [appendTo]
  | cons e g ih =>
    have e1 : appendTo (e :: g) a b = (if e.1 = a then (e.1, e.2 ++ [b]) else e) :: appendTo g a b := rfl
    rw [e1]
    obtain ⟨k, l⟩ := e
    by_cases hk : k = a
    · subst hk
      simp only [if_true, List.lookup_cons]
      by_cases hv : v = k
      · subst hv; simp
      · have : (v == k) = false := by simpa using hv
        rw [this]
        simp only [ih, if_neg hv]
    · simp only [if_neg hk, List.lookup_cons, ih]
      by_cases hv : v = k
      · subst hv
        simp [hk]
      · have h1 : (v == k) = false := by simpa using hv
        have h2 : (a == k) = false := by simpa using fun h => hk h.symm
        rw [h1, h2]

private theorem lookup_none (g : GraphDict V) (a : V) (h : a ∉ g.map Prod.fst) : g.lookup a = none := by
  rw [List.lookup_eq_none_iff]
  intro e he
  rw [bne_iff_ne]
  exact fun hk => h (hk ▸ List.mem_map.mpr ⟨e, he, rfl⟩)

private theorem edge_iff (swap : V → V → Bool) (g : GraphDict V) (a b x y : V) :
    HasEdge (addEdge swap g a b) x y ↔ HasEdge g x y ∨ (if swap a b then x = b ∧ y = a else x = a ∧ y = b) := by
  have key : ∀ a b : V, HasEdge (if a ∈ g.map Prod.fst then appendTo g a b else g ++ [(a, [b])]) x y ↔ HasEdge g x y ∨ (x = a ∧ y = b) := by
    intro a b
    split_ifs with hm
    · unfold HasEdge
      simp only [lookup_appendTo]
      by_cases hx : x = a
      · subst hx
        simp only [if_true, Option.map_eq_some_iff, true_and]
        constructor
        · rintro ⟨n, ⟨l, hl, rfl⟩, hy⟩
          rcases List.mem_append.mp hy with hy | hy
          · exact Or.inl ⟨l, hl, hy⟩
          · exact Or.inr (List.mem_singleton.mp hy)
        · rintro (⟨l, hl, hy⟩ | rfl)
          · exact ⟨_, ⟨l, hl, rfl⟩, by simp [hy]⟩
          · have : ∃ l, g.lookup x = some l := by
              rw [← Option.isSome_iff_exists, List.lookup_isSome_iff]
              obtain ⟨e, he, hk⟩ := List.mem_map.mp hm
              exact ⟨e, he, by simp [hk]⟩
            obtain ⟨l, hl⟩ := this
            exact ⟨_, ⟨l, hl, rfl⟩, by simp⟩
      · simp [hx]
    · unfold HasEdge
      rw [List.lookup_append]
      by_cases hx : x = a
      · subst hx
        rw [lookup_none g x hm]
        simp
      · have : (x == a) = false := by simpa using hx
        simp [List.lookup_cons, this, hx]
  unfold addEdge
  by_cases hs : swap a b = true
  · simp only [hs, if_true]; exact key b a
  · simp only [hs]; exact key a b

/-- C248: adding an edge adds exactly one edge, between its two ends, and keeps all paths. -/
theorem C248_add_partial (swap : V → V → Bool) (g : GraphDict V) (a b : V) :
    (graphPath (addEdge swap g a b) a b ≠ none ∨ graphPath (addEdge swap g a b) b a ≠ none) ∧
      (∀ x y, graphPath g x y ≠ none → graphPath (addEdge swap g a b) x y ≠ none) ∧
      ∀ x y, HasEdge (addEdge swap g a b) x y → HasEdge g x y ∨ (x = a ∧ y = b) ∨ (x = b ∧ y = a) := by
  refine ⟨?_, ?_, ?_⟩
  · by_cases hs : swap a b = true
    · right
      exact (C248_found _ _ _).mpr ⟨_, Leads.step ((edge_iff swap g a b b a).mpr (Or.inr (by rw [if_pos hs]; exact ⟨rfl, rfl⟩))) (Leads.here _)⟩
    · left
      exact (C248_found _ _ _).mpr ⟨_, Leads.step ((edge_iff swap g a b a b).mpr (Or.inr (by rw [if_neg hs]; exact ⟨rfl, rfl⟩))) (Leads.here _)⟩
  · intro x y h
    rw [C248_found] at h ⊢
    obtain ⟨p, hp⟩ := h
    refine ⟨p, ?_⟩
    induction hp with
    | here a => exact Leads.here a
    | step he _ ih => exact Leads.step ((edge_iff swap g a b _ _).mpr (Or.inl he)) ih
  · intro x y h
    rcases (edge_iff swap g a b x y).mp h with h | h
    · exact Or.inl h
    · split_ifs at h
      · exact Or.inr (Or.inr h)
      · exact Or.inr (Or.inl h)

/-- C248 is false: the direction of an edge that is added depends on hashes. -/
theorem C248_add_false : ¬ EdgeAdded ℕ := by
  intro h
  have := h (fun _ _ => true) [] 1 2
  apply this
  have e : addEdge (fun _ _ => true) ([] : GraphDict ℕ) 1 2 = [(2, [1])] := by decide
  rw [e]
  by_contra hne
  obtain ⟨p, hp⟩ := (C248_found _ _ _).mp hne
  cases hp with
  | step he _ =>
    obtain ⟨n, hn, -⟩ := he
    simp [List.lookup_cons] at hn

/-- C248: adding a vertex changes no edge, and adding it again changes nothing. -/
theorem C248_vertex (g : GraphDict V) (v : V) :
    v ∈ (addVertex g v).map Prod.fst ∧ (∀ x y, HasEdge (addVertex g v) x y ↔ HasEdge g x y) ∧ addVertex (addVertex g v) v = addVertex g v := by
  unfold addVertex
  by_cases hm : v ∈ g.map Prod.fst
  · simp [hm]
  · simp only [if_neg hm]
    refine ⟨by simp, ?_, by simp⟩
    intro x y
    unfold HasEdge
    rw [List.lookup_append]
    by_cases hx : x = v
    · subst hx
      rw [lookup_none g x hm]
      simp
    · have : (x == v) = false := by simpa using hx
      simp [List.lookup_cons, this]

private theorem sameEdge_comm (x y : V × V) : sameEdge x y = sameEdge y x := by
  unfold sameEdge
  simp only [decide_eq_decide]
  constructor <;> (rintro (⟨h1, h2⟩ | ⟨h1, h2⟩) <;> simp [h1, h2])

private theorem edges_fold (es : List (V × V)) : ∀ acc : List (V × V), acc.Pairwise (fun x y => sameEdge x y = false) →
    (es.foldl (fun l e => if l.any (sameEdge e) then l else l ++ [e]) acc).Pairwise (fun x y => sameEdge x y = false) ∧
      (∀ x ∈ es.foldl (fun l e => if l.any (sameEdge e) then l else l ++ [e]) acc, x ∈ acc ∨ x ∈ es) ∧
      (∀ x ∈ acc, x ∈ es.foldl (fun l e => if l.any (sameEdge e) then l else l ++ [e]) acc) ∧
      ∀ x ∈ es, ∃ y ∈ es.foldl (fun l e => if l.any (sameEdge e) then l else l ++ [e]) acc, sameEdge x y = true := by
  induction es with
  | nil => intro acc h; exact ⟨h, by simp, by simp, by simp⟩
  | cons e es ih =>
    intro acc h
    rw [List.foldl_cons]
    by_cases ha : acc.any (sameEdge e) = true
    · rw [if_pos ha]
      obtain ⟨h1, h2, h3, h4⟩ := ih acc h
      refine ⟨h1, fun x hx => ?_, h3, ?_⟩
      · rcases h2 x hx with h | h
        · exact Or.inl h
        · exact Or.inr (List.mem_cons_of_mem _ h)
      · intro x hx
        rcases List.mem_cons.mp hx with rfl | hx
        · obtain ⟨y, hy, hs⟩ := List.any_eq_true.mp ha
          exact ⟨y, h3 y hy, hs⟩
        · exact h4 x hx
    · rw [if_neg ha]
      have hpw : (acc ++ [e]).Pairwise (fun x y => sameEdge x y = false) := by
        rw [List.pairwise_append]
        refine ⟨h, by simp, ?_⟩
        intro x hx y hy
        rw [List.mem_singleton.mp hy, sameEdge_comm]
        rw [Bool.not_eq_true, List.any_eq_false] at ha
        simpa using ha x hx
      obtain ⟨h1, h2, h3, h4⟩ := ih (acc ++ [e]) hpw
      refine ⟨h1, fun x hx => ?_, fun x hx => h3 x (by simp [hx]), ?_⟩
      · rcases h2 x hx with h | h
        · rcases List.mem_append.mp h with h | h
          · exact Or.inl h
          · exact Or.inr (by simp [List.mem_singleton.mp h])
        · exact Or.inr (List.mem_cons_of_mem _ h)
      · intro x hx
        rcases List.mem_cons.mp hx with rfl | hx
        · exact ⟨x, h3 x (by simp), by simp [sameEdge]⟩
        · exact h4 x hx

/-- C248: the edges of a graph with different keys, as dictionaries have: every edge is listed, in one direction, and none twice. -/
theorem C248_edges (g : GraphDict V) (hk : (g.map Prod.fst).Nodup) :
    (graphEdges g).Pairwise (fun x y => ¬ ((x.1 = y.1 ∧ x.2 = y.2) ∨ (x.1 = y.2 ∧ x.2 = y.1))) ∧
      (∀ x ∈ graphEdges g, HasEdge g x.1 x.2) ∧
      ∀ a b, HasEdge g a b → (a, b) ∈ graphEdges g ∨ (b, a) ∈ graphEdges g := by
  obtain ⟨h1, h2, -, h4⟩ := edges_fold (g.flatMap fun e => e.2.map fun n => (e.1, n)) [] (by simp)
  have hmem : ∀ a b, (a, b) ∈ (g.flatMap fun e => e.2.map fun n => (e.1, n)) ↔ HasEdge g a b := by
    intro a b
    simp only [List.mem_flatMap, List.mem_map, Prod.mk.injEq]
    constructor
    · rintro ⟨e, he, n, hn, rfl, rfl⟩
      refine ⟨e.2, ?_, hn⟩
      clear h1 h2 h4
      induction g with
      | nil => cases he
      | cons f g ih =>
        rw [List.map_cons, List.nodup_cons] at hk
        obtain ⟨k, l⟩ := f
        rw [List.lookup_cons]
        rcases List.mem_cons.mp he with rfl | he
        · simp
        · have hne : e.1 ≠ k := by
            intro hh
            have := List.mem_map_of_mem (f := Prod.fst) he
            rw [hh] at this
            exact hk.1 this
          have : (e.1 == k) = false := by simpa using hne
          rw [this]
          exact ih hk.2 he
    · rintro ⟨next, hl, hb⟩
      obtain ⟨l1, l2, rfl, -⟩ := List.lookup_eq_some_iff.mp hl
      exact ⟨(a, next), by simp, b, hb, rfl, rfl⟩
  refine ⟨?_, ?_, ?_⟩
  · refine h1.imp ?_
    intro x y h
    simpa [sameEdge] using h
  · intro x hx
    rcases h2 x hx with h | h
    · cases h
    · exact (hmem x.1 x.2).mp h
  · intro a b h
    obtain ⟨y, hy, hs⟩ := h4 (a, b) ((hmem a b).mpr h)
    simp only [sameEdge, decide_eq_true_eq] at hs
    obtain ⟨y1, y2⟩ := y
    rcases hs with ⟨rfl, rfl⟩ | ⟨rfl, rfl⟩
    · exact Or.inl hy
    · exact Or.inr hy

example : (robot.map Prod.fst).Nodup := by decide +kernel

end Oplab.Props
