import Verif.Model.Basic

/-! # Graphs

Models /repo/src/auv_nav/tools/graph.py. A Python dictionary is a list of keys and values in the order of insertion. -/

namespace Oplab
variable {V : Type} [DecidableEq V]

/-- `self.__graph_dict` (/repo/src/auv_nav/tools/graph.py L8-14). -/
abbrev GraphDict (V : Type) := List (V × List V)

/-- graph.py L75-86 `find_path` with `path`, which does not hold the first vertex: at the start it is empty, and the loop calls it with vertices
that are not in it. -/
def findPath (g : GraphDict V) (goal : V) (start : V) (path : List V) (h : start ∉ path) : Option (List V) :=
  let path' := path ++ [start]
  if start = goal then some path'
  else
    match hl : g.lookup start with
    | none => none
    | some next => next.findSome? fun v => if hv : v ∉ path' then findPath g goal v path' hv else none
termination_by ((g.map Prod.fst).filter (· ∉ path)).length
decreasing_by
  have hm : start ∈ g.map Prod.fst := by
    have := List.lookup_eq_some_iff.mp hl
    obtain ⟨l1, l2, rfl, -⟩ := this
    simp
  have hsub : ((g.map Prod.fst).filter (· ∉ path')).length < ((g.map Prod.fst).filter (· ∉ path)).length := by
    generalize g.map Prod.fst = ks at hm
    have key : ∀ ks : List V, (ks.filter (· ∉ path')).length ≤ (ks.filter (· ∉ path)).length ∧
        (start ∈ ks → (ks.filter (· ∉ path')).length < (ks.filter (· ∉ path)).length) := by
      intro ks
      induction ks with
      | nil => simp
      | cons k ks ih =>
        by_cases hk : k = start
        · subst hk
          have h1 : ¬ (k ∉ path') := by simp [path']
          simp only [List.filter_cons, h1, h, decide_false, decide_true, if_true, not_false_eq_true, Bool.false_eq_true, if_false, List.length_cons]
          refine ⟨by omega, fun _ => by omega⟩
        · have h1 : (k ∉ path') ↔ (k ∉ path) := by simp [path', hk]
          by_cases h2 : k ∉ path
          · have h3 := h1.mpr h2
            simp only [List.filter_cons, h2, h3, decide_true, if_true, List.length_cons, not_false_eq_true]
            refine ⟨by omega, fun hm => ?_⟩
            have := ih.2 (by simpa [Ne.symm hk] using hm)
            omega
          · have h3 : ¬ (k ∉ path') := fun h => h2 (h1.mp h)
            simp only [List.filter_cons, h2, h3, decide_false, Bool.false_eq_true, if_false]
            refine ⟨ih.1, fun hm => ih.2 (by simpa [Ne.symm hk] using hm)⟩
    exact (key ks).2 hm
  exact hsub

/-- graph.py L72-86 `find_path(start, goal)`. -/
def graphPath (g : GraphDict V) (start goal : V) : Option (List V) := findPath g goal start [] (by simp)

/-- graph.py L24-31 `add_vertex`. -/
def addVertex (g : GraphDict V) (v : V) : GraphDict V := if v ∈ g.map Prod.fst then g else g ++ [(v, [])]

/-- Appending to the value of a key (graph.py L45-46). -/
def appendTo (g : GraphDict V) (a b : V) : GraphDict V := g.map fun e => if e.1 = a then (e.1, e.2 ++ [b]) else e

/-- graph.py L33-48 `add_edge`: the two ends are put in a set and taken out of it again, in an order that depends on their hashes: `swap` says that
the second comes first. -/
def addEdge (swap : V → V → Bool) (g : GraphDict V) (a b : V) : GraphDict V :=
  let e := if swap a b then (b, a) else (a, b)
  if e.1 ∈ g.map Prod.fst then appendTo g e.1 e.2 else g ++ [(e.1, [e.2])]

/-- Whether two pairs are the same as sets (graph.py L59). -/
def sameEdge (x y : V × V) : Bool := (x.1 = y.1 ∧ x.2 = y.2) ∨ (x.1 = y.2 ∧ x.2 = y.1)

/-- graph.py L50-61 `__generate_edges`. -/
def graphEdges (g : GraphDict V) : List (V × V) :=
  (g.flatMap fun e => e.2.map fun n => (e.1, n)).foldl (fun l e => if l.any (sameEdge e) then l else l ++ [e]) []

end Oplab
