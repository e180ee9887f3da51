import Verif.Spec.EkfEvents
import Verif.Props.EkfCov

/-!
# C33 — the filter's timeline; C29, C31, C34 for whole runs
-/

namespace Oplab.Props
open Oplab Oplab.Spec

/-- Head of a list if it has time `t`. -/
private noncomputable def took {α : Type} (time : α → ℝ) (t : ℝ) : List α → List α
  | x :: _ => if time x = t then [x] else []
  | [] => []

private noncomputable def left {α : Type} (time : α → ℝ) (t : ℝ) : List α → List α
  | x :: xs => if time x = t then xs else x :: xs
  | [] => []

private theorem took_left {α : Type} (time : α → ℝ) (t : ℝ) (l : List α) :
    took time t l ++ left time t l = l := by
  cases l with
  | nil => rfl
  | cons x xs => simp only [took, left]; split_ifs <;> rfl

private theorem mem_took {α : Type} {time : α → ℝ} {t : ℝ} {l : List α} {x : α}
    (h : x ∈ took time t l) : time x = t := by
  cases l with
  | nil => simp [took] at h
  | cons y ys =>
    simp only [took] at h
    split_ifs at h with hy
    · rw [List.mem_singleton.mp h]; exact hy
    · cases h

private noncomputable def iterEvs (t : ℝ) (q : Queues) : List Ev :=
  .predict t :: ((took KOrient.time t q.orient).map .orient ++ (took KUsbl.time t q.usbl).map .usbl
    ++ (took KDepth.time t q.depth).map .depth ++ (took KDvl.time t q.dvl).map .dvl)

private noncomputable def iterRest (t : ℝ) (q : Queues) : Queues :=
  ⟨left KOrient.time t q.orient, left KUsbl.time t q.usbl, left KDepth.time t q.depth,
   left KDvl.time t q.dvl, left id t q.stamps⟩

private theorem takeAt_eq {α : Type} (time : α → ℝ) (t : ℝ) (f : Ekf → α → Res Ekf) (l : List α)
    (e : Ekf) :
    takeAt time t f l e = ((took time t l).foldlM f e).map (fun e => (left time t l, e)) := by
  cases l with
  | nil => rfl
  | cons x xs =>
    simp only [takeAt, took, left]
    split_ifs
    · simp only [List.foldlM_cons, List.foldlM_nil, bind, Except.bind, pure, Except.pure, Except.map]
      cases f e x <;> rfl
    · rfl

private theorem foldlM_map' {α : Type} (g : α → Ev) (f : Ekf → α → Res Ekf) (c : EkfCfg)
    (h : ∀ e a, Ev.apply c e (g a) = f e a) (l : List α) (e : Ekf) :
    (l.map g).foldlM (Ev.apply c) e = l.foldlM f e := by
  induction l generalizing e with
  | nil => rfl
  | cons x xs ih =>
    simp only [List.map_cons, List.foldlM_cons, h, bind, Except.bind]
    cases f e x with
    | error _ => rfl
    | ok e => exact ih e

private theorem ekfIter_eq (c : EkfCfg) (t : ℝ) (q : Queues) (e : Ekf) :
    ekfIter c t q e = (replay c e (iterEvs t q)).map (fun e => (iterRest t q, e)) := by
  obtain ⟨o, u, d, v, s⟩ := q
  unfold ekfIter replay iterEvs iterRest
  simp only [List.foldlM_cons, List.foldlM_append, bind, Except.bind, takeAt_eq]
  rw [show Ev.apply c e (.predict t) = e.predict t (t - e.lastT) from rfl]
  cases e.predict t (t - e.lastT) with
  | error x => rfl
  | ok e =>
    simp only []
    rw [foldlM_map' .orient (fun e o => e.correct (fromOrientation c.std o)) c (fun e a => rfl)]
    cases List.foldlM (fun e o => e.correct (fromOrientation c.std o)) e (took KOrient.time t o) with
    | error x => rfl
    | ok e =>
    simp only [Except.map]
    rw [foldlM_map' .usbl (fun e u => e.correct (fromUsbl c.std u e.rpyDeg c.usblToDvl)) c (fun e a => rfl)]
    cases List.foldlM (fun e u => e.correct (fromUsbl c.std u e.rpyDeg c.usblToDvl)) e
      (took KUsbl.time t u) with
    | error x => rfl
    | ok e =>
    simp only []
    rw [foldlM_map' .depth (fun e d => e.correct (fromDepth c.std d e.rpyDeg c.depthToDvl)) c (fun e a => rfl)]
    cases List.foldlM (fun e d => e.correct (fromDepth c.std d e.rpyDeg c.depthToDvl)) e
      (took KDepth.time t d) with
    | error x => rfl
    | ok e =>
    simp only []
    rw [foldlM_map' .dvl (fun e v => e.correct (fromDvl c.std v)) c (fun e a => rfl)]
    cases List.foldlM (fun e v => e.correct (fromDvl c.std v)) e (took KDvl.time t v) with
    | error x => rfl
    | ok e =>
    simp only [pure, Except.pure]
    cases s <;> rfl

/-! ### The schedule -/

noncomputable def sched (endT : ℝ) : Nat → ℝ → Queues → List Ev
  | 0, _, _ => []
  | n + 1, cur, q =>
    if cur < endT then
      match q.next with
      | none => []
      | some t => iterEvs t q ++ sched endT n t (iterRest t q)
    else []

private theorem left_suffix {α : Type} (time : α → ℝ) (t : ℝ) (l : List α) : left time t l <:+ l :=
  ⟨took time t l, took_left time t l⟩

private theorem left_length {α : Type} (time : α → ℝ) (t : ℝ) (l : List α)
    (h : l.head?.map time = some t) : (left time t l).length < l.length := by
  cases l with
  | nil => simp at h
  | cons x xs =>
    simp only [List.head?_cons, Option.map_some, Option.some.injEq] at h
    simp [left, h]

private theorem mem_left_of_ne {α : Type} {time : α → ℝ} {t : ℝ} {l : List α} {x : α} (hx : x ∈ l)
    (h : time x ≠ t) : x ∈ left time t l := by
  rw [← took_left time t l] at hx
  rcases List.mem_append.mp hx with hx | hx
  · exact absurd (mem_took hx) h
  · exact hx

private theorem sorted_head {α : Type} {time : α → ℝ} {l : List α} {t : ℝ}
    (hs : (l.map time).Pairwise (· ≤ ·)) (h : ∀ a, l.head?.map time = some a → t ≤ a) :
    ∀ x ∈ l, t ≤ time x := by
  cases l with
  | nil => simp
  | cons y ys =>
    intro x hx
    have hy : t ≤ time y := h _ rfl
    rcases List.mem_cons.mp hx with rfl | hx
    · exact hy
    · rw [List.map_cons, List.pairwise_cons] at hs
      exact hy.trans (hs.1 _ (List.mem_map_of_mem hx))

private theorem sorted_left {α : Type} {time : α → ℝ} {l : List α} {t : ℝ}
    (hs : (l.map time).Pairwise (· ≤ ·)) : ((left time t l).map time).Pairwise (· ≤ ·) :=
  hs.sublist ((left_suffix time t l).sublist.map time)

private theorem next_spec {q : Queues} {t : ℝ} (h : q.next = some t) :
    (q.usbl.head?.map KUsbl.time = some t ∨ q.depth.head?.map KDepth.time = some t ∨
      q.orient.head?.map KOrient.time = some t ∨ q.dvl.head?.map KDvl.time = some t ∨
      q.stamps.head?.map id = some t) ∧
    (∀ a, q.usbl.head?.map KUsbl.time = some a → t ≤ a) ∧
    (∀ a, q.depth.head?.map KDepth.time = some a → t ≤ a) ∧
    (∀ a, q.orient.head?.map KOrient.time = some a → t ≤ a) ∧
    (∀ a, q.dvl.head?.map KDvl.time = some a → t ≤ a) ∧
    (∀ a, q.stamps.head?.map id = some a → t ≤ a) := by
  obtain ⟨h1, h2⟩ := List.min?_eq_some_iff.mp h
  simp only [List.mem_filterMap, List.mem_cons, List.not_mem_nil, or_false, id] at h1 h2
  refine ⟨?_, ?_, ?_, ?_, ?_, ?_⟩
  · obtain ⟨a, ha, rfl⟩ := h1
    simp only [Option.map_id]
    rcases ha with ha | ha | ha | ha | ha
    · exact Or.inl ha.symm
    · exact Or.inr (Or.inl ha.symm)
    · exact Or.inr (Or.inr (Or.inl ha.symm))
    · exact Or.inr (Or.inr (Or.inr (Or.inl ha.symm)))
    · exact Or.inr (Or.inr (Or.inr (Or.inr ha.symm)))
  · exact fun a ha => h2 a ⟨_, Or.inl rfl, ha⟩
  · exact fun a ha => h2 a ⟨_, Or.inr (Or.inl rfl), ha⟩
  · exact fun a ha => h2 a ⟨_, Or.inr (Or.inr (Or.inl rfl)), ha⟩
  · exact fun a ha => h2 a ⟨_, Or.inr (Or.inr (Or.inr (Or.inl rfl))), ha⟩
  · intro a ha
    rw [Option.map_id] at ha
    exact h2 a ⟨_, Or.inr (Or.inr (Or.inr (Or.inr rfl))), ha⟩

private theorem next_none {q : Queues} (h : q.next = none) : allTimes q = [] := by
  have h1 := List.min?_eq_none_iff.mp h
  obtain ⟨o, u, d, v, s⟩ := q
  cases o <;> cases u <;> cases d <;> cases v <;> cases s <;> simp_all [allTimes]

private theorem mem_allTimes {q : Queues} {x : ℝ} : x ∈ allTimes q ↔
    (∃ o ∈ q.orient, o.time = x) ∨ (∃ o ∈ q.usbl, o.time = x) ∨ (∃ o ∈ q.depth, o.time = x) ∨
    (∃ o ∈ q.dvl, o.time = x) ∨ x ∈ q.stamps := by
  simp [allTimes]

private theorem next_le {q : Queues} (hq : InOrder q) {t : ℝ} (h : q.next = some t) :
    ∀ x ∈ allTimes q, t ≤ x := by
  obtain ⟨_, h1, h2, h3, h4, h5⟩ := next_spec h
  obtain ⟨s1, s2, s3, s4, s5⟩ := hq
  intro x hx
  rcases mem_allTimes.mp hx with ⟨o, ho, rfl⟩ | ⟨o, ho, rfl⟩ | ⟨o, ho, rfl⟩ | ⟨o, ho, rfl⟩ | ho
  · exact sorted_head s1 h3 o ho
  · exact sorted_head s2 h1 o ho
  · exact sorted_head s3 h2 o ho
  · exact sorted_head s4 h4 o ho
  · exact sorted_head (time := id) (by rwa [List.map_id]) h5 x ho

private theorem head_mem {α : Type} {time : α → ℝ} {l : List α} {t : ℝ}
    (h : l.head?.map time = some t) : ∃ o ∈ l, time o = t := by
  cases l with
  | nil => simp at h
  | cons x xs => exact ⟨x, by simp, by simpa using h⟩

private theorem next_mem {q : Queues} {t : ℝ} (h : q.next = some t) : t ∈ allTimes q := by
  rw [mem_allTimes]
  rcases (next_spec h).1 with h | h | h | h | h
  · exact Or.inr (Or.inl (head_mem h))
  · exact Or.inr (Or.inr (Or.inl (head_mem h)))
  · exact Or.inl (head_mem h)
  · exact Or.inr (Or.inr (Or.inr (Or.inl (head_mem h))))
  · obtain ⟨o, ho, rfl⟩ := head_mem h
    exact Or.inr (Or.inr (Or.inr (Or.inr ho)))

private theorem size_rest {q : Queues} {t : ℝ} (h : q.next = some t) :
    (iterRest t q).size < q.size := by
  have l1 := (left_suffix KOrient.time t q.orient).length_le
  have l2 := (left_suffix KUsbl.time t q.usbl).length_le
  have l3 := (left_suffix KDepth.time t q.depth).length_le
  have l4 := (left_suffix KDvl.time t q.dvl).length_le
  have l5 := (left_suffix id t q.stamps).length_le
  simp only [Queues.size, iterRest]
  rcases (next_spec h).1 with h | h | h | h | h <;> have := left_length _ _ _ h <;> omega

private theorem inOrder_rest {q : Queues} (h : InOrder q) (t : ℝ) : InOrder (iterRest t q) := by
  obtain ⟨s1, s2, s3, s4, s5⟩ := h
  refine ⟨sorted_left s1, sorted_left s2, sorted_left s3, sorted_left s4, ?_⟩
  exact s5.sublist (left_suffix id t q.stamps).sublist

private theorem mem_rest {q : Queues} {t x : ℝ} (h : x ∈ allTimes (iterRest t q)) : x ∈ allTimes q := by
  rw [mem_allTimes] at h ⊢
  rcases h with ⟨o, ho, e⟩ | ⟨o, ho, e⟩ | ⟨o, ho, e⟩ | ⟨o, ho, e⟩ | ho
  · exact Or.inl ⟨o, (left_suffix _ _ _).subset ho, e⟩
  · exact Or.inr (Or.inl ⟨o, (left_suffix _ _ _).subset ho, e⟩)
  · exact Or.inr (Or.inr (Or.inl ⟨o, (left_suffix _ _ _).subset ho, e⟩))
  · exact Or.inr (Or.inr (Or.inr (Or.inl ⟨o, (left_suffix _ _ _).subset ho, e⟩)))
  · exact Or.inr (Or.inr (Or.inr (Or.inr ((left_suffix _ _ _).subset ho))))

private theorem mem_rest_of_ne {q : Queues} {t x : ℝ} (h : x ∈ allTimes q) (hx : x ≠ t) :
    x ∈ allTimes (iterRest t q) := by
  rw [mem_allTimes] at h ⊢
  rcases h with ⟨o, ho, e⟩ | ⟨o, ho, e⟩ | ⟨o, ho, e⟩ | ⟨o, ho, e⟩ | ho
  · exact Or.inl ⟨o, mem_left_of_ne ho (by rwa [e]), e⟩
  · exact Or.inr (Or.inl ⟨o, mem_left_of_ne ho (by rwa [e]), e⟩)
  · exact Or.inr (Or.inr (Or.inl ⟨o, mem_left_of_ne ho (by rwa [e]), e⟩))
  · exact Or.inr (Or.inr (Or.inr (Or.inl ⟨o, mem_left_of_ne ho (by rwa [e]), e⟩)))
  · exact Or.inr (Or.inr (Or.inr (Or.inr (mem_left_of_ne (time := id) ho hx))))

theorem loop_eq (c : EkfCfg) (n : Nat) (cur : ℝ) (q : Queues) (e : Ekf) (hn : q.size < n) :
    ekfLoop c n cur q e = replay c e (sched c.endT n cur q) := by
  induction n generalizing cur q e with
  | zero => omega
  | succ n ih =>
    unfold ekfLoop sched
    by_cases hc : cur < c.endT
    · simp only [if_pos hc]
      cases hq : q.next with
      | none => rfl
      | some t =>
        simp only [bind, Except.bind, ekfIter_eq, replay, List.foldlM_append]
        cases hr : List.foldlM (Ev.apply c) e (iterEvs t q) with
        | error x => rfl
        | ok e' =>
          simp only [Except.map]
          exact ih t (iterRest t q) e' (by have := size_rest hq; omega)
    · simp only [if_neg hc]; rfl

private theorem fm_self {α : Type} (g : α → Ev) (p : Ev → Option α) (h : ∀ a, p (g a) = some a)
    (l : List α) : (l.map g).filterMap p = l := by
  induction l with
  | nil => rfl
  | cons x xs ih => simp [h, ih]

private theorem fm_other {α β : Type} (g : α → Ev) (p : Ev → Option β) (h : ∀ a, p (g a) = none)
    (l : List α) : (l.map g).filterMap p = [] := by
  induction l with
  | nil => rfl
  | cons x xs ih => simp [h, ih]

private theorem evs_predict (t : ℝ) (q : Queues) : (iterEvs t q).filterMap Ev.predict? = [t] := by
  have h1 := fm_other Ev.orient Ev.predict? (fun _ => rfl) (took KOrient.time t q.orient)
  have h2 := fm_other Ev.usbl Ev.predict? (fun _ => rfl) (took KUsbl.time t q.usbl)
  have h3 := fm_other Ev.depth Ev.predict? (fun _ => rfl) (took KDepth.time t q.depth)
  have h4 := fm_other Ev.dvl Ev.predict? (fun _ => rfl) (took KDvl.time t q.dvl)
  simp only [iterEvs, List.filterMap_cons, Ev.predict?, List.filterMap_append, h1, h2, h3, h4,
    List.append_nil]

private theorem evs_orient (t : ℝ) (q : Queues) :
    (iterEvs t q).filterMap Ev.orient? = took KOrient.time t q.orient := by
  have h0 := fm_self Ev.orient Ev.orient? (fun _ => rfl) (took KOrient.time t q.orient)
  have h1 := fm_other Ev.usbl Ev.orient? (fun _ => rfl) (took KUsbl.time t q.usbl)
  have h2 := fm_other Ev.depth Ev.orient? (fun _ => rfl) (took KDepth.time t q.depth)
  have h3 := fm_other Ev.dvl Ev.orient? (fun _ => rfl) (took KDvl.time t q.dvl)
  simp only [iterEvs, List.filterMap_cons, Ev.orient?, List.filterMap_append, h0, h1, h2, h3,
    List.append_nil]

private theorem evs_usbl (t : ℝ) (q : Queues) :
    (iterEvs t q).filterMap Ev.usbl? = took KUsbl.time t q.usbl := by
  have h0 := fm_other Ev.orient Ev.usbl? (fun _ => rfl) (took KOrient.time t q.orient)
  have h1 := fm_self Ev.usbl Ev.usbl? (fun _ => rfl) (took KUsbl.time t q.usbl)
  have h2 := fm_other Ev.depth Ev.usbl? (fun _ => rfl) (took KDepth.time t q.depth)
  have h3 := fm_other Ev.dvl Ev.usbl? (fun _ => rfl) (took KDvl.time t q.dvl)
  simp only [iterEvs, List.filterMap_cons, Ev.usbl?, List.filterMap_append, h0, h1, h2, h3,
    List.append_nil, List.nil_append]

private theorem evs_depth (t : ℝ) (q : Queues) :
    (iterEvs t q).filterMap Ev.depth? = took KDepth.time t q.depth := by
  have h0 := fm_other Ev.orient Ev.depth? (fun _ => rfl) (took KOrient.time t q.orient)
  have h1 := fm_other Ev.usbl Ev.depth? (fun _ => rfl) (took KUsbl.time t q.usbl)
  have h2 := fm_self Ev.depth Ev.depth? (fun _ => rfl) (took KDepth.time t q.depth)
  have h3 := fm_other Ev.dvl Ev.depth? (fun _ => rfl) (took KDvl.time t q.dvl)
  simp only [iterEvs, List.filterMap_cons, Ev.depth?, List.filterMap_append, h0, h1, h2, h3,
    List.append_nil, List.nil_append]

private theorem evs_dvl (t : ℝ) (q : Queues) :
    (iterEvs t q).filterMap Ev.dvl? = took KDvl.time t q.dvl := by
  have h0 := fm_other Ev.orient Ev.dvl? (fun _ => rfl) (took KOrient.time t q.orient)
  have h1 := fm_other Ev.usbl Ev.dvl? (fun _ => rfl) (took KUsbl.time t q.usbl)
  have h2 := fm_other Ev.depth Ev.dvl? (fun _ => rfl) (took KDepth.time t q.depth)
  have h3 := fm_self Ev.dvl Ev.dvl? (fun _ => rfl) (took KDvl.time t q.dvl)
  simp only [iterEvs, List.filterMap_cons, Ev.dvl?, List.filterMap_append, h0, h1, h2, h3,
    List.append_nil, List.nil_append]

/-- times of predictions of the schedule -/
private theorem sched_times (endT : ℝ) (n : Nat) : ∀ (cur : ℝ) (q : Queues), InOrder q → q.size < n →
    let P := (sched endT n cur q).filterMap Ev.predict?
    P.Pairwise (· ≤ ·) ∧ (∀ t ∈ P, t ∈ allTimes q) ∧ (∀ t ∈ P.dropLast, t < endT) ∧
    (cur < endT → ∀ t ∈ allTimes q, t ≤ endT → t ∈ P) := by
  induction n with
  | zero => intro cur q _ h; omega
  | succ n ih =>
    intro cur q hq hn
    unfold sched
    by_cases hc : cur < endT
    swap
    · simp [hc]
    simp only [if_pos hc]
    cases hx : q.next with
    | none => simp [next_none hx]
    | some t =>
      simp only [List.filterMap_append, evs_predict, List.singleton_append]
      obtain ⟨h1, h2, h3, h4⟩ := ih t (iterRest t q) (inOrder_rest hq t)
        (by have := size_rest hx; omega)
      refine ⟨?_, ?_, ?_, ?_⟩
      · rw [List.pairwise_cons]
        exact ⟨fun x hx' => next_le hq hx x (mem_rest (h2 x hx')), h1⟩
      · intro x hx'
        rcases List.mem_cons.mp hx' with rfl | hx'
        · exact next_mem hx
        · exact mem_rest (h2 x hx')
      · intro x hx'
        by_cases ht : t < endT
        · cases hP : List.filterMap Ev.predict? (sched endT n t (iterRest t q)) with
          | nil => rw [hP] at hx'; simp at hx'
          | cons y ys =>
            rw [hP, List.dropLast_cons_cons] at hx'
            rcases List.mem_cons.mp hx' with rfl | hx'
            · exact ht
            · exact h3 x (by rw [hP]; exact hx')
        · have : sched endT n t (iterRest t q) = [] := by
            cases n with
            | zero => rfl
            | succ n => simp [sched, ht]
          rw [this] at hx'
          simp at hx'
      · intro _ x hx' hle
        by_cases hxt : x = t
        · simp [hxt]
        · have hlt : t < x := lt_of_le_of_ne (next_le hq hx x hx') (Ne.symm hxt)
          exact List.mem_cons_of_mem _ (h4 (hlt.trans_le hle) x (mem_rest_of_ne hx' hxt) hle)

/-- measurements of one kind -/
private theorem sched_kind {α : Type} (endT : ℝ) (time : α → ℝ) (p : Ev → Option α)
    (sel : Queues → List α)
    (hrest : ∀ t q, sel (iterRest t q) = left time t (sel q))
    (hev : ∀ t q, (iterEvs t q).filterMap p = took time t (sel q))
    (hall : ∀ q, ∀ x ∈ sel q, time x ∈ allTimes q) (n : Nat) :
    ∀ (cur : ℝ) (q : Queues), InOrder q → q.size < n → (∀ x ∈ allTimes q, cur ≤ x) →
    ∃ rest, sel q = (sched endT n cur q).filterMap p ++ rest ∧ ∀ x ∈ rest, endT ≤ time x := by
  induction n with
  | zero => intro cur q _ h; omega
  | succ n ih =>
    intro cur q hq hn hb
    unfold sched
    by_cases hc : cur < endT
    swap
    · refine ⟨sel q, by simp [hc], fun x hx => (not_lt.mp hc).trans (hb _ (hall q x hx))⟩
    simp only [if_pos hc]
    cases hx : q.next with
    | none =>
      have : sel q = [] := by
        rw [List.eq_nil_iff_forall_not_mem]
        intro x h
        have := hall q x h
        rw [next_none hx] at this
        cases this
      exact ⟨[], by simp [this], by simp⟩
    | some t =>
      obtain ⟨rest, h1, h2⟩ := ih t (iterRest t q) (inOrder_rest hq t)
        (by have := size_rest hx; omega) (fun x h => next_le hq hx x (mem_rest h))
      refine ⟨rest, ?_, h2⟩
      simp only [List.filterMap_append, hev, List.append_assoc]
      rw [← h1, hrest, took_left]

/-! Corrections happen at the time of the last prediction. -/

def goodFrom : Option ℝ → List Ev → Prop
  | _, [] => True
  | _, .predict t :: es => goodFrom (some t) es
  | last, ev :: es => last = some ev.time ∧ goodFrom last es

private def lastFrom : Option ℝ → List Ev → Option ℝ
  | last, [] => last
  | _, .predict t :: es => lastFrom (some t) es
  | last, _ :: es => lastFrom last es

private theorem goodFrom_append (last : Option ℝ) (a b : List Ev) :
    goodFrom last (a ++ b) ↔ goodFrom last a ∧ goodFrom (lastFrom last a) b := by
  induction a generalizing last with
  | nil => simp [goodFrom, lastFrom]
  | cons x xs ih => cases x <;> simp [goodFrom, lastFrom, ih, and_assoc]

private theorem goodFrom_map {α : Type} (g : α → Ev) (t : ℝ) (l : List α)
    (hg : ∀ a, (g a).isPredict = false) (h : ∀ a ∈ l, (g a).time = t) (b : List Ev)
    (hb : goodFrom (some t) b) : goodFrom (some t) (l.map g ++ b) := by
  induction l with
  | nil => exact hb
  | cons x xs ih =>
    have h1 := hg x
    have h2 := h x (by simp)
    have h3 := ih (fun a ha => h a (by simp [ha]))
    simp only [List.map_cons, List.cons_append]
    cases hx : g x <;> rw [hx] at h1 h2 <;> simp_all [goodFrom, Ev.isPredict]

theorem goodFrom_sched (endT : ℝ) (n : Nat) (cur : ℝ) (q : Queues) (last : Option ℝ) :
    goodFrom last (sched endT n cur q) := by
  induction n generalizing cur q last with
  | zero => exact trivial
  | succ n ih =>
    unfold sched
    split_ifs
    · split
      · exact trivial
      · rename_i t _
        simp only [iterEvs, List.cons_append, List.append_assoc]
        show goodFrom (some t) _
        refine goodFrom_map Ev.orient _ _ (fun _ => rfl) (fun a ha => mem_took (time := KOrient.time) ha) _ ?_
        refine goodFrom_map Ev.usbl _ _ (fun _ => rfl) (fun a ha => mem_took (time := KUsbl.time) ha) _ ?_
        refine goodFrom_map Ev.depth _ _ (fun _ => rfl) (fun a ha => mem_took (time := KDepth.time) ha) _ ?_
        refine goodFrom_map Ev.dvl _ _ (fun _ => rfl) (fun a ha => mem_took (time := KDvl.time) ha) _ ?_
        exact ih _ _ _
    · exact trivial

private theorem lastFrom_eq (last : Option ℝ) (a : List Ev) :
    lastFrom last a = ((a.filterMap Ev.predict?).getLast?).or last := by
  induction a generalizing last with
  | nil => simp [lastFrom]
  | cons x xs ih =>
    cases x <;> simp only [lastFrom, ih, List.filterMap_cons, Ev.predict?]
    cases hl : (List.filterMap Ev.predict? xs).getLast? with
    | none =>
      rw [List.getLast?_eq_none_iff] at hl
      simp [hl]
    | some y => simp [List.getLast?_cons, hl]

private theorem corrected_of_good (evs : List Ev) (h : goodFrom none evs) : CorrectedAtOwnTime evs := by
  intro pre ev post he hp
  rw [he, goodFrom_append] at h
  have h2 := h.2
  rw [lastFrom_eq, Option.or_none] at h2
  cases ev <;> simp_all [goodFrom, Ev.isPredict]

/-! ### Replaying -/

theorem replay_cons (c : EkfCfg) (e e' : Ekf) (ev : Ev) (evs : List Ev)
    (h : replay c e (ev :: evs) = .ok e') :
    ∃ e1, Ev.apply c e ev = .ok e1 ∧ replay c e1 evs = .ok e' := by
  simp only [replay, List.foldlM_cons, bind, Except.bind] at h
  cases hc : Ev.apply c e ev with
  | error x => rw [hc] at h; cases h
  | ok e1 => rw [hc] at h; exact ⟨e1, rfl, h⟩

theorem replay_nil (c : EkfCfg) (e e' : Ekf) (h : replay c e [] = .ok e') : e' = e := by
  simp only [replay, List.foldlM_nil, pure, Except.pure] at h
  injection h with h
  exact h.symm

theorem apply_cases (c : EkfCfg) (e : Ekf) (ev : Ev) :
    (∃ t, ev = .predict t) ∨ (ev.predict? = none ∧ ∃ m, Ev.apply c e ev = e.correct m ∧
      DiagonalNoise m ∧ m.type = (match ev with
        | .orient _ => "orientation" | .usbl _ => "USBL" | .depth _ => "depth"
        | .dvl _ => "DVL" | .predict _ => "")) := by
  have hd := C29_built_diagonal c.std e.rpyDeg
  cases ev with
  | predict t => exact Or.inl ⟨t, rfl⟩
  | orient o => exact Or.inr ⟨rfl, _, rfl, (hd c.usblToDvl).2.2.2 o, rfl⟩
  | usbl o => exact Or.inr ⟨rfl, _, rfl, (hd c.usblToDvl).2.1 o, rfl⟩
  | depth o => exact Or.inr ⟨rfl, _, rfl, (hd c.depthToDvl).1 o, rfl⟩
  | dvl o => exact Or.inr ⟨rfl, _, rfl, (hd c.depthToDvl).2.2.1 o, rfl⟩

private theorem replay_times (c : EkfCfg) (e e' : Ekf) (evs : List Ev) (h : replay c e evs = .ok e') :
    e'.hist.map (·.time) = e.hist.map (·.time) ++ evs.filterMap Ev.predict? := by
  induction evs generalizing e with
  | nil => rw [replay_nil c e e' h]; simp
  | cons ev evs ih =>
    obtain ⟨e1, h1, h2⟩ := replay_cons c e e' ev evs h
    rw [ih e1 h2]
    rcases apply_cases c e ev with ⟨t, rfl⟩ | ⟨hp, m, hm, _⟩
    · obtain ⟨_, s, hs, ht, _⟩ := C31_predict e e1 t _ h1
      simp [hs, ht, Ev.predict?]
    · rw [hm] at h1
      rw [C32_hist_times e e1 m h1, List.filterMap_cons, hp]

private theorem predict_err (e : Ekf) (t d : ℝ) (x : Err) (h : e.predict t d = .error x) :
    x = .zeroDivision := by
  unfold Ekf.predict at h
  split at h
  · injection h with h; exact h.symm
  · cases h

theorem replay_cov (c : EkfCfg) (e : Ekf) (evs : List Ev) (he : CovOk e) :
    (∀ e', replay c e evs = .ok e' → CovOk e') ∧
    (∀ x, replay c e evs = .error x → x = .zeroDivision) := by
  induction evs generalizing e with
  | nil =>
    refine ⟨fun e' h => by rw [replay_nil c e e' h]; exact he, fun x h => ?_⟩
    simp [replay, pure, Except.pure] at h
  | cons ev evs ih =>
    have step : (∀ e1, Ev.apply c e ev = .ok e1 → CovOk e1) ∧
        (∀ x, Ev.apply c e ev = .error x → x = .zeroDivision) := by
      rcases apply_cases c e ev with ⟨t, rfl⟩ | ⟨hp, m, hm, hd, _⟩
      · exact ⟨fun e1 h1 => C29_predict e e1 t _ he h1, fun x hx => predict_err _ _ _ _ hx⟩
      · obtain ⟨e1, h1, h2⟩ := C29_correct e m he hd
        rw [hm, h1]
        refine ⟨fun e2 h => ?_, fun x hx => by cases hx⟩
        injection h with h
        subst h; exact h2
    cases hc : Ev.apply c e ev with
    | error x =>
      have hr : replay c e (ev :: evs) = .error x := by
        simp [replay, List.foldlM_cons, bind, Except.bind, hc]
      refine ⟨fun e' h => (by rw [hr] at h; cases h), fun y h => ?_⟩
      rw [hr] at h
      injection h with h
      rw [← h]; exact step.2 x hc
    | ok e1 =>
      have hr : replay c e (ev :: evs) = replay c e1 evs := by
        simp [replay, List.foldlM_cons, bind, Except.bind, hc]
      rw [hr]
      exact ih e1 (step.1 e1 hc)

/-! ### C33 -/

private theorem dropWhile_filter {α : Type} (time : α → ℝ) (start : ℝ) (l : List α)
    (h : (l.map time).Pairwise (· ≤ ·)) :
    open Classical in
    l.dropWhile (fun o => decide (time o ≤ start)) = l.filter (fun o => decide (start < time o)) := by
  induction l with
  | nil => rfl
  | cons x xs ih =>
    rw [List.map_cons, List.pairwise_cons] at h
    by_cases hx : time x ≤ start
    · rw [List.dropWhile_cons_of_pos (by simpa using hx), ih h.2,
        List.filter_cons_of_neg (by simpa using hx)]
    · rw [List.dropWhile_cons_of_neg (by simpa using hx), eq_comm, List.filter_eq_self]
      intro y hy
      rcases List.mem_cons.mp hy with rfl | hy
      · simpa using hx
      · simpa using (not_le.mp hx).trans_le (h.1 _ (List.mem_map_of_mem hy))

open Classical in
/-- What is left after everything at or before the start is skipped. -/
noncomputable def afterStart (q : Queues) (start : ℝ) : Queues :=
  ⟨q.orient.filter (fun o => decide (start < o.time)), q.usbl.filter (fun o => decide (start < o.time)),
   q.depth.filter (fun o => decide (start < o.time)), q.dvl.filter (fun o => decide (start < o.time)),
   q.stamps.filter (fun o => decide (start < o))⟩

private theorem skip_eq (q : Queues) (start : ℝ) (h : InOrder q) : q.skip start = afterStart q start := by
  obtain ⟨s1, s2, s3, s4, s5⟩ := h
  simp only [Queues.skip, afterStart, dropWhile_filter KOrient.time start _ s1,
    dropWhile_filter KUsbl.time start _ s2, dropWhile_filter KDepth.time start _ s3,
    dropWhile_filter KDvl.time start _ s4]
  congr 1
  exact dropWhile_filter id start _ (by rwa [List.map_id])

private theorem skip_inOrder (q : Queues) (start : ℝ) (h : InOrder q) : InOrder (afterStart q start) := by
  obtain ⟨s1, s2, s3, s4, s5⟩ := h
  exact ⟨s1.sublist (List.filter_sublist.map _), s2.sublist (List.filter_sublist.map _),
    s3.sublist (List.filter_sublist.map _), s4.sublist (List.filter_sublist.map _),
    s5.sublist List.filter_sublist⟩

private theorem mem_after {q : Queues} {start x : ℝ} :
    x ∈ allTimes (afterStart q start) ↔ x ∈ allTimes q ∧ start < x := by
  simp only [mem_allTimes, afterStart, List.mem_filter, decide_eq_true_eq]
  constructor
  · rintro (⟨o, ⟨a, b⟩, rfl⟩ | ⟨o, ⟨a, b⟩, rfl⟩ | ⟨o, ⟨a, b⟩, rfl⟩ | ⟨o, ⟨a, b⟩, rfl⟩ | ⟨a, b⟩)
    · exact ⟨Or.inl ⟨o, a, rfl⟩, b⟩
    · exact ⟨Or.inr (Or.inl ⟨o, a, rfl⟩), b⟩
    · exact ⟨Or.inr (Or.inr (Or.inl ⟨o, a, rfl⟩)), b⟩
    · exact ⟨Or.inr (Or.inr (Or.inr (Or.inl ⟨o, a, rfl⟩))), b⟩
    · exact ⟨Or.inr (Or.inr (Or.inr (Or.inr a))), b⟩
  · rintro ⟨(⟨o, a, rfl⟩ | ⟨o, a, rfl⟩ | ⟨o, a, rfl⟩ | ⟨o, a, rfl⟩ | a), b⟩
    · exact Or.inl ⟨o, ⟨a, b⟩, rfl⟩
    · exact Or.inr (Or.inl ⟨o, ⟨a, b⟩, rfl⟩)
    · exact Or.inr (Or.inr (Or.inl ⟨o, ⟨a, b⟩, rfl⟩))
    · exact Or.inr (Or.inr (Or.inr (Or.inl ⟨o, ⟨a, b⟩, rfl⟩)))
    · exact Or.inr (Or.inr (Or.inr (Or.inr ⟨a, b⟩)))

/-- `all` is used in order and without omissions up to a remainder that lies at or after
the end time. -/
def UsedUpToEnd {α : Type} (time : α → ℝ) (endT : ℝ) (used all : List α) : Prop :=
  ∃ rest, all = used ++ rest ∧ ∀ x ∈ rest, endT ≤ time x

/-- C33: `run` carries out a sequence of predictions and corrections in which
* corrections happen only at the time of the preceding prediction,
* predictions are in time order, each to one of the requested or measured times after the
  start, and all but the last are before the end time,
* each sensor's measurements after the start are used once each, in order, without
  omission, except for a remainder at or after the end time. -/
theorem C33_schedule (c : EkfCfg) (start : ℝ) (s0 : KVec) (P0 Q : KMat) (thr : ℝ) (q : Queues)
    (h0 : 0 ≤ start) (hq : InOrder q) :
    ∃ evs : List Ev,
      ekfRun c start s0 P0 Q thr q = replay c (Ekf.init start s0 P0 Q thr) evs ∧
      CorrectedAtOwnTime evs ∧
      (evs.filterMap Ev.predict?).Pairwise (· ≤ ·) ∧
      (∀ t ∈ evs.filterMap Ev.predict?, t ∈ allTimes q ∧ start < t) ∧
      (∀ t ∈ (evs.filterMap Ev.predict?).dropLast, t < c.endT) ∧
      (∀ t ∈ allTimes q, start < t → t ≤ c.endT → t ∈ evs.filterMap Ev.predict?) ∧
      UsedUpToEnd KOrient.time c.endT (evs.filterMap Ev.orient?) (afterStart q start).orient ∧
      UsedUpToEnd KUsbl.time c.endT (evs.filterMap Ev.usbl?) (afterStart q start).usbl ∧
      UsedUpToEnd KDepth.time c.endT (evs.filterMap Ev.depth?) (afterStart q start).depth ∧
      UsedUpToEnd KDvl.time c.endT (evs.filterMap Ev.dvl?) (afterStart q start).dvl := by
  have hs := skip_eq q start hq
  have ho := skip_inOrder q start hq
  have hb : ∀ x ∈ allTimes (afterStart q start), (0 : ℝ) ≤ x := fun x hx =>
    h0.trans (mem_after.mp hx).2.le
  refine ⟨sched c.endT ((afterStart q start).size + 1) 0 (afterStart q start), ?_, ?_, ?_⟩
  · rw [ekfRun, hs]
    exact loop_eq c _ 0 _ _ (Nat.lt_succ_self _)
  · exact corrected_of_good _ (goodFrom_sched _ _ _ _ _)
  obtain ⟨h1, h2, h3, h4⟩ := sched_times c.endT _ 0 (afterStart q start) ho (Nat.lt_succ_self _)
  refine ⟨h1, fun t ht => mem_after.mp (h2 t ht), h3, ?_, ?_, ?_, ?_, ?_⟩
  · intro t ht hst hte
    exact h4 (by linarith) t (mem_after.mpr ⟨ht, hst⟩) hte
  · exact sched_kind c.endT KOrient.time Ev.orient? (·.orient) (fun _ _ => rfl) evs_orient
      (fun q x hx => mem_allTimes.mpr (Or.inl ⟨x, hx, rfl⟩)) _ 0 _ ho (Nat.lt_succ_self _) hb
  · exact sched_kind c.endT KUsbl.time Ev.usbl? (·.usbl) (fun _ _ => rfl) evs_usbl
      (fun q x hx => mem_allTimes.mpr (Or.inr (Or.inl ⟨x, hx, rfl⟩))) _ 0 _ ho (Nat.lt_succ_self _) hb
  · exact sched_kind c.endT KDepth.time Ev.depth? (·.depth) (fun _ _ => rfl) evs_depth
      (fun q x hx => mem_allTimes.mpr (Or.inr (Or.inr (Or.inl ⟨x, hx, rfl⟩)))) _ 0 _ ho
      (Nat.lt_succ_self _) hb
  · exact sched_kind c.endT KDvl.time Ev.dvl? (·.dvl) (fun _ _ => rfl) evs_dvl
      (fun q x hx => mem_allTimes.mpr (Or.inr (Or.inr (Or.inr (Or.inl ⟨x, hx, rfl⟩))))) _ 0 _ ho
      (Nat.lt_succ_self _) hb

/-- C33: the recorded states start at the start time, are in time order, and every time
after the start and not after the end, requested or measured, has a state. -/
theorem C33_states (c : EkfCfg) (start : ℝ) (s0 : KVec) (P0 Q : KMat) (thr : ℝ) (q : Queues)
    (h0 : 0 ≤ start) (hq : InOrder q) (e : Ekf) (he : ekfRun c start s0 P0 Q thr q = .ok e) :
    (e.hist.map (·.time)).Pairwise (· ≤ ·) ∧ (e.hist.map (·.time)).head? = some start ∧
    (∀ t ∈ allTimes q, start < t → t ≤ c.endT → ∃ s ∈ e.hist, s.time = t) ∧
    (∀ s ∈ e.hist, s.time = start ∨ s.time ∈ allTimes q ∧ start < s.time) := by
  obtain ⟨evs, h1, _, h2, h3, _, h5, _⟩ := C33_schedule c start s0 P0 Q thr q h0 hq
  rw [h1] at he
  have ht := replay_times c _ e evs he
  simp only [Ekf.init, List.map_cons, List.map_nil, List.singleton_append] at ht
  refine ⟨?_, by rw [ht]; rfl, fun t hm hs hle => ?_, fun s hs => ?_⟩
  · rw [ht, List.pairwise_cons]
    exact ⟨fun t htm => (h3 t htm).2.le, h2⟩
  · have : t ∈ e.hist.map (·.time) := by rw [ht]; exact List.mem_cons_of_mem _ (h5 t hm hs hle)
    simpa using this
  · have : s.time ∈ e.hist.map (·.time) := List.mem_map_of_mem hs
    rw [ht] at this
    rcases List.mem_cons.mp this with h | h
    · exact Or.inl h
    · exact Or.inr (h3 _ h)

/-- C33: if the end time is one of the times to visit, no state is later than it. -/
theorem C33_within_end (c : EkfCfg) (start : ℝ) (s0 : KVec) (P0 Q : KMat) (thr : ℝ) (q : Queues)
    (h0 : 0 ≤ start) (hq : InOrder q) (hlt : start < c.endT) (hend : c.endT ∈ allTimes q) (e : Ekf)
    (he : ekfRun c start s0 P0 Q thr q = .ok e) : ∀ s ∈ e.hist, start ≤ s.time ∧ s.time ≤ c.endT := by
  obtain ⟨evs, h1, _, _, h3, h4, h5, _⟩ := C33_schedule c start s0 P0 Q thr q h0 hq
  rw [h1] at he
  have ht := replay_times c _ e evs he
  simp only [Ekf.init, List.map_cons, List.map_nil, List.singleton_append] at ht
  have hmem := h5 c.endT hend hlt le_rfl
  have hle : ∀ t ∈ evs.filterMap Ev.predict?, t ≤ c.endT := by
    generalize evs.filterMap Ev.predict? = l at hmem h4
    rcases List.eq_nil_or_concat l with rfl | ⟨l', x, rfl⟩
    · simp
    · rw [List.concat_eq_append] at *
      rw [List.dropLast_concat] at h4
      have hx : x = c.endT := by
        rcases List.mem_append.1 hmem with h | h
        · exact absurd (h4 _ h) (lt_irrefl _)
        · exact (List.mem_singleton.1 h).symm
      intro t ht
      rcases List.mem_append.1 ht with h | h
      · exact (h4 _ h).le
      · rw [List.mem_singleton.1 h, hx]
  intro s hs
  have : s.time ∈ e.hist.map (·.time) := List.mem_map_of_mem hs
  rw [ht] at this
  rcases List.mem_cons.1 this with h | h
  · rw [h]; exact ⟨le_rfl, hlt.le⟩
  · exact ⟨(h3 _ h).2.le, hle _ h⟩

/-- C33: the loop terminates: the iteration bound of the model is never the reason to stop,
whatever the lists (in order or not). -/
theorem C33_terminates (c : EkfCfg) (start : ℝ) (s0 : KVec) (P0 Q : KMat) (thr : ℝ) (q : Queues) (k : Nat) :
    ekfRun c start s0 P0 Q thr q =
      ekfLoop c ((q.skip start).size + 1 + k) 0 (q.skip start) (Ekf.init start s0 P0 Q thr) := by
  have key : ∀ (n k : Nat) (cur : ℝ) (q : Queues) (e : Ekf), q.size < n →
      ekfLoop c n cur q e = ekfLoop c (n + k) cur q e := by
    intro n
    induction n with
    | zero => intro k cur q e h; omega
    | succ n ih =>
      intro k cur q e h
      rw [show n + 1 + k = (n + k) + 1 by omega]
      unfold ekfLoop
      split_ifs
      · cases hx : q.next with
        | none => rfl
        | some t =>
          simp only [ekfIter_eq, bind, Except.bind]
          cases replay c e (iterEvs t q) with
          | error x => rfl
          | ok e' =>
            simp only [Except.map]
            exact ih k t _ e' (by have := size_rest hx; omega)
      · rfl
  exact key _ k 0 _ _ (Nat.lt_succ_self _)

/-- Non-vacuity: two depths, one of them before the start, and a camera time. -/
example : InOrder ⟨[], [], [⟨1, 10, 0⟩, ⟨3, 11, 0⟩], [], [2]⟩ ∧
    (2 : ℝ) ∈ allTimes ⟨[], [], [⟨1, 10, 0⟩, ⟨3, 11, 0⟩], [], [2]⟩ := by
  constructor
  · simp [InOrder]
  · simp [allTimes]

/-! ### Whole runs -/

/-- C29: in any run from a covariance with a process noise covariance, every recorded state
has a covariance; a run can only fail by a pitch of exactly ±90°, never by a singular
innovation covariance. -/
theorem C29_run (c : EkfCfg) (start : ℝ) (s0 : KVec) (P0 Q : KMat) (thr : ℝ) (q : Queues)
    (hP : IsCov P0) (hQ : IsCov Q) :
    (∀ e, ekfRun c start s0 P0 Q thr q = .ok e → ∀ s ∈ e.hist, IsCov s.cov) ∧
    (∀ x, ekfRun c start s0 P0 Q thr q = .error x → x = .zeroDivision) := by
  have hi : CovOk (Ekf.init start s0 P0 Q thr) :=
    ⟨hP, hQ, fun s hs => by rw [List.mem_singleton.mp hs]; exact hP⟩
  have := replay_cov c _ (sched c.endT ((q.skip start).size + 1) 0 (q.skip start)) hi
  rw [← loop_eq c _ 0 _ _ (Nat.lt_succ_self _)] at this
  exact ⟨fun e he => (this.1 e he).2.2, this.2⟩

private theorem replay_angles (c : EkfCfg) (e e' : Ekf) (evs : List Ev) (h : replay c e evs = .ok e')
    (first : EState) (rest : List EState) (hh : e.hist = first :: rest)
    (hr : ∀ s ∈ rest, AnglesWrapped s.state)
    (hev : rest = [] → ∃ t es, evs = .predict t :: es) :
    ∃ rest', e'.hist = first :: rest' ∧ ∀ s ∈ rest', AnglesWrapped s.state := by
  induction evs generalizing e rest with
  | nil => rw [replay_nil c e e' h]; exact ⟨rest, hh, hr⟩
  | cons ev evs ih =>
    obtain ⟨e1, h1, h2⟩ := replay_cons c e e' ev evs h
    rcases apply_cases c e ev with ⟨t, rfl⟩ | ⟨hp, m, hm, _⟩
    · obtain ⟨hw, s, hs, _, hst⟩ := C31_predict e e1 t _ h1
      refine ih e1 h2 (rest ++ [s]) (by rw [hs, hh]; rfl) ?_ (by simp)
      intro x hx
      rcases List.mem_append.mp hx with hx | hx
      · exact hr x hx
      · rw [List.mem_singleton.mp hx, hst]; exact hw
    · have hne : rest ≠ [] := by
        intro hn
        obtain ⟨t, es, he⟩ := hev hn
        injection he with he _
        rw [he] at hp
        cases hp
      rw [hm] at h1
      rcases C31_correct e e1 m h1 with ⟨_, hk⟩ | ⟨hw, hk⟩
      · exact ih e1 h2 rest (by rw [hk, hh]) hr (fun hn => absurd hn hne)
      · obtain ⟨pre, last, hpl⟩ := List.eq_nil_or_concat rest |>.resolve_left hne
        rw [List.concat_eq_append] at hpl
        have := hk (first :: pre) last (by rw [hh, hpl]; rfl)
        refine ih e1 h2 (pre ++ [⟨last.time, e1.state, e1.cov⟩]) (by rw [this]; rfl) ?_ (by simp)
        intro x hx
        rcases List.mem_append.mp hx with hx | hx
        · exact hr x (by rw [hpl]; simp [hx])
        · rw [List.mem_singleton.mp hx]; exact hw

private theorem sched_head (endT : ℝ) (n : Nat) (cur : ℝ) (q : Queues) :
    sched endT n cur q = [] ∨ ∃ t es, sched endT n cur q = .predict t :: es := by
  cases n with
  | zero => exact Or.inl rfl
  | succ n =>
    unfold sched
    split_ifs
    · split
      · exact Or.inl rfl
      · exact Or.inr ⟨_, _, rfl⟩
    · exact Or.inl rfl

/-- C31 for a run: every state after the first has its angles in `[-π, π]`.  (The first
state is the initial state, whose angles are used as they are, see
`C31_initial_state_false`; smoothed states are not wrapped, see `C31_smoothed_false`.) -/
theorem C31_run_partial (c : EkfCfg) (start : ℝ) (s0 : KVec) (P0 Q : KMat) (thr : ℝ) (q : Queues)
    (e : Ekf) (he : ekfRun c start s0 P0 Q thr q = .ok e) :
    ∃ rest, e.hist = ⟨start, s0, P0⟩ :: rest ∧ ∀ s ∈ rest, AnglesWrapped s.state := by
  rw [ekfRun, loop_eq c _ 0 _ _ (Nat.lt_succ_self _)] at he
  rcases sched_head c.endT ((q.skip start).size + 1) 0 (q.skip start) with hn | ⟨t, es, hs⟩
  · rw [hn] at he
    rw [replay_nil c _ e he]
    exact ⟨[], rfl, by simp⟩
  · exact replay_angles c _ e _ he ⟨start, s0, P0⟩ [] rfl (by simp) (fun _ => ⟨t, es, hs⟩)

private theorem replay_report (c : EkfCfg) (start : ℝ) (s0 : KVec) (P0 Q : KMat) (thr : ℝ)
    (evs : List Ev) (e : Ekf) (he : replay c (Ekf.init start s0 P0 Q thr) evs = .ok e) :
    ReportOk e ∧
    ((e.reports "orientation").getD {}).total = (evs.filterMap Ev.orient?).length ∧
    ((e.reports "USBL").getD {}).total = (evs.filterMap Ev.usbl?).length ∧
    ((e.reports "depth").getD {}).total = (evs.filterMap Ev.depth?).length ∧
    ((e.reports "DVL").getD {}).total = (evs.filterMap Ev.dvl?).length := by
  have key : ∀ (evs : List Ev) (e e' : Ekf), replay c e evs = .ok e' → ReportOk e →
      ReportOk e' ∧
      ((e'.reports "orientation").getD {}).total =
        ((e.reports "orientation").getD {}).total + (evs.filterMap Ev.orient?).length ∧
      ((e'.reports "USBL").getD {}).total =
        ((e.reports "USBL").getD {}).total + (evs.filterMap Ev.usbl?).length ∧
      ((e'.reports "depth").getD {}).total =
        ((e.reports "depth").getD {}).total + (evs.filterMap Ev.depth?).length ∧
      ((e'.reports "DVL").getD {}).total =
        ((e.reports "DVL").getD {}).total + (evs.filterMap Ev.dvl?).length := by
    intro evs
    induction evs with
    | nil => intro e e' h hr; rw [replay_nil c e e' h]; simp [hr]
    | cons ev evs ih =>
      intro e e' h hr
      obtain ⟨e1, h1, h2⟩ := replay_cons c e e' ev evs h
      rcases apply_cases c e ev with ⟨t, rfl⟩ | ⟨hp, m, hm, _, hty⟩
      · have hk : e1.reports = e.reports ∧ e1.rejected = e.rejected := by
          simp only [Ev.apply, Ekf.predict] at h1
          split at h1
          · cases h1
          · injection h1 with h1; subst h1; exact ⟨rfl, rfl⟩
        have hr1 : ReportOk e1 := by simpa only [ReportOk, hk.1, hk.2] using hr
        have := ih e1 e' h2 hr1
        simpa only [List.filterMap_cons, Ev.orient?, Ev.usbl?, Ev.depth?, Ev.dvl?, hk.1] using this
      · rw [hm] at h1
        obtain ⟨r1, r2⟩ := report_step e e1 m h1 hr
        obtain ⟨a0, a1, a2, a3, a4⟩ := ih e1 e' h2 r1
        refine ⟨a0, ?_⟩
        rw [a1, a2, a3, a4, r2, r2, r2, r2]
        cases ev with
        | predict t => cases hp
        | orient o => simp at hty; simp [hty, List.filterMap_cons, Ev.orient?, Ev.usbl?, Ev.depth?, Ev.dvl?]; omega
        | usbl o => simp at hty; simp [hty, List.filterMap_cons, Ev.orient?, Ev.usbl?, Ev.depth?, Ev.dvl?]; omega
        | depth o => simp at hty; simp [hty, List.filterMap_cons, Ev.orient?, Ev.usbl?, Ev.depth?, Ev.dvl?]; omega
        | dvl o => simp at hty; simp [hty, List.filterMap_cons, Ev.orient?, Ev.usbl?, Ev.depth?, Ev.dvl?]; omega
  have := key evs _ e he (by intro k; simp [Ekf.init])
  simpa [Ekf.init] using this

private theorem correct_count (e e1 : Ekf) (m : KMeas) (h : e.correct m = .ok e1)
    (hty : m.type = "orientation" ∨ m.type = "USBL" ∨ m.type = "depth" ∨ m.type = "DVL")
    (he : e.nExceeded = ((e.reports "orientation").getD {}).dropped + ((e.reports "USBL").getD {}).dropped + ((e.reports "depth").getD {}).dropped +
      ((e.reports "DVL").getD {}).dropped) :
    e1.nExceeded = ((e1.reports "orientation").getD {}).dropped + ((e1.reports "USBL").getD {}).dropped + ((e1.reports "depth").getD {}).dropped +
      ((e1.reports "DVL").getD {}).dropped := by
  obtain ⟨h1, h1', h2⟩ := C32_report e e1 m h
  rcases lt_or_ge (mahalanobisSq e m) (e.thr ^ 2) with hd | hd
  · have hn := (C32_accepted e e1 m h hd).2.2.2.2.1
    have h1 := h1 hd
    rw [hn, he]
    rcases hty with hty | hty | hty | hty <;> rw [hty] at h1 h2 <;> rw [h1] <;>
      simp [h2, MReport.add]
  · have hn := (C32_rejected e e1 m h hd).2.2.2.2.1
    have h1 := h1' hd
    rw [hn, he]
    rcases hty with hty | hty | hty | hty <;> rw [hty] at h1 h2 <;> rw [h1] <;>
      simp [h2, MReport.add] <;> omega

/-- C34 for a run: the number of measurements beyond the threshold that is printed at the end is the number of dropped measurements of all sensors. -/
theorem C34_exceeded (c : EkfCfg) (start : ℝ) (s0 : KVec) (P0 Q : KMat) (thr : ℝ) (q : Queues) (e : Ekf)
    (he : ekfRun c start s0 P0 Q thr q = .ok e) :
    e.nExceeded = ((e.reports "orientation").getD {}).dropped + ((e.reports "USBL").getD {}).dropped + ((e.reports "depth").getD {}).dropped +
      ((e.reports "DVL").getD {}).dropped := by
  have key : ∀ (evs : List Ev) (e e' : Ekf), replay c e evs = .ok e' →
      e.nExceeded = ((e.reports "orientation").getD {}).dropped + ((e.reports "USBL").getD {}).dropped + ((e.reports "depth").getD {}).dropped +
        ((e.reports "DVL").getD {}).dropped →
      e'.nExceeded = ((e'.reports "orientation").getD {}).dropped + ((e'.reports "USBL").getD {}).dropped + ((e'.reports "depth").getD {}).dropped +
        ((e'.reports "DVL").getD {}).dropped := by
    intro evs
    induction evs with
    | nil => intro e e' h hr; rw [replay_nil c e e' h]; exact hr
    | cons ev evs ih =>
      intro e e' h hr
      obtain ⟨e1, h1, h2⟩ := replay_cons c e e' ev evs h
      refine ih e1 e' h2 ?_
      cases ev with
      | predict t =>
        simp only [Ev.apply, Ekf.predict] at h1
        split at h1
        · cases h1
        · injection h1 with h1; subst h1; exact hr
      | orient o => exact correct_count e e1 _ h1 (.inl rfl) hr
      | usbl o => exact correct_count e e1 _ h1 (.inr (.inl rfl)) hr
      | depth o => exact correct_count e e1 _ h1 (.inr (.inr (.inl rfl))) hr
      | dvl o => exact correct_count e e1 _ h1 (.inr (.inr (.inr rfl))) hr
  rw [ekfRun, loop_eq c _ 0 _ _ (Nat.lt_succ_self _)] at he
  exact key _ _ e he rfl

/-- C34 for a run: total = valid + dropped, dropped = number of rejected measurements
recorded, and the total is the number of measurements offered: the first `n` after the
start, the others being at or after the end time. -/
theorem C34_run (c : EkfCfg) (start : ℝ) (s0 : KVec) (P0 Q : KMat) (thr : ℝ) (q : Queues)
    (h0 : 0 ≤ start) (hq : InOrder q) (e : Ekf) (he : ekfRun c start s0 P0 Q thr q = .ok e) :
    ReportOk e ∧
    (∃ used, UsedUpToEnd KOrient.time c.endT used (afterStart q start).orient ∧
      ((e.reports "orientation").getD {}).total = used.length) ∧
    (∃ used, UsedUpToEnd KUsbl.time c.endT used (afterStart q start).usbl ∧
      ((e.reports "USBL").getD {}).total = used.length) ∧
    (∃ used, UsedUpToEnd KDepth.time c.endT used (afterStart q start).depth ∧
      ((e.reports "depth").getD {}).total = used.length) ∧
    (∃ used, UsedUpToEnd KDvl.time c.endT used (afterStart q start).dvl ∧
      ((e.reports "DVL").getD {}).total = used.length) := by
  obtain ⟨evs, h1, _, _, _, _, _, u1, u2, u3, u4⟩ := C33_schedule c start s0 P0 Q thr q h0 hq
  rw [h1] at he
  obtain ⟨r0, r1, r2, r3, r4⟩ := replay_report c start s0 P0 Q thr evs e he
  exact ⟨r0, ⟨_, u1, r1⟩, ⟨_, u2, r2⟩, ⟨_, u3, r3⟩, ⟨_, u4, r4⟩⟩

end Oplab.Props
