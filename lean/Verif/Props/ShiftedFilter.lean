import Verif.Spec.ShiftedFilter
import Verif.Model.Ekf
import Mathlib.Tactic.NormNum
import Mathlib.Tactic.Ring
import Mathlib.Tactic.Linarith

/-! # C277: shifted and delayed dives in the Kalman filter -/

namespace Oplab.Props
open Oplab Oplab.Spec Matrix

section
variable (d : Shift)

/-- The shift of a state. -/
private def by' : KVec := fun i => if i = 0 then d.north else if i = 1 then d.east else if i = 2 then d.down else 0

private theorem place_add (s : KVec) : d.place s = s + by' d := by
  funext i
  simp only [Shift.place, by', Pi.add_apply]
  split_ifs <;> simp

private theorem by_high (i : Ix) (h : i ≠ 0 ∧ i ≠ 1 ∧ i ≠ 2) : by' d i = 0 := by
  simp [by', h.1, h.2.1, h.2.2]

private theorem assign_col (j : Ix) (i : Ix) : ∀ (l : List (Ix × Ix × ℝ)) (M : KMat), (∀ e ∈ l, e.2.1 ≠ j) → assign M l i j = M i j
  | [], M, _ => rfl
  | e :: l, M, h => by
    have := assign_col j i l (fun a b => if a = e.1 ∧ b = e.2.1 then e.2.2 else M a b) fun x hx => h x (List.mem_cons_of_mem _ hx)
    have hne := h e List.mem_cons_self
    have h2 : assign M (e :: l) i j = assign (fun a b => if a = e.1 ∧ b = e.2.1 then e.2.2 else M a b) l i j := rfl
    rw [h2, this]
    exact if_neg fun hc => hne hc.2.symm

private theorem transfer_place (δ : ℝ) (s : KVec) : transferFunction δ (d.place s) = transferFunction δ s := rfl

private theorem jacobian_place (δ : ℝ) (s : KVec) (f : KMat) : transferJacobian δ (d.place s) f = transferJacobian δ s f := rfl

private theorem transfer_by (δ : ℝ) (s : KVec) : transferFunction δ s *ᵥ by' d = by' d := by
  have key : ∀ j i, by' d j ≠ 0 → transferFunction δ s i j = (1 : KMat) i j := by
    intro j i hj
    have hj' : j = 0 ∨ j = 1 ∨ j = 2 := by
      by_contra hc
      push Not at hc
      exact hj (by_high d j hc)
    unfold transferFunction
    apply assign_col
    intro e he
    simp only [List.mem_cons, List.not_mem_nil, or_false] at he
    rcases hj' with rfl | rfl | rfl <;> rcases he with h | h | h | h | h | h | h | h | h | h | h | h | h | h | h | h <;> subst h <;> dsimp only <;> decide
  have : transferFunction δ s *ᵥ by' d = (1 : KMat) *ᵥ by' d := by
    funext i
    simp only [mulVec, dotProduct]
    apply Finset.sum_congr rfl
    intro j _
    by_cases hj : by' d j = 0
    · rw [hj, mul_zero, mul_zero]
    · rw [key j i hj]
  rw [this, one_mulVec]

private theorem wrap_place (s : KVec) : wrapState (s + by' d) = wrapState s + by' d := by
  funext i
  simp only [wrapState, Pi.add_apply]
  split_ifs with h
  · have : by' d i = 0 := by apply by_high; rcases h with rfl | rfl | rfl <;> decide
    rw [this]; simp
  · rfl

private theorem predict_shift (e : Ekf) (t δ : ℝ) : (d.filter e).predict (t + d.delay) δ = (e.predict t δ).map d.filter := by
  unfold Ekf.predict
  have hp : (d.filter e).state Ix.PITCH = e.state Ix.PITCH := rfl
  rw [hp]
  by_cases h : Real.cos (e.state Ix.PITCH) = 0
  · rw [if_pos h, if_pos h]; rfl
  · rw [if_neg h, if_neg h]
    have hs : wrapState (transferFunction δ e.state *ᵥ d.place e.state) = d.place (wrapState (transferFunction δ e.state *ᵥ e.state)) := by
      rw [place_add, place_add, mulVec_add, transfer_by, wrap_place]
    simp only [Shift.filter, transfer_place, jacobian_place, hs, Except.map, List.map_append, List.map_cons, List.map_nil, Shift.estimate]

/-! ## Corrections, with the measured entries given -/

private noncomputable def rOf (ix : List Ix) (cov : KMat) : Matrix (Fin ix.length) (Fin ix.length) ℝ :=
  fun i j =>
    let c := cov (ix.get i) (ix.get j)
    if i = j then
      let c := if c < 0 then |c| else c
      if c < 1 / 10 ^ 9 then 1 / 10 ^ 9 else c
    else c

private def hOf (ix : List Ix) : Matrix (Fin ix.length) Ix ℝ := fun i j => if j = ix.get i then 1 else 0

private noncomputable def innOf (ix : List Ix) (v : Ix → Option ℝ) (s : KVec) : Fin ix.length → ℝ :=
  fun i => wrapInnovation (ix.get i) ((v (ix.get i)).getD 0 - s (ix.get i))

private noncomputable def sOf (ix : List Ix) (cov P : KMat) : Matrix (Fin ix.length) (Fin ix.length) ℝ := hOf ix * (P * (hOf ix)ᵀ) + rOf ix cov

private noncomputable def gainOf (ix : List Ix) (cov P : KMat) : Matrix Ix (Fin ix.length) ℝ := (P * (hOf ix)ᵀ) * (sOf ix cov P)⁻¹

private noncomputable def detOf (ix : List Ix) (cov P : KMat) : ℝ := (sOf ix cov P).det

private noncomputable def distOf (ix : List Ix) (v : Ix → Option ℝ) (cov : KMat) (s : KVec) (P : KMat) : ℝ := innOf ix v s ⬝ᵥ ((sOf ix cov P)⁻¹ *ᵥ innOf ix v s)

private noncomputable def stepOf (ix : List Ix) (v : Ix → Option ℝ) (cov : KMat) (s : KVec) (P : KMat) : KVec := gainOf ix cov P *ᵥ innOf ix v s

private noncomputable def covOf (ix : List Ix) (cov P : KMat) : KMat :=
  (1 - gainOf ix cov P * hOf ix) * P * (1 - gainOf ix cov P * hOf ix)ᵀ + gainOf ix cov P * rOf ix cov * (gainOf ix cov P)ᵀ

private theorem accept_of (e : Ekf) (m : KMeas) : e.accept m =
    { e with state := wrapState (e.state + stepOf m.indices m.value m.cov e.state e.cov), cov := covOf m.indices m.cov e.cov, lastT := m.time
             hist := setLast e.hist (wrapState (e.state + stepOf m.indices m.value m.cov e.state e.cov)) (covOf m.indices m.cov e.cov) } := rfl

/-- A measurement and that of the shifted dive. -/
private structure MeasLike (m m' : KMeas) : Prop where
  cov : m'.cov = m.cov
  upd : m'.upd = m.upd
  some : ∀ i, (m'.value i).isSome = (m.value i).isSome
  value : ∀ i, m.upd i = true → (m'.value i).getD 0 = (m.value i).getD 0 + by' d i
  time : m'.time = m.time + d.delay
  type : m'.type = m.type

private theorem inn_like {m m' : KMeas} (h : MeasLike d m m') (s : KVec) : innOf m.indices m'.value (s + by' d) = innOf m.indices m.value s := by
  funext i
  have hu : m.upd (m.indices.get i) = true := by
    have := List.mem_filter.1 (List.get_mem m.indices i)
    simp only [Bool.and_eq_true] at this
    exact this.2.1
  simp only [innOf, h.value _ hu, Pi.add_apply, add_sub_add_right_eq_sub]

private theorem setLast_map (h : List EState) (s : KVec) (P : KMat) : setLast (h.map d.estimate) (d.place s) P = (setLast h s P).map d.estimate := by
  unfold setLast
  rw [List.getLast?_map]
  cases h.getLast? with
  | none => rfl
  | some l => simp [Shift.estimate, List.map_dropLast]

private theorem correct_shift {m m' : KMeas} (h : MeasLike d m m') (e : Ekf) : (d.filter e).correct m' = (e.correct m).map d.filter := by
  have hi : m'.indices = m.indices := by
    simp only [KMeas.indices, h.upd, h.some]
  have hd : (m'.S (d.filter e).cov).det = (m.S e.cov).det := by
    change detOf m'.indices m'.cov e.cov = detOf m.indices m.cov e.cov
    rw [hi, h.cov]
  have hq : m'.dist2 (d.filter e).state (d.filter e).cov = m.dist2 e.state e.cov := by
    change distOf m'.indices m'.value m'.cov (d.place e.state) e.cov = distOf m.indices m.value m.cov e.state e.cov
    rw [hi, h.cov, place_add, distOf, inn_like d h, distOf]
  have hs : stepOf m'.indices m'.value m'.cov (d.place e.state) e.cov = stepOf m.indices m.value m.cov e.state e.cov := by
    rw [hi, h.cov, place_add, stepOf, inn_like d h, stepOf]
  have hc : covOf m'.indices m'.cov e.cov = covOf m.indices m.cov e.cov := by rw [hi, h.cov]
  unfold Ekf.correct
  rw [hd]
  by_cases hz : (m.S e.cov).det = 0
  · rw [if_pos hz, if_pos hz]; rfl
  · rw [if_neg hz, if_neg hz]
    have ht : (d.filter e).thr = e.thr := rfl
    rw [hq, ht]
    simp only [Except.map, Except.ok.injEq]
    by_cases hx : m.dist2 e.state e.cov ≥ e.thr ^ 2
    · simp only [hx, decide_true, if_true, Ekf.reject, Shift.filter, h.type, h.time]
      congr 1
      funext k
      split_ifs
      · cases e.rejected k <;> simp
      · rfl
    · simp only [hx, decide_false, Bool.false_eq_true, if_false, accept_of]
      have hw : wrapState (d.place e.state + stepOf m.indices m.value m.cov e.state e.cov) =
          d.place (wrapState (e.state + stepOf m.indices m.value m.cov e.state e.cov)) := by
        rw [place_add, place_add, add_right_comm, wrap_place]
      simp only [Shift.filter, h.type, h.time, hs, hc, hw, setLast_map]

/-! ## Measurements -/

private theorem mk_like (t : ℝ) (ty : String) (l l' : List (Ix × ℝ × ℝ)) (hl : List.Forall₂ (fun a b => b.1 = a.1 ∧ b.2.1 = a.2.1 + by' d a.1 ∧ b.2.2 = a.2.2) l l') :
    MeasLike d (mkMeas t ty l) (mkMeas (t + d.delay) ty l') := by
  have hf : ∀ i, (l'.find? fun e => e.1 = i) = (l.find? fun e => e.1 = i).map fun e => (e.1, e.2.1 + by' d e.1, e.2.2) := by
    intro i
    induction hl with
    | nil => rfl
    | @cons a b l l' h _ ih =>
      rw [List.find?_cons, List.find?_cons, ih, h.1]
      by_cases hi : a.1 = i
      · simp only [hi, decide_true, Option.map_some]
        have : b = (i, a.2.1 + by' d i, a.2.2) := by
          rw [← hi, ← h.1]; rw [h.1]; exact Prod.ext h.1 (Prod.ext h.2.1 h.2.2)
        rw [this]
      · simp only [hi, decide_false]
  have ha : ∀ i, (l'.any fun e => e.1 = i) = l.any fun e => e.1 = i := by
    clear hf
    intro i
    induction hl with
    | nil => rfl
    | @cons a b l l' h _ ih => rw [List.any_cons, List.any_cons, h.1, ih]
  refine ⟨?_, ?_, ?_, ?_, rfl, rfl⟩
  · funext i j
    simp only [mkMeas, hf]
    cases l.find? fun e => e.1 = i <;> rfl
  · funext i
    simp only [mkMeas, ha]
  · intro i
    simp only [mkMeas, hf]
    cases l.find? fun e => e.1 = i <;> rfl
  · intro i hu
    simp only [mkMeas, hf] at hu ⊢
    cases hc : l.find? fun e => e.1 = i with
    | none =>
      rw [List.find?_eq_none] at hc
      rw [List.any_eq_true] at hu
      obtain ⟨x, hx, hxe⟩ := hu
      exact absurd hxe (hc x hx)
    | some x =>
      have : x.1 = i := by simpa using List.find?_some hc
      simp [this]

private theorem same_list (l : List (Ix × ℝ × ℝ)) (h : ∀ x ∈ l, by' d x.1 = 0) :
    List.Forall₂ (fun a b => b.1 = a.1 ∧ b.2.1 = a.2.1 + by' d a.1 ∧ b.2.2 = a.2.2) l l :=
  List.forall₂_same.2 fun x hx => ⟨rfl, by rw [h x hx, add_zero], rfl⟩

private theorem orient_like (c : EkfStd) (o : KOrient) : MeasLike d (fromOrientation c o) (fromOrientation c (d.orient o)) := by
  unfold fromOrientation
  refine mk_like d _ _ _ _ ?_
  have e3 := by_high d Ix.ROLL (by decide)
  have e4 := by_high d Ix.PITCH (by decide)
  have e5 := by_high d Ix.YAW (by decide)
  exact same_list d _ (by split_ifs <;> simp [e3, e4, e5])

private theorem usbl_like (c : EkfStd) (u : KUsbl) (rpy off : V3 ℝ) (hu : 0 < u.northStd) : MeasLike d (fromUsbl c u rpy off) (fromUsbl c (d.usbl u) rpy off) := by
  unfold fromUsbl
  refine mk_like d _ _ _ _ ?_
  simp only [Shift.usbl, if_pos hu, gt_iff_lt]
  refine .cons ⟨rfl, ?_, rfl⟩ (.cons ⟨rfl, ?_, rfl⟩ .nil)
  · simp [by']; ring
  · simp [by']; ring

private theorem depth_like (c : EkfStd) (x : KDepth) (rpy off : V3 ℝ) (hx : 0 < x.std ∨ d.down = 0) : MeasLike d (fromDepth c x rpy off) (fromDepth c (d.depth x) rpy off) := by
  unfold fromDepth
  refine mk_like d _ _ _ _ ?_
  refine .cons ⟨rfl, ?_, ?_⟩ .nil
  · have hz : by' d Ix.Z = d.down := rfl
    simp only [Shift.depth, hz]; ring
  · rcases hx with h | h
    · simp [Shift.depth, h]
    · simp [Shift.depth, h]

private theorem dvl_like (c : EkfStd) (v : KDvl) : MeasLike d (fromDvl c v) (fromDvl c (d.dvl v)) := by
  unfold fromDvl
  refine mk_like d _ _ _ _ ?_
  have e3 := by_high d Ix.VX (by decide)
  have e4 := by_high d Ix.VY (by decide)
  have e5 := by_high d Ix.VZ (by decide)
  exact same_list d _ (by split_ifs <;> simp [e3, e4, e5])

/-! ## The run -/

private theorem takeAt_shift {α : Type} (time : α → ℝ) (sh : α → α) (ht : ∀ x, time (sh x) = time x + d.delay) (f f' : Ekf → α → Res Ekf) (t : ℝ) :
    ∀ (l : List α) (e : Ekf), (∀ x ∈ l, ∀ e, f' (d.filter e) (sh x) = (f e x).map d.filter) →
      takeAt time (t + d.delay) f' (l.map sh) (d.filter e) = (takeAt time t f l e).map fun p => (p.1.map sh, d.filter p.2)
  | [], e, _ => rfl
  | x :: l, e, h => by
    rw [List.map_cons, takeAt, takeAt, ht]
    by_cases hx : time x = t
    · rw [if_pos (by rw [hx]), if_pos hx, h x List.mem_cons_self]
      cases f e x <;> rfl
    · rw [if_neg (by simpa using hx), if_neg hx]; rfl

private theorem takeAt_sub {α : Type} (time : α → ℝ) (f : Ekf → α → Res Ekf) (t : ℝ) (l : List α) (e : Ekf) (l' : List α) (e' : Ekf)
    (h : takeAt time t f l e = .ok (l', e')) : ∀ x ∈ l', x ∈ l := by
  cases l with
  | nil => simp only [takeAt, Except.ok.injEq, Prod.mk.injEq] at h; rw [← h.1]; simp
  | cons a l =>
    rw [takeAt] at h
    split_ifs at h
    · cases hf : f e a with
      | error x => rw [hf] at h; cases h
      | ok y =>
        rw [hf] at h
        simp only [Except.map, Except.ok.injEq, Prod.mk.injEq] at h
        rw [← h.1]
        exact fun x hx => List.mem_cons_of_mem _ hx
    · simp only [Except.ok.injEq, Prod.mk.injEq] at h
      rw [← h.1]
      exact fun x hx => hx

private theorem iter_shift (c : EkfCfg) (t : ℝ) (q : Queues) (e : Ekf) (h : WithUncertainties d q) :
    ekfIter (d.settings c) (t + d.delay) (d.measured q) (d.filter e) = (ekfIter c t q e).map fun p => (d.measured p.1, d.filter p.2) := by
  unfold ekfIter
  have hl : (t + d.delay) - (d.filter e).lastT = t - e.lastT := by simp [Shift.filter]
  rw [hl, predict_shift]
  cases e.predict t (t - e.lastT) with
  | error x => rfl
  | ok e =>
    simp only [Except.map, bind, Except.bind, Shift.measured, Shift.settings]
    rw [takeAt_shift d KOrient.time d.orient (fun _ => rfl) (fun e o => e.correct (fromOrientation c.std o)) _ t q.orient e
      (fun x _ e => correct_shift d (orient_like d c.std x) e)]
    cases takeAt KOrient.time t (fun e o => e.correct (fromOrientation c.std o)) q.orient e with
    | error x => rfl
    | ok p =>
      simp only [Except.map]
      rw [takeAt_shift d KUsbl.time d.usbl (fun _ => rfl) (fun e u => e.correct (fromUsbl c.std u e.rpyDeg c.usblToDvl)) _ t q.usbl p.2
        (fun x hx e => correct_shift d (usbl_like d c.std x _ _ (h.1 x hx)) e)]
      cases takeAt KUsbl.time t (fun e u => e.correct (fromUsbl c.std u e.rpyDeg c.usblToDvl)) q.usbl p.2 with
      | error x => rfl
      | ok p' =>
        simp only [Except.map]
        rw [takeAt_shift d KDepth.time d.depth (fun _ => rfl) (fun e x => e.correct (fromDepth c.std x e.rpyDeg c.depthToDvl)) _ t q.depth p'.2
          (fun x hx e => correct_shift d (depth_like d c.std x _ _ (h.2 x hx)) e)]
        cases takeAt KDepth.time t (fun e x => e.correct (fromDepth c.std x e.rpyDeg c.depthToDvl)) q.depth p'.2 with
        | error x => rfl
        | ok p'' =>
          simp only [Except.map]
          rw [takeAt_shift d KDvl.time d.dvl (fun _ => rfl) (fun e v => e.correct (fromDvl c.std v)) _ t q.dvl p''.2
            (fun x _ e => correct_shift d (dvl_like d c.std x) e)]
          cases takeAt KDvl.time t (fun e v => e.correct (fromDvl c.std v)) q.dvl p''.2 with
          | error x => rfl
          | ok r =>
            simp only [Except.map, pure, Except.pure, Except.ok.injEq, Prod.mk.injEq, Queues.mk.injEq, true_and, and_true]
            cases q.stamps with
            | nil => rfl
            | cons s ts =>
              simp only [List.map_cons, add_left_inj]
              split_ifs <;> rfl

private theorem iter_with (c : EkfCfg) (t : ℝ) (q : Queues) (e : Ekf) (q' : Queues) (e' : Ekf) (h : WithUncertainties d q) (hi : ekfIter c t q e = .ok (q', e')) :
    WithUncertainties d q' := by
  unfold ekfIter at hi
  cases h0 : e.predict t (t - e.lastT) with
  | error x => rw [h0] at hi; cases hi
  | ok e =>
    simp only [h0, bind, Except.bind] at hi
    split at hi
    · cases hi
    split at hi
    · cases hi
    rename_i p1 _ _ p2 h2
    split at hi
    · cases hi
    rename_i p3 h3
    split at hi
    · cases hi
    simp only [pure, Except.pure, Except.ok.injEq, Prod.mk.injEq] at hi
    rw [← hi.1]
    exact ⟨fun u hu => h.1 u (takeAt_sub _ _ _ _ _ _ _ h2 u hu), fun x hx => h.2 x (takeAt_sub _ _ _ _ _ _ _ h3 x hx)⟩

private theorem next_shift (q : Queues) : (d.measured q).next = q.next.map (· + d.delay) := by
  have hmin : ∀ l : List ℝ, (l.map (· + d.delay)).min? = l.min?.map (· + d.delay) := by
    intro l
    cases l with
    | nil => rfl
    | cons a l =>
      rw [List.map_cons, List.min?_cons', List.min?_cons', Option.map_some, Option.some.injEq]
      induction l generalizing a with
      | nil => rfl
      | cons b l ih => rw [List.map_cons, List.foldl_cons, List.foldl_cons, ← ih, min_add_add_right]
  unfold Queues.next
  rw [← hmin]
  congr 1
  simp only [Shift.measured, List.head?_map]
  cases q.usbl.head? <;> cases q.depth.head? <;> cases q.orient.head? <;> cases q.dvl.head? <;> cases q.stamps.head? <;> rfl

private theorem loop_shift (c : EkfCfg) : ∀ (n : ℕ) (cur cur' : ℝ) (q : Queues) (e : Ekf), WithUncertainties d q → (cur' < c.endT + d.delay ↔ cur < c.endT) →
    ekfLoop (d.settings c) n cur' (d.measured q) (d.filter e) = (ekfLoop c n cur q e).map d.filter
  | 0, _, _, _, _, _, _ => rfl
  | n + 1, cur, cur', q, e, h, hc => by
    rw [ekfLoop, ekfLoop]
    by_cases hx : cur < c.endT
    · rw [if_pos hx, if_pos (show cur' < (d.settings c).endT from hc.2 hx), next_shift]
      cases q.next with
      | none => rfl
      | some t =>
        simp only [Option.map_some]
        rw [iter_shift d c t q e h]
        cases hi : ekfIter c t q e with
        | error x => rfl
        | ok p =>
          simp only [Except.map, bind, Except.bind]
          exact loop_shift c n t (t + d.delay) p.1 p.2 (iter_with d c t q e p.1 p.2 h hi) (by rw [add_lt_add_iff_right])
    · rw [if_neg hx, if_neg (show ¬ cur' < (d.settings c).endT from fun h => hx (hc.1 h))]; rfl

private theorem dropWhile_shift {α : Type} (time : α → ℝ) (sh : α → α) (ht : ∀ x, time (sh x) = time x + d.delay) (start : ℝ) (l : List α) :
    (l.map sh).dropWhile (fun o => decide (time o ≤ start + d.delay)) = (l.dropWhile fun o => decide (time o ≤ start)).map sh := by
  rw [List.dropWhile_map]
  congr 2
  funext x
  simp [ht]

open Classical in
private theorem skip_shift (q : Queues) (start : ℝ) : (d.measured q).skip (start + d.delay) = d.measured (q.skip start) := by
  unfold Queues.skip
  have h1 := dropWhile_shift d KOrient.time d.orient (fun _ => rfl) start q.orient
  have h2 := dropWhile_shift d KUsbl.time d.usbl (fun _ => rfl) start q.usbl
  have h3 := dropWhile_shift d KDepth.time d.depth (fun _ => rfl) start q.depth
  have h4 := dropWhile_shift d KDvl.time d.dvl (fun _ => rfl) start q.dvl
  have h5 := dropWhile_shift d (fun x : ℝ => x) (· + d.delay) (fun _ => rfl) start q.stamps
  simp only [Shift.measured, Queues.mk.injEq]
  refine ⟨?_, ?_, ?_, ?_, ?_⟩
  · convert h1
  · convert h2
  · convert h3
  · convert h4
  · convert h5

private theorem size_shift (q : Queues) : (d.measured q).size = q.size := by
  simp [Queues.size, Shift.measured]

/-! ## The smoother -/

private theorem smoothStep_shift (Q : KMat) (first : Bool) (sf s : EState) :
    smoothStep Q first (d.estimate sf) (d.estimate s) = (smoothStep Q first sf s).map d.estimate := by
  unfold smoothStep
  have hp : (d.estimate s).state Ix.PITCH = s.state Ix.PITCH := rfl
  rw [hp]
  by_cases h : Real.cos (s.state Ix.PITCH) = 0
  · rw [if_pos h, if_pos h]; rfl
  · rw [if_neg h, if_neg h]
    have ht : (d.estimate sf).time - (d.estimate s).time = sf.time - s.time := by simp [Shift.estimate]
    simp only [ht]
    have hs : (d.estimate s).state = d.place s.state := rfl
    have hf : (d.estimate sf).state = d.place sf.state := rfl
    have hc : (d.estimate s).cov = s.cov := rfl
    have hcf : (d.estimate sf).cov = sf.cov := rfl
    have hi : d.place sf.state - transferFunction (sf.time - s.time) s.state *ᵥ d.place s.state = sf.state - transferFunction (sf.time - s.time) s.state *ᵥ s.state := by
      rw [place_add, place_add, mulVec_add, transfer_by, add_sub_add_right_eq_sub]
    rw [hs, hf, hc, hcf, transfer_place, jacobian_place, hi]
    split_ifs
    · rfl
    · simp only [Except.map, Shift.estimate, place_add, add_right_comm]

private theorem smoothRev_shift (Q : KMat) : ∀ (l : List EState) (sf : EState),
    smoothRev Q (d.estimate sf) (l.map d.estimate) = (smoothRev Q sf l).map fun r => r.map d.estimate
  | [], sf => rfl
  | s :: l, sf => by
    rw [List.map_cons, smoothRev, smoothRev]
    have : (l.map d.estimate).isEmpty = l.isEmpty := by cases l <;> rfl
    rw [this, smoothStep_shift]
    cases smoothStep Q l.isEmpty sf s with
    | error x => rfl
    | ok s' =>
      simp only [Except.map, bind, Except.bind]
      rw [smoothRev_shift Q l s']
      cases smoothRev Q s' l <;> rfl

end

/-- C277: if a dive is made later and elsewhere, at another depth too, the filter gives the same path there, with the same uncertainties and the same
measurements rejected. Missing: fixes, or depths if these are shifted, without uncertainties. (Times are seconds since 1970; no dive ends before.) -/
theorem C277_filter_partial (d : Shift) (c : EkfCfg) (start : ℝ) (s0 : KVec) (P0 Q : KMat) (thr : ℝ) (q : Queues) (h : WithUncertainties d q)
    (h0 : 0 < c.endT) (h1 : 0 < c.endT + d.delay) :
    ekfRun (d.settings c) (start + d.delay) (d.place s0) P0 Q thr (d.measured q) = (ekfRun c start s0 P0 Q thr q).map d.filter := by
  unfold ekfRun
  rw [skip_shift, size_shift]
  have hi : Ekf.init (start + d.delay) (d.place s0) P0 Q thr = d.filter (Ekf.init start s0 P0 Q thr) := rfl
  rw [hi]
  refine loop_shift d c _ 0 0 _ _ ?_ (by simp [h0, h1])
  exact ⟨fun u hu => h.1 u ((List.dropWhile_suffix _).subset hu), fun x hx => h.2 x ((List.dropWhile_suffix _).subset hx)⟩

/-- C277: so does the smoother. -/
theorem C277_smoother (d : Shift) (Q : KMat) (h : List EState) : smooth Q (h.map d.estimate) = (smooth Q h).map fun r => r.map d.estimate := by
  unfold smooth
  rw [← List.map_reverse]
  match h.reverse with
  | [] => rfl
  | [_] => rfl
  | l :: s :: rest =>
    have := smoothRev_shift d Q (s :: rest) l
    rw [List.map_cons] at this
    simp only [List.map_cons, this, bind, Except.bind]
    cases smoothRev Q l (s :: rest) with
    | error x => rfl
    | ok r => simp [Except.map, pure, Except.pure]

/-- C277 does not hold for fixes without uncertainties: the farther from the reference position, the less they are trusted. -/
theorem C277_fallback_false : ¬ SameUncertainty := by
  intro h
  have := congrFun (congrFun (h ⟨0, 3, 4, 0⟩ ⟨0, 0, ⟨0, 0, 0⟩, ⟨0, 0, 0⟩, 1, 0, 0, 0⟩ ⟨0, 0, 0, 0, 0, 0⟩ ⟨0, 0, 0⟩ ⟨0, 0, 0⟩) 0) 0
  simp [fromUsbl, mkMeas, Shift.usbl, Ix.X] at this
  norm_num at this

/-- A dive with a fix and a depth, shifted by a day and a kilometre. -/
example : let q : Queues := ⟨[⟨100, ⟨0, 1, 90⟩, ⟨1, 1, 1⟩⟩], [⟨101, 3, 4, 20, 5, 5⟩], [⟨101, 20, 1⟩], [⟨101, ⟨1, 0, 0⟩, ⟨1, 1, 1⟩⟩], [102]⟩
    WithUncertainties ⟨86400, 1000, -500, 2⟩ q := by
  simp [WithUncertainties]

end Oplab.Props
