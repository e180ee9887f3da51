import Verif.Props.EkfRun
import Verif.Props.EkfMotion
import Mathlib.Tactic.Module

/-! C68 (smoothed covariances), and the two places where C31 (wrapped angles) fails. -/

namespace Oplab.Props
open Real Matrix Oplab Oplab.Spec Oplab.Ix

variable {n m : Type} [Fintype n] [Fintype m]

private theorem quad_sub (P P' : Matrix n n ℝ) (v : n → ℝ) :
    v ⬝ᵥ ((P - P') *ᵥ v) = v ⬝ᵥ (P *ᵥ v) - v ⬝ᵥ (P' *ᵥ v) := by
  rw [sub_mulVec, dotProduct_sub]

private theorem quad_add (P P' : Matrix n n ℝ) (v : n → ℝ) :
    v ⬝ᵥ ((P + P') *ᵥ v) = v ⬝ᵥ (P *ᵥ v) + v ⬝ᵥ (P' *ᵥ v) := by
  rw [add_mulVec, dotProduct_add]

/-- With the gain `P Aᵀ Pp⁻¹`, where `Pp = A P Aᵀ + N`, the part of the covariance that is
explained by the successor is at most `P`. -/
private theorem schur [DecidableEq n] (P A N : Matrix n n ℝ) (hP : IsCov P) (hN : IsCov N)
    (hd : (A * P * Aᵀ + N).det ≠ 0) (v : n → ℝ) :
    let Pp := A * P * Aᵀ + N
    let J := P * Aᵀ * Pp⁻¹
    v ⬝ᵥ ((J * Pp * Jᵀ) *ᵥ v) ≤ v ⬝ᵥ (P *ᵥ v) := by
  intro Pp J
  have hPp : IsCov Pp := (hP.congr A).add hN
  have hu : IsUnit Pp.det := isUnit_iff_ne_zero.mpr hd
  have hJ : Jᵀ = Pp⁻¹ * (A * P) := by
    simp only [J, transpose_mul, transpose_transpose, transpose_nonsing_inv, hPp.1, hP.1,
      Matrix.mul_assoc]
  set w := Jᵀ *ᵥ v with hw
  have hPw : Pp *ᵥ w = A *ᵥ (P *ᵥ v) := by
    rw [hw, hJ, mulVec_mulVec, ← Matrix.mul_assoc, mul_nonsing_inv _ hu, Matrix.one_mul,
      ← mulVec_mulVec]
  rw [quad_congr]
  have h1 := hP.2 (v - Aᵀ *ᵥ w)
  have h2 := hN.2 w
  have h3 : w ⬝ᵥ (Pp *ᵥ w) = (Aᵀ *ᵥ w) ⬝ᵥ (P *ᵥ (Aᵀ *ᵥ w)) + w ⬝ᵥ (N *ᵥ w) := by
    rw [quad_add, quad_congr]
  have h4 : w ⬝ᵥ (Pp *ᵥ w) = (Aᵀ *ᵥ w) ⬝ᵥ (P *ᵥ v) := by
    rw [hPw, dotProduct_mulVec, ← mulVec_transpose]
  rw [mulVec_sub, dotProduct_sub, sub_dotProduct, sub_dotProduct,
    dotProduct_mulVec_comm hP.1 v (Aᵀ *ᵥ w)] at h1
  linarith

/-- The covariance predicted for the time of `s'` from state `s`. -/
noncomputable def predictedCov (Q : KMat) (s : EState) (t : ℝ) : KMat :=
  let A := transferJacobian (t - s.time) s.state (transferFunction (t - s.time) s.state)
  A * s.cov * Aᵀ + (t - s.time) • Q

/-- Consecutive states of a filter run: not earlier, and no more uncertain than predicted. -/
def Linked (Q : KMat) (s s' : EState) : Prop :=
  s.time ≤ s'.time ∧ CovLe s'.cov (predictedCov Q s s'.time)

/-- `s'` is an admissible smoothed version of `s`. -/
def GoodSmoothed (s' s : EState) : Prop :=
  s'.time = s.time ∧ IsCov s'.cov ∧ CovLe s'.cov s.cov

private theorem covLe_congr {P P' : Matrix n n ℝ} (h : CovLe P P') (J : Matrix m n ℝ) :
    CovLe (J * P * Jᵀ) (J * P' * Jᵀ) := fun v => by
  rw [quad_congr, quad_congr]; exact h _

private theorem step_good (Q : KMat) (hQ : IsCov Q) (sf sF s s' : EState)
    (hs : IsCov s.cov) (hl : Linked Q s sF) (hg : GoodSmoothed sf sF)
    (h : smoothStep Q false sf s = .ok s') : GoodSmoothed s' s := by
  obtain ⟨ht, hle⟩ := hl
  obtain ⟨g1, g2, g3⟩ := hg
  unfold smoothStep at h
  by_cases hc : cos (s.state PITCH) = 0
  · rw [if_pos hc] at h; cases h
  rw [if_neg hc, g1] at h
  simp only at h
  set A := transferJacobian (sF.time - s.time) s.state (transferFunction (sF.time - s.time) s.state)
    with hA
  by_cases hdet : (A * s.cov * Aᵀ + (sF.time - s.time) • Q).det = 0
  · rw [if_pos hdet] at h; cases h
  rw [if_neg hdet] at h
  injection h with h
  subst h
  have hN : IsCov ((sF.time - s.time) • Q) := hQ.smul (by linarith)
  have hsch := schur s.cov A _ hs hN hdet
  have hpc : predictedCov Q s sF.time = A * s.cov * Aᵀ + (sF.time - s.time) • Q := rfl
  rw [hpc] at hle
  simp only [smoothGain, Bool.false_eq_true, if_false]
  set Pp := A * s.cov * Aᵀ + (sF.time - s.time) • Q with hPp
  have hPpc : IsCov Pp := (hs.congr A).add hN
  set J := s.cov * Aᵀ * Pp⁻¹ with hJ
  have hexp : J * (sf.cov - Pp) * Jᵀ = J * sf.cov * Jᵀ - J * Pp * Jᵀ := by
    rw [Matrix.mul_sub, Matrix.sub_mul]
  refine ⟨rfl, ⟨?_, fun v => ?_⟩, fun v => ?_⟩
  · show (s.cov + J * (sf.cov - Pp) * Jᵀ)ᵀ = _
    rw [hexp, transpose_add, transpose_sub, hs.1, (g2.congr J).1, (hPpc.congr J).1]
  · show 0 ≤ v ⬝ᵥ ((s.cov + J * (sf.cov - Pp) * Jᵀ) *ᵥ v)
    have h2 := (g2.congr J).2 v
    have h3 := hsch v
    rw [hexp, quad_add, quad_sub]
    simp only at h3
    linarith
  · show v ⬝ᵥ ((s.cov + J * (sf.cov - Pp) * Jᵀ) *ᵥ v) ≤ v ⬝ᵥ (s.cov *ᵥ v)
    have h2 := covLe_congr (fun v => (g3 v).trans (hle v)) J v
    rw [hexp, quad_add, quad_sub]
    linarith

private theorem rev_good (Q : KMat) (hQ : IsCov Q) (l : List EState) :
    ∀ sf sF r, GoodSmoothed sf sF → (∀ s ∈ l, IsCov s.cov) →
      List.IsChain (fun a b => Linked Q b a) (sF :: l) → smoothRev Q sf l = .ok r →
      r.length = l.length + 1 ∧ r.map (·.time) = (sF :: l).map (·.time) ∧
      (l ≠ [] → List.Forall₂ GoodSmoothed r.dropLast (sF :: l).dropLast) := by
  induction l with
  | nil =>
    intro sf sF r hg _ _ h
    simp only [smoothRev] at h
    injection h with h
    subst h
    exact ⟨rfl, by simp [hg.1], fun h => absurd rfl h⟩
  | cons s rest ih =>
    intro sf sF r hg hc hch h
    simp only [smoothRev, bind, Except.bind] at h
    cases h1 : smoothStep Q rest.isEmpty sf s with
    | error x => rw [h1] at h; cases h
    | ok s' =>
      rw [h1] at h
      simp only at h
      have ht : s'.time = s.time := by
        unfold smoothStep at h1
        split at h1
        · cases h1
        · simp only at h1
          split at h1
          · cases h1
          · injection h1 with h1; rw [← h1]
      cases h2 : smoothRev Q s' rest with
      | error x => rw [h2] at h; cases h
      | ok r' =>
        rw [h2] at h
        simp only [pure, Except.pure] at h
        injection h with h
        subst h
        rw [List.isChain_cons_cons] at hch
        cases rest with
        | nil =>
          simp only [smoothRev] at h2
          injection h2 with h2
          subst h2
          exact ⟨rfl, by simp [ht, hg.1], fun _ => by simpa using hg⟩
        | cons s2 rest2 =>
          have hgs : GoodSmoothed s' s := step_good Q hQ sf sF s s' (hc s (by simp)) hch.1 hg h1
          obtain ⟨a, b, c⟩ := ih s' s r' hgs (fun x hx => hc x (by simp [hx])) hch.2 h2
          refine ⟨by simp [a], by rw [List.map_cons, b, hg.1]; rfl, fun _ => ?_⟩
          have hne : r' ≠ [] := by intro hn; rw [hn] at a; simp at a
          obtain ⟨y, ys, rfl⟩ := List.exists_cons_of_ne_nil hne
          rw [List.dropLast_cons_cons, List.dropLast_cons_cons]
          exact List.Forall₂.cons hg (c (by simp))

/-- C68, on any history a filter can produce (`C68_history`): every smoothed state but the
first keeps its time, has a covariance, and is no more uncertain than the filtered one.
The first state is treated differently, see `C68_first_state_false`. -/
theorem C68_smooth_partial (Q : KMat) (hQ : IsCov Q) (h r : List EState) (h2 : 2 ≤ h.length)
    (hc : ∀ s ∈ h, IsCov s.cov) (hl : List.IsChain (Linked Q) h) (hr : smooth Q h = .ok r) :
    r.map (·.time) = h.map (·.time) ∧ List.Forall₂ GoodSmoothed r.tail h.tail := by
  unfold smooth at hr
  have hch : List.IsChain (fun a b => Linked Q b a) h.reverse := by
    rw [List.isChain_reverse]; exact hl
  cases hh : h.reverse with
  | nil => simp at hh; simp [hh] at h2
  | cons l t =>
    cases t with
    | nil =>
      have := congrArg List.length hh
      simp at this; omega
    | cons s rest =>
      rw [hh] at hr hch
      simp only [bind, Except.bind] at hr
      cases hr' : smoothRev Q l (s :: rest) with
      | error x => rw [hr'] at hr; cases hr
      | ok r' =>
        rw [hr'] at hr
        simp only [pure, Except.pure] at hr
        injection hr with hr
        subst hr
        have hmem : ∀ x ∈ l :: s :: rest, IsCov x.cov := fun x hx =>
          hc x (by rw [← List.mem_reverse, hh]; exact hx)
        obtain ⟨a, b, c⟩ := rev_good Q hQ (s :: rest) l l r'
          ⟨rfl, hmem l (by simp), fun _ => le_refl _⟩ (fun x hx => hmem x (by simp [hx])) hch hr'
        have hrev : h = (l :: s :: rest).reverse := by rw [← hh, List.reverse_reverse]
        refine ⟨by rw [List.map_reverse, b, hrev, List.map_reverse], ?_⟩
        have := c (by simp)
        rw [hrev, List.tail_reverse, List.tail_reverse]
        exact List.rel_reverse this

/-- The last recorded state is the filter's own, and consecutive states are linked up to
the sign of the time step. -/
private def HistOk (Q : KMat) (e : Ekf) : Prop :=
  e.Q = Q ∧ (∃ pre, e.hist = pre ++ [⟨e.lastT, e.state, e.cov⟩]) ∧
  List.IsChain (fun s s' => s.time ≤ s'.time → Linked Q s s') e.hist

private theorem chain_concat {α : Type} {R : α → α → Prop} {pre : List α} {a b : α}
    (h : List.IsChain R (pre ++ [a])) (hab : R a b) : List.IsChain R (pre ++ [a] ++ [b]) := by
  rw [List.isChain_append]
  refine ⟨h, List.isChain_singleton _, ?_⟩
  intro x hx y hy
  simp at hx hy
  subst hx hy
  exact hab

private theorem histOk_predict (Q : KMat) (e e' : Ekf) (t : ℝ) (h : HistOk Q e)
    (hp : e.predict t (t - e.lastT) = .ok e') : HistOk Q e' ∧ e'.lastT = t := by
  obtain ⟨hQ, ⟨pre, hh⟩, hc⟩ := h
  unfold Ekf.predict at hp
  by_cases hcos : cos (e.state PITCH) = 0
  · rw [if_pos hcos] at hp; cases hp
  rw [if_neg hcos] at hp
  injection hp with hp
  subst hp
  refine ⟨⟨hQ, ⟨e.hist, rfl⟩, ?_⟩, rfl⟩
  simp only
  rw [hh] at hc ⊢
  refine chain_concat hc fun ht => ⟨ht, fun v => le_of_eq ?_⟩
  simp only at ht
  rw [predictedCov, abs_of_nonneg (by linarith), hQ]

private theorem setLast_concat (pre : List EState) (l : EState) (s : KVec) (P : KMat) :
    setLast (pre ++ [l]) s P = pre ++ [⟨l.time, s, P⟩] := by
  simp [setLast]

private theorem histOk_correct (Q : KMat) (e e' : Ekf) (m : KMeas) (h : HistOk Q e)
    (he : CovOk e) (hm : DiagonalNoise m) (ht : m.time = e.lastT)
    (hp : e.correct m = .ok e') : HistOk Q e' ∧ e'.lastT = e.lastT := by
  have hle := C29_correct_shrinks e e' m he hm hp
  obtain ⟨hQ, ⟨pre, hh⟩, hc⟩ := h
  unfold Ekf.correct at hp
  by_cases hdet : (m.S e.cov).det = 0
  · rw [if_pos hdet] at hp; cases hp
  rw [if_neg hdet] at hp
  injection hp with hp
  subst hp
  simp only at hle ⊢
  split_ifs at hle ⊢ with hx
  · exact ⟨⟨hQ, ⟨pre, hh⟩, hc⟩, rfl⟩
  · refine ⟨⟨hQ, ⟨pre, ?_⟩, ?_⟩, ht⟩
    · simp [Ekf.accept, setLast, hh, ht]
    · simp only [Ekf.accept] at hle ⊢
      rw [hh, setLast_concat]
      rw [hh] at hc
      rw [List.isChain_append] at hc ⊢
      refine ⟨hc.1, List.isChain_singleton _, fun x hx y hy hxy => ?_⟩
      simp only [List.head?_cons, Option.mem_def, Option.some.injEq] at hy
      subst hy
      obtain ⟨h1, h2⟩ := hc.2.2 x hx ⟨e.lastT, e.state, e.cov⟩ (by simp) hxy
      exact ⟨h1, fun v => (hle v).trans (h2 v)⟩

private theorem built_time (c : EkfCfg) (e : Ekf) (ev : Ev) (hp : ev.predict? = none) :
    ∃ m, Ev.apply c e ev = e.correct m ∧ DiagonalNoise m ∧ m.time = ev.time := by
  have hd := C29_built_diagonal c.std e.rpyDeg
  cases ev with
  | predict t => cases hp
  | orient o => exact ⟨_, rfl, (hd c.usblToDvl).2.2.2 o, rfl⟩
  | usbl o => exact ⟨_, rfl, (hd c.usblToDvl).2.1 o, rfl⟩
  | depth o => exact ⟨_, rfl, (hd c.depthToDvl).1 o, rfl⟩
  | dvl o => exact ⟨_, rfl, (hd c.depthToDvl).2.2.1 o, rfl⟩

private theorem histOk_replay (Q : KMat) (c : EkfCfg) (evs : List Ev) (last : Option ℝ) (e e' : Ekf)
    (hl : ∀ t, last = some t → e.lastT = t) (hg : goodFrom last evs) (he : CovOk e) (h : HistOk Q e)
    (hr : replay c e evs = .ok e') : HistOk Q e' := by
  induction evs generalizing e last with
  | nil => rw [replay_nil c e e' hr]; exact h
  | cons ev evs ih =>
    obtain ⟨e1, h1, h2⟩ := replay_cons c e e' ev evs hr
    cases hp : ev.predict? with
    | some t =>
      cases ev with
      | predict t' =>
        have hx := histOk_predict Q e e1 t' h h1
        exact ih (some t') e1 (fun t ht => by injection ht with ht; rw [← ht]; exact hx.2) hg
          (C29_predict e e1 t' _ he h1) hx.1 h2
      | _ => cases hp
    | none =>
      obtain ⟨m, hm, hd, ht⟩ := built_time c e ev hp
      have hg' : last = some ev.time ∧ goodFrom last evs := by
        cases ev with
        | predict t' => cases hp
        | _ => exact hg
      rw [hm] at h1
      have hlt := hl _ hg'.1
      have hx := histOk_correct Q e e1 m h he hd (by rw [ht, hlt]) h1
      obtain ⟨e2, h3, h4⟩ := C29_correct e m he hd
      rw [h3] at h1
      injection h1 with h1
      subst h1
      exact ih last e2 (fun t ht' => by rw [hx.2]; exact hl t ht') hg'.2 h4 hx.1 h2

/-- C68: the history of every run has the form `C68_smooth_partial` asks for. -/
theorem C68_history (c : EkfCfg) (start : ℝ) (s0 : KVec) (P0 Q : KMat) (thr : ℝ) (q : Queues)
    (h0 : 0 ≤ start) (hq : InOrder q) (hP : IsCov P0) (hQ : IsCov Q)
    (e : Ekf) (he : ekfRun c start s0 P0 Q thr q = .ok e) :
    (∀ s ∈ e.hist, IsCov s.cov) ∧ List.IsChain (Linked Q) e.hist := by
  refine ⟨(C29_run c start s0 P0 Q thr q hP hQ).1 e he, ?_⟩
  have ht := (C33_states c start s0 P0 Q thr q h0 hq e he).1
  have hi : CovOk (Ekf.init start s0 P0 Q thr) :=
    ⟨hP, hQ, fun s hs => by rw [List.mem_singleton.mp hs]; exact hP⟩
  rw [ekfRun, loop_eq c _ 0 _ _ (Nat.lt_succ_self _)] at he
  have hh := (histOk_replay Q c _ none _ e (fun t ht => by cases ht)
    (goodFrom_sched _ _ _ _ _) hi ⟨rfl, ⟨[], rfl⟩, List.isChain_singleton _⟩ he).2.2
  have ht' : List.IsChain (fun s s' : EState => s.time ≤ s'.time) e.hist :=
    (List.pairwise_map.mp ht).isChain
  generalize e.hist = l at hh ht'
  clear ht he hi
  induction l with
  | nil => exact List.isChain_nil
  | cons a l ih =>
    cases l with
    | nil => exact List.isChain_singleton _
    | cons b l =>
      rw [List.isChain_cons_cons] at hh ht' ⊢
      exact ⟨hh.1 ht'.1, ih hh.2 ht'.2⟩

/-- C68 for a run: smoothing keeps all times; every smoothed covariance but the first is a
covariance and no larger than the filtered one. -/
theorem C68_run_partial (c : EkfCfg) (start : ℝ) (s0 : KVec) (P0 Q : KMat) (thr : ℝ) (q : Queues)
    (h0 : 0 ≤ start) (hq : InOrder q) (hP : IsCov P0) (hQ : IsCov Q)
    (e : Ekf) (he : ekfRun c start s0 P0 Q thr q = .ok e) (h2 : 2 ≤ e.hist.length)
    (r : List EState) (hr : smooth Q e.hist = .ok r) :
    r.map (·.time) = e.hist.map (·.time) ∧ List.Forall₂ GoodSmoothed r.tail e.hist.tail := by
  obtain ⟨h1, h3⟩ := C68_history c start s0 P0 Q thr q h0 hq hP hQ e he
  exact C68_smooth_partial Q hQ e.hist r h2 h1 h3 hr

/-! ### The first state -/

/-- Position follows velocity, angle follows rate. -/
private def shiftN : KMat := fun i j => if j.val = i.val + 6 then 1 else 0

private theorem shiftN_sq : shiftN * shiftN = 0 := by
  ext i j
  rw [mul_apply]
  refine Finset.sum_eq_zero fun k _ => ?_
  simp only [shiftN]
  split_ifs <;> first | omega | simp

private theorem jac_rest : transferJacobian 1 (fun _ => 0) (transferFunction 1 (fun _ => 0))
    = 1 + shiftN := by
  rw [jac_entries]
  ext i j
  fin_cases i <;> fin_cases j <;> simp [shiftN]

/-- A filtered state at rest with unit covariance, and a well-known successor. -/
private def restState : EState := ⟨0, fun _ => 0, 1⟩
private noncomputable def nextState : EState := ⟨1, fun _ => 0, (1 / 10 : ℝ) • (1 : KMat)⟩

private theorem inv_AAt : ((1 + shiftN) * (1 : KMat) * (1 + shiftN)ᵀ + (1 : ℝ) • (0 : KMat)).det ≠ 0 ∧
    ((1 + shiftN) * (1 : KMat) * (1 + shiftN)ᵀ + (1 : ℝ) • (0 : KMat))⁻¹
      = (1 - shiftNᵀ) * (1 - shiftN) := by
  have h1 : (1 + shiftN) * (1 - shiftN) = 1 := by
    rw [Matrix.mul_sub, Matrix.add_mul (1 : KMat), Matrix.add_mul, shiftN_sq]; simp
  have h2 : (1 + shiftNᵀ) * (1 - shiftNᵀ) = 1 := by
    rw [Matrix.mul_sub, Matrix.add_mul (1 : KMat), Matrix.add_mul (1 : KMat), ← transpose_mul,
      shiftN_sq]
    simp
  have h3 : ((1 + shiftN) * (1 : KMat) * (1 + shiftN)ᵀ + (1 : ℝ) • (0 : KMat))
      * ((1 - shiftNᵀ) * (1 - shiftN)) = 1 := by
    rw [smul_zero, add_zero, Matrix.mul_one, transpose_add, transpose_one, Matrix.mul_assoc,
      ← Matrix.mul_assoc (1 + shiftNᵀ), h2, Matrix.one_mul, h1]
  refine ⟨fun hd => ?_, inv_eq_right_inv h3⟩
  have := congrArg det h3
  rw [det_mul, hd, zero_mul, det_one] at this
  exact zero_ne_one this

private def invB : KMat := (1 - shiftNᵀ) * (1 - shiftN)

private theorem invB_entry (i j : Ix) : invB i j = (if i = j then 1 else 0)
    - (if j.val = i.val + 6 then 1 else 0) - (if i.val = j.val + 6 then 1 else 0)
    + (if i = j ∧ 6 ≤ i.val then 1 else 0) := by
  have h : invB = 1 - shiftN - shiftNᵀ + shiftNᵀ * shiftN := by
    rw [invB]
    noncomm_ring
  have e2 : (shiftNᵀ * shiftN) i j = if i = j ∧ 6 ≤ i.val then 1 else 0 := by
    fin_cases i <;> fin_cases j <;> simp [mul_apply, Fin.sum_univ_succ, shiftN]
  rw [h, Matrix.add_apply, Matrix.sub_apply, Matrix.sub_apply, e2, Matrix.one_apply]
  rfl

/-- The covariance smoothing gives the first state in the example below. -/
private noncomputable def badCov : KMat :=
  1 + invB * ((1 / 10 : ℝ) • (1 : KMat) -
    ((1 + shiftN) * (1 : KMat) * (1 + shiftN)ᵀ + (1 : ℝ) • (0 : KMat))) * invBᵀ

private theorem badCov_neg : badCov VX VX < 0 := by
  have hB : ((1 + shiftN) * (1 : KMat) * (1 + shiftN)ᵀ + (1 : ℝ) • (0 : KMat))⁻¹ = invB := inv_AAt.2
  have hBP : invB * ((1 + shiftN) * (1 : KMat) * (1 + shiftN)ᵀ + (1 : ℝ) • (0 : KMat)) = 1 := by
    rw [← hB]; exact nonsing_inv_mul _ (isUnit_iff_ne_zero.mpr inv_AAt.1)
  have hBt : invBᵀ = invB := by
    rw [invB, transpose_mul, transpose_sub, transpose_sub, transpose_one, transpose_transpose]
  have b66 : invB 6 6 = 2 := by rw [invB_entry]; norm_num
  have bb : (invB * invB) 6 6 = 5 := by
    rw [mul_apply]
    simp only [Fin.sum_univ_succ, invB_entry]
    simp [Fin.ext_iff]
    norm_num
  have h : badCov = 1 + ((1 / 10 : ℝ) • (invB * invB) - invB) := by
    rw [badCov, Matrix.mul_sub, Matrix.sub_mul, hBP, Matrix.one_mul, hBt, Matrix.mul_smul,
      Matrix.mul_one, Matrix.smul_mul]
  show badCov 6 6 < 0
  rw [h, Matrix.add_apply, Matrix.sub_apply, Matrix.smul_apply, bb, b66, one_apply_eq]
  norm_num

/-- C68 is false for the first state: `*` multiplies its covariance entrywise, and smoothing
gives it a negative variance (surge velocity).  All the assumptions of `C68_smooth_partial`
hold. -/
theorem C68_first_state_false :
    ∃ (Q : KMat) (s s' : EState) (r0 r1 : EState), IsCov Q ∧ IsCov s.cov ∧ IsCov s'.cov ∧
      List.IsChain (Linked Q) [s, s'] ∧ smooth Q [s, s'] = .ok [r0, r1] ∧
      r0.cov VX VX < 0 ∧ ¬ IsCov r0.cov := by
  have hone : IsCov (1 : KMat) :=
    ⟨transpose_one, fun v => by
      rw [one_mulVec]; exact Finset.sum_nonneg fun i _ => mul_self_nonneg _⟩
  have hzero : IsCov (0 : KMat) := ⟨transpose_zero, fun v => by simp⟩
  have hn : IsCov nextState.cov := hone.smul (by norm_num)
  have hJ : smoothGain true (1 : KMat) (1 + shiftN)
      ((1 + shiftN) * (1 : KMat) * (1 + shiftN)ᵀ + (1 : ℝ) • (0 : KMat))
      = (1 - shiftNᵀ) * (1 - shiftN) := by
    rw [smoothGain, if_pos rfl, inv_AAt.2]
    have : (Matrix.of fun i j => (1 : KMat) i j * (1 + shiftN)ᵀ i j) = (1 : KMat) := by
      ext i j
      rw [of_apply]
      by_cases hij : i = j
      · subst hij; simp [shiftN]
      · simp [Matrix.one_apply_ne hij]
    rw [this, Matrix.one_mul]
  have hstep : smoothStep 0 true nextState restState = .ok ⟨0, fun _ => 0,
      badCov⟩ := by
    have hw : wrapSmooth (nextState.state - transferFunction 1 (fun _ => 0) *ᵥ restState.state)
        = fun _ => 0 := by
      funext i
      have : (nextState.state - transferFunction 1 (fun _ => 0) *ᵥ restState.state) = fun _ => 0 := by
        have h0 : restState.state = 0 := rfl
        rw [h0, mulVec_zero]
        funext i
        simp [nextState]
      rw [this, wrapSmooth]
      split_ifs
      · simp only [cos_zero, sin_zero]
        exact Complex.arg_one
      · rfl
    rw [smoothStep, if_neg (by simp [restState])]
    have hd : nextState.time - restState.time = 1 := by simp [nextState, restState]
    have hs : restState.state = fun _ => 0 := rfl
    have hc : restState.cov = 1 := rfl
    simp only [hd, hs, hc, jac_rest]
    rw [if_neg inv_AAt.1, hJ]
    have hw' := hw
    rw [hs] at hw'
    rw [hw']
    congr 2
    · have : (fun _ => (0 : ℝ) : KVec) = 0 := rfl
      rw [this, mulVec_zero, add_zero]
  refine ⟨0, restState, nextState, ⟨0, fun _ => 0, badCov⟩, nextState, hzero, hone, hn, ?_, ?_, badCov_neg, ?_⟩
  · rw [List.isChain_cons_cons]
    refine ⟨⟨by simp [restState, nextState], fun v => ?_⟩, List.isChain_singleton _⟩
    have hd : nextState.time - restState.time = 1 := by simp [nextState, restState]
    have hs : restState.state = fun _ => 0 := rfl
    have hc : restState.cov = 1 := rfl
    simp only [predictedCov, hd, hs, hc, jac_rest]
    rw [smul_zero, add_zero, quad_congr, one_mulVec]
    simp only [nextState, smul_mulVec, one_mulVec, dotProduct_smul, smul_eq_mul]
    have hv : (1 + shiftN)ᵀ *ᵥ v = ![v 0, v 1, v 2, v 3, v 4, v 5, v 6 + v 0, v 7 + v 1, v 8 + v 2,
        v 9 + v 3, v 10 + v 4, v 11 + v 5] := by
      rw [transpose_add, transpose_one, add_mulVec, one_mulVec]
      funext i
      fin_cases i <;> simp [mulVec, dotProduct, Fin.sum_univ_succ, shiftN]
    rw [hv]
    simp [dotProduct, Fin.sum_univ_succ]
    nlinarith [sq_nonneg (v 6 + v 0 * (10 / 9)), sq_nonneg (v 7 + v 1 * (10 / 9)),
      sq_nonneg (v 8 + v 2 * (10 / 9)), sq_nonneg (v 9 + v 3 * (10 / 9)),
      sq_nonneg (v 10 + v 4 * (10 / 9)), sq_nonneg (v 11 + v 5 * (10 / 9)), sq_nonneg (v 0),
      sq_nonneg (v 1), sq_nonneg (v 2), sq_nonneg (v 3), sq_nonneg (v 4), sq_nonneg (v 5)]
  · rw [smooth]
    simp only [List.reverse_cons, List.reverse_nil, List.nil_append, List.singleton_append,
      smoothRev, List.isEmpty_nil, hstep]
    rfl
  · intro hc
    exact absurd (hc.diag_nonneg VX) (not_le.mpr badCov_neg)

/-! ### C31 -/

/-- C31 fails for the first state: dead reckoning angles are used as they are, and a heading
above 180° (compass headings go up to 360°) is recorded outside `[-π, π]`. -/
theorem C31_initial_state_false :
    ∃ (c : EkfCfg) (start : ℝ) (s0 : KVec) (q : Queues) (e : Ekf),
      s0 = buildState 0 0 0 ⟨0, 0, 270⟩ ⟨0, 0, 0⟩ ∧
      ekfRun c start s0 1 1 3 q = .ok e ∧ ∃ s ∈ e.hist, ¬ AnglesWrapped s.state := by
  refine ⟨⟨⟨0, 0, ⟨0, 0, 0⟩, ⟨0, 0, 0⟩, 0, 0, 0, 0⟩, ⟨0, 0, 0⟩, ⟨0, 0, 0⟩, 0⟩, 0, _,
    ⟨[], [], [], [], []⟩, Ekf.init 0 (buildState 0 0 0 ⟨0, 0, 270⟩ ⟨0, 0, 0⟩) 1 1 3, rfl, ?_,
    ⟨0, _, _⟩, List.mem_singleton.mpr rfl, ?_⟩
  · simp only [ekfRun, ekfLoop, lt_irrefl, if_false]
  · intro h
    have : (270 : ℝ) * π / 180 ≤ π := (h YAW (by simp)).2
    nlinarith [pi_pos]

private theorem tf_zero (x : KVec) : transferFunction 0 x = 1 := by
  rw [tf_entries]
  ext i j
  fin_cases i <;> fin_cases j <;> simp

set_option maxHeartbeats 1000000 in
private theorem jac_zero (x : KVec) : transferJacobian 0 x 1 = 1 := by
  have h := jac_entries 0 x
  rw [tf_zero] at h
  rw [h]
  ext i j
  fin_cases i <;> fin_cases j <;> simp

/-- C31 fails for smoothed states: the smoother wraps its innovation but not its result, so
a heading of π followed by one of π + 0.1 (stored as −π + 0.1) is smoothed to π + 0.1. -/
theorem C31_smoothed_false :
    ∃ (Q : KMat) (s s' r0 r1 : EState), AnglesWrapped s.state ∧ AnglesWrapped s'.state ∧
      smooth Q [s, s'] = .ok [r0, r1] ∧ ¬ AnglesWrapped r0.state := by
  have hp := two_le_pi
  have harg : Complex.arg ⟨cos (-π + 1 / 10 - π), sin (-π + 1 / 10 - π)⟩ = 1 / 10 := by
    have e : (-π + 1 / 10 - π : ℝ) = 1 / 10 - 2 * π := by ring
    rw [e, cos_sub_two_pi, sin_sub_two_pi]
    have h := Complex.arg_cos_add_sin_mul_I (θ := 1 / 10) ⟨by linarith, by linarith⟩
    have h2 : (⟨cos (1 / 10), sin (1 / 10)⟩ : ℂ)
        = Complex.cos ((1 / 10 : ℝ) : ℂ) + Complex.sin ((1 / 10 : ℝ) : ℂ) * Complex.I := by
      rw [← Complex.ofReal_cos, ← Complex.ofReal_sin]
      generalize cos (1 / 10) = a
      generalize sin (1 / 10) = b
      apply Complex.ext <;> simp
    rw [h2]
    exact h
  set s : EState := ⟨0, Pi.single YAW π, 1⟩ with hs
  set s' : EState := ⟨0, Pi.single YAW (-π + 1 / 10), 1⟩ with hs'
  have hgain : smoothGain true (1 : KMat) 1 1 = 1 := by
    rw [smoothGain, if_pos rfl]
    rw [inv_one, Matrix.mul_one]
    ext i j
    by_cases hij : i = j
    · subst hij; simp
    · simp [Matrix.one_apply_ne hij]
  have hstep : smoothStep 0 true s' s = .ok ⟨0, Pi.single YAW π + wrapSmooth
      (Pi.single YAW (-π + 1 / 10) - Pi.single YAW π), 1⟩ := by
    rw [smoothStep, if_neg (by simp [hs, YAW, PITCH])]
    have hd : s'.time - s.time = 0 := by simp [hs, hs']
    have h1 : (1 : KMat) * 1 * (1 : KMat)ᵀ + (0 : ℝ) • 0 = 1 := by simp
    have hc : s.cov = 1 := rfl
    simp only [hd, jac_zero, tf_zero, hc, h1]
    rw [if_neg (by rw [det_one]; exact one_ne_zero), hgain, one_mulVec, one_mulVec]
    simp [hs, hs']
  refine ⟨0, s, s', ⟨0, Pi.single YAW π + wrapSmooth
      (Pi.single YAW (-π + 1 / 10) - Pi.single YAW π), 1⟩, s', ?_, ?_, ?_, ?_⟩
  · intro i hi
    by_cases h : i = YAW
    · subst h; simp [hs]; linarith
    · simp [hs, h]; linarith
  · intro i hi
    by_cases h : i = YAW
    · subst h; simp [hs']; linarith
    · simp [hs', h]; linarith
  · rw [smooth]
    simp only [List.reverse_cons, List.reverse_nil, List.nil_append, List.singleton_append,
      smoothRev, List.isEmpty_nil, hstep]
    rfl
  · intro h
    have := (h YAW (by simp)).2
    simp only [Pi.add_apply, Pi.single_eq_same, wrapSmooth, Pi.sub_apply] at this
    rw [if_pos (Or.inr (Or.inr trivial)), harg] at this
    linarith

end Oplab.Props
