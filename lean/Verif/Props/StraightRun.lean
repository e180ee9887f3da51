import Verif.Props.EkfRun
import Verif.Props.EkfMotion
import Verif.Props.Rotation
import Verif.Spec.StraightRun

/-! C216: the Kalman filter finds the path of a vehicle that runs straight. -/

namespace Oplab.Props
open Oplab Oplab.Spec Matrix Real Oplab.Ix

private theorem wrap_zero (half a b : ℝ) (hh : 0 < half) (h : WrappedTo half a b) (k : ℤ) (hb : b = k * (2 * half)) :
    a = 0 := by
  obtain ⟨h1, h2, n, hn⟩ := h
  have e : a = ((n + k : ℤ) : ℝ) * (2 * half) := by rw [hn, hb]; push_cast; ring
  rcases lt_trichotomy (n + k) 0 with g | g | g
  · have : ((n + k : ℤ) : ℝ) ≤ -1 := by exact_mod_cast (by omega : n + k ≤ -1)
    nlinarith
  · rw [e, g]; simp
  · have : (1 : ℝ) ≤ ((n + k : ℤ) : ℝ) := by exact_mod_cast (by omega : 1 ≤ n + k)
    nlinarith

private def IsAngle (k : Ix) : Prop := k ∈ [ROLL, PITCH, YAW]

/-- The measurement agrees with the state. -/
private def Agrees (m : KMeas) (s : KVec) : Prop :=
  ∀ k, m.upd k = true → ∀ z, m.value k = some z → (IsAngle k → SameAngle (2 * π) z (s k)) ∧ (¬ IsAngle k → z = s k)

private theorem innov_zero (m : KMeas) (s : KVec) (h : Agrees m s) : m.innovation s = 0 := by
  funext i
  have hi : m.indices.get i ∈ m.indices := List.get_mem _ _
  obtain ⟨hu, z, hz⟩ := (C31_indices m _).mp hi
  obtain ⟨h1, h2⟩ := h _ hu z hz
  obtain ⟨g1, g2⟩ := C31_innovation m s i z hz
  by_cases ha : IsAngle (m.indices.get i)
  · obtain ⟨k, hk⟩ := h1 ha
    exact wrap_zero π _ _ pi_pos (g1 ha) k (by rw [hk]; ring)
  · rw [g2 ha, h2 ha]; simp

private theorem sameAngle_trans {T a b c : ℝ} (h1 : SameAngle T a b) (h2 : SameAngle T b c) : SameAngle T a c := by
  obtain ⟨k, hk⟩ := h1
  obtain ⟨l, hl⟩ := h2
  exact ⟨k + l, by rw [hk, hl]; push_cast; ring⟩

private theorem sameAngle_symm {T a b : ℝ} (h1 : SameAngle T a b) : SameAngle T b a := by
  obtain ⟨k, hk⟩ := h1
  exact ⟨-k, by rw [hk]; push_cast; ring⟩

private theorem wrap_same (s : KVec) (k : Ix) (hk : k = ROLL ∨ k = PITCH ∨ k = YAW) : SameAngle (2 * π) (wrapState s k) (s k) := by
  simp only [wrapState, if_pos hk]
  exact (C31_clamp _).2.2

private theorem true_wrap {r : StraightRun} {t : ℝ} {s : KVec} (h : TrueState r t s) : TrueState r t (wrapState s) := by
  refine ⟨?_, sameAngle_trans (wrap_same _ _ (by simp)) h.roll, sameAngle_trans (wrap_same _ _ (by simp)) h.pitch,
    sameAngle_trans (wrap_same _ _ (by simp)) h.yaw, ?_, ?_⟩
  · rw [← h.position]; simp [wrapState, ROLL, PITCH, YAW, X, Y, Z]
  · rw [← h.velocity]; simp [wrapState, ROLL, PITCH, YAW, VX, VY, VZ]
  · obtain ⟨a, b, c⟩ := h.rates
    refine ⟨?_, ?_, ?_⟩ <;> simp [wrapState, ROLL, PITCH, YAW, VROLL, VPITCH, VYAW, *]

private theorem cos_same {a b : ℝ} (h : SameAngle (2 * π) a b) : cos a = cos b := by
  obtain ⟨k, hk⟩ := h
  rw [hk, cos_add_int_mul_two_pi]

private theorem sin_same {a b : ℝ} (h : SameAngle (2 * π) a b) : sin a = sin b := by
  obtain ⟨k, hk⟩ := h
  rw [hk, sin_add_int_mul_two_pi]

/-- One step of the motion model along the run. -/
private theorem true_step {r : StraightRun} {t t' : ℝ} {s : KVec} (h : TrueState r t s) :
    TrueState r t' (motionModel (t' - t) s) := by
  have hm := C67_motion (t' - t) s
  obtain ⟨a, b, c⟩ := h.rates
  have e : ∀ x : ℝ, x * 180 / π * (π / 180) = x := fun x => by field_simp
  have h1 : (⟨motionModel (t' - t) s 0, motionModel (t' - t) s 1, motionModel (t' - t) s 2⟩ : V3 ℝ) = _ :=
    congrArg Motion.pos hm
  have h2 : (⟨motionModel (t' - t) s 3, motionModel (t' - t) s 4, motionModel (t' - t) s 5⟩ : V3 ℝ) = _ :=
    congrArg Motion.rpy hm
  have h3 : (⟨motionModel (t' - t) s 6, motionModel (t' - t) s 7, motionModel (t' - t) s 8⟩ : V3 ℝ) = _ :=
    congrArg Motion.vel hm
  have h4 : (⟨motionModel (t' - t) s 9, motionModel (t' - t) s 10, motionModel (t' - t) s 11⟩ : V3 ℝ) = _ :=
    congrArg Motion.rate hm
  have hp := h.position
  have hv := h.velocity
  simp only [Motion.step, toMotion, eulerRates, V3.mk.injEq] at h2 h3 h4
  change s 9 = 0 at a
  change s 10 = 0 at b
  change s 11 = 0 at c
  simp only [a, b, c, mul_zero, add_zero, sub_zero] at h2 h4
  refine ⟨?_, ?_, ?_, ?_, ?_, h4⟩
  · refine h1.trans ?_
    have q : (⟨s 6, s 7, s 8⟩ : V3 ℝ) = r.v := hv
    have q' : (⟨s 0, s 1, s 2⟩ : V3 ℝ) = r.dvlAt t := hp
    have qx := congrArg V3.x q'
    have qy := congrArg V3.y q'
    have qz := congrArg V3.z q'
    simp only [Motion.step, toMotion, q, C01_is_zyx_rotation, StraightRun.dvlAt, StraightRun.turned, rad, e] at qx qy qz ⊢
    have f1 : cos (s 3) = cos (r.rpy.x * (π / 180)) := cos_same h.roll
    have f2 : sin (s 3) = sin (r.rpy.x * (π / 180)) := sin_same h.roll
    have f3 : cos (s 4) = cos (r.rpy.y * (π / 180)) := cos_same h.pitch
    have f4 : sin (s 4) = sin (r.rpy.y * (π / 180)) := sin_same h.pitch
    have f5 : cos (s 5) = cos (r.rpy.z * (π / 180)) := cos_same h.yaw
    have f6 : sin (s 5) = sin (r.rpy.z * (π / 180)) := sin_same h.yaw
    simp only [rotX, rotY, rotZ, f1, f2, f3, f4, f5, f6, Spec.add, Spec.smul, qx, qy, qz, V3.mk.injEq]
    refine ⟨?_, ?_, ?_⟩ <;> ring
  · have := h.roll; rw [show motionModel (t' - t) s ROLL = s ROLL from h2.1]; exact this
  · have := h.pitch; rw [show motionModel (t' - t) s PITCH = s PITCH from h2.2.1]; exact this
  · have := h.yaw; rw [show motionModel (t' - t) s YAW = s YAW from h2.2.2]; exact this
  · rw [← hv]
    simp only [V3.mk.injEq]
    exact h3

/-- What holds of the filter once it has reached time `t`. -/
private structure Track (r : StraightRun) (thr t : ℝ) (e : Ekf) : Prop where
  now : TrueState r t e.state
  last : e.lastT = t
  hist : ∀ h ∈ e.hist, TrueState r h.time h.state
  tail : ∃ pre l, e.hist = pre ++ [l] ∧ l.time = t
  gate : e.thr = thr
  kept : thr ≠ 0 → e.nExceeded = 0 ∧ ∀ k, e.rejected k = none

/-- The step fails at most because a matrix cannot be inverted, and keeps `P`. -/
private def Keeps {α : Type} (x : Res α) (P : α → Prop) : Prop :=
  match x with
  | .ok a => P a
  | .error y => y ≠ .zeroDivision

private theorem Keeps.bind {α β : Type} {x : Res α} {f : α → Res β} {P : α → Prop} {R : β → Prop} (h : Keeps x P)
    (hf : ∀ a, P a → Keeps (f a) R) : Keeps (x >>= f) R := by
  cases x with
  | error y => exact h
  | ok a => exact hf a h

private theorem thr_correct {e e' : Ekf} {m : KMeas} (h : e.correct m = .ok e') : e'.thr = e.thr := by
  unfold Ekf.correct at h
  split_ifs at h
  injection h with h
  subst h
  dsimp only
  split_ifs <;> rfl

private theorem correct_track {r : StraightRun} {thr t : ℝ} {e : Ekf} {m : KMeas} (he : Track r thr t e)
    (hm : Agrees m e.state) (ht : m.time = t) : Keeps (e.correct m) (Track r thr t) := by
  cases hc : e.correct m with
  | error y =>
    unfold Ekf.correct at hc
    split_ifs at hc
    cases hc
    simp [Keeps]
  | ok e' =>
    have h0 := innov_zero m e.state hm
    have hd : mahalanobisSq e m = 0 := by simp [mahalanobisSq, h0]
    by_cases hth : mahalanobisSq e m < e.thr ^ 2
    · obtain ⟨a, b, c, d, f, g⟩ := C32_accepted e e' m hc hth
      obtain ⟨pre, l, hl, hlt⟩ := he.tail
      have hs : e'.state = wrapState e.state := by
        rw [a, h0]; simp
      have hh := g pre l hl
      have hn : TrueState r t e'.state := by rw [hs]; exact true_wrap he.now
      refine ⟨hn, by rw [c, ht], ?_, ⟨pre, _, hh, hlt⟩, (thr_correct hc).trans he.gate, fun q => ?_⟩
      · intro h hm
        rw [hh] at hm
        rcases List.mem_append.mp hm with hm | hm
        · exact he.hist h (by rw [hl]; exact List.mem_append_left _ hm)
        · rw [List.mem_singleton.mp hm]
          dsimp only
          rw [hlt]; exact hn
      · rw [d, f]; exact he.kept q
    · have hz : thr = 0 := by
        rw [hd, he.gate] at hth
        by_contra hne
        exact hth (by positivity)
      obtain ⟨a, b, c, d, -⟩ := C32_rejected e e' m hc (not_lt.mp hth)
      exact ⟨by rw [a]; exact he.now, by rw [c]; exact he.last, by rw [d]; exact he.hist, by rw [d]; exact he.tail,
        (thr_correct hc).trans he.gate, fun q => absurd hz q⟩

private theorem mk_agrees (t : ℝ) (ty : String) (l : List (Ix × ℝ × ℝ)) (s : KVec)
    (h : ∀ e ∈ l, (IsAngle e.1 → SameAngle (2 * π) e.2.1 (s e.1)) ∧ (¬ IsAngle e.1 → e.2.1 = s e.1)) :
    Agrees (mkMeas t ty l) s := by
  intro k hk z hz
  simp only [mkMeas, List.any_eq_true, decide_eq_true_eq] at hk hz
  obtain ⟨e, he, hek⟩ := hk
  cases hf : l.find? (fun e => decide (e.1 = k)) with
  | none =>
    rw [List.find?_eq_none] at hf
    exact absurd hek (by simpa using hf e he)
  | some e' =>
    rw [hf] at hz
    have h1 := List.mem_of_find?_eq_some hf
    have h2 := List.find?_some hf
    simp only [decide_eq_true_eq] at h2
    injection hz with hz
    rw [← hz, ← h2]
    exact h e' h1

private theorem rad_same {a b : ℝ} (h : SameAngle 360 a b) : SameAngle (2 * π) (a * π / 180) (rad b) := by
  obtain ⟨k, hk⟩ := h
  exact ⟨k, by rw [hk]; unfold rad; ring⟩

private theorem orient_agrees {r : StraightRun} {t : ℝ} {s : KVec} (h : TrueState r t s) (c : EkfStd) (o : KOrient)
    (ho : SameAngle 360 o.rpy.x r.rpy.x ∧ SameAngle 360 o.rpy.y r.rpy.y ∧ SameAngle 360 o.rpy.z r.rpy.z) :
    Agrees (fromOrientation c o) s := by
  have h1 := sameAngle_trans (rad_same ho.1) (sameAngle_symm h.roll)
  have h2 := sameAngle_trans (rad_same ho.2.1) (sameAngle_symm h.pitch)
  have h3 := sameAngle_trans (rad_same ho.2.2) (sameAngle_symm h.yaw)
  apply mk_agrees
  intro e he
  split_ifs at he
  all_goals
    simp only [List.mem_cons, List.not_mem_nil, or_false] at he
    rcases he with rfl | rfl | rfl <;> simp [IsAngle, ROLL, PITCH, YAW] <;> assumption

private theorem dvl_agrees {r : StraightRun} {t : ℝ} {s : KVec} (h : TrueState r t s) (c : EkfStd) (d : KDvl)
    (hd : d.v = r.v) : Agrees (fromDvl c d) s := by
  have h1 : d.v.x = s VX := by rw [hd, ← h.velocity]
  have h2 : d.v.y = s VY := by rw [hd, ← h.velocity]
  have h3 : d.v.z = s VZ := by rw [hd, ← h.velocity]
  apply mk_agrees
  intro e he
  split_ifs at he
  all_goals
    simp only [List.mem_cons, List.not_mem_nil, or_false] at he
    rcases he with rfl | rfl | rfl <;> simp [IsAngle, ROLL, PITCH, YAW, VX, VY, VZ] <;> assumption

private theorem turned_state {r : StraightRun} {t : ℝ} {e : Ekf} (h : TrueState r t e.state) (u : V3 ℝ) :
    bodyToInertial e.rpyDeg.x e.rpyDeg.y e.rpyDeg.z u = r.turned u := by
  have q : ∀ x : ℝ, x * 180 / π * (π / 180) = x := fun x => by field_simp
  rw [C01_is_zyx_rotation]
  simp only [Ekf.rpyDeg, StraightRun.turned, rad, q, rotX, rotY, rotZ]
  have f1 : cos (e.state ROLL) = cos (r.rpy.x * (π / 180)) := cos_same h.roll
  have f2 : sin (e.state ROLL) = sin (r.rpy.x * (π / 180)) := sin_same h.roll
  have f3 : cos (e.state PITCH) = cos (r.rpy.y * (π / 180)) := cos_same h.pitch
  have f4 : sin (e.state PITCH) = sin (r.rpy.y * (π / 180)) := sin_same h.pitch
  have f5 : cos (e.state YAW) = cos (r.rpy.z * (π / 180)) := cos_same h.yaw
  have f6 : sin (e.state YAW) = sin (r.rpy.z * (π / 180)) := sin_same h.yaw
  rw [f1, f2, f3, f4, f5, f6]

private theorem mount_back (r : StraightRun) (dvl m : V3 ℝ) (t : ℝ) :
    Spec.add (r.mountAt dvl m t) (r.turned (Spec.sub dvl m)) = r.dvlAt t := by
  generalize hd : r.dvlAt t = d
  obtain ⟨dx, dy, dz⟩ := d
  simp only [StraightRun.mountAt, hd, StraightRun.turned, rotX, rotY, rotZ, Spec.add, Spec.sub, V3.mk.injEq]
  refine ⟨?_, ?_, ?_⟩ <;> ring

private theorem usbl_agrees {r : StraightRun} {t : ℝ} {e : Ekf} (h : TrueState r t e.state) (c : EkfStd) (u : KUsbl)
    (usbl dvl : V3 ℝ) (ht : u.time = t)
    (hu : u.north = (r.mountAt dvl usbl u.time).x ∧ u.east = (r.mountAt dvl usbl u.time).y) :
    Agrees (fromUsbl c u e.rpyDeg (Spec.sub dvl usbl)) e.state := by
  have hb := mount_back r dvl usbl t
  rw [← h.position] at hb
  rw [ht] at hu
  have h1 : u.north + (r.turned (Spec.sub dvl usbl)).x = e.state X := by rw [hu.1]; exact congrArg V3.x hb
  have h2 : u.east + (r.turned (Spec.sub dvl usbl)).y = e.state Y := by rw [hu.2]; exact congrArg V3.y hb
  apply mk_agrees
  intro x hx
  rw [turned_state h] at hx
  split_ifs at hx
  all_goals
    simp only [List.mem_cons, List.not_mem_nil, or_false] at hx
    rcases hx with rfl | rfl <;> simp [IsAngle, ROLL, PITCH, YAW, X, Y] <;> assumption

private theorem depth_agrees {r : StraightRun} {t : ℝ} {e : Ekf} (h : TrueState r t e.state) (c : EkfStd) (d : KDepth)
    (depth dvl : V3 ℝ) (ht : d.time = t) (hu : d.depth = (r.mountAt dvl depth d.time).z) :
    Agrees (fromDepth c d e.rpyDeg (Spec.sub dvl depth)) e.state := by
  have hb := mount_back r dvl depth t
  rw [← h.position] at hb
  rw [ht] at hu
  have h1 : d.depth + (r.turned (Spec.sub dvl depth)).z = e.state Z := by rw [hu]; exact congrArg V3.z hb
  apply mk_agrees
  intro x hx
  rw [turned_state h] at hx
  simp only [List.mem_cons, List.not_mem_nil, or_false] at hx
  subst hx
  simpa [IsAngle, ROLL, PITCH, YAW, Z] using h1

private theorem predict_track {r : StraightRun} {thr t : ℝ} {e : Ekf} (he : Track r thr t e)
    (hp : cos (rad r.rpy.y) ≠ 0) (t' : ℝ) : Keeps (e.predict t' (t' - e.lastT)) (Track r thr t') := by
  have hc : cos (e.state PITCH) ≠ 0 := by rw [cos_same he.now.pitch]; exact hp
  have hn : TrueState r t' (wrapState (transferFunction (t' - e.lastT) e.state *ᵥ e.state)) := by
    rw [he.last]; exact true_wrap (true_step he.now)
  rw [Ekf.predict, if_neg hc]
  refine ⟨hn, rfl, ?_, ⟨_, _, rfl, rfl⟩, he.gate, he.kept⟩
  intro h hm
  rcases List.mem_append.mp hm with hm | hm
  · exact he.hist h hm
  · rw [List.mem_singleton.mp hm]; exact hn

private theorem take_keeps {α : Type} (time : α → ℝ) (t : ℝ) (f : Ekf → α → Res Ekf) (P : Ekf → Prop) (l : List α)
    (e : Ekf) (he : P e) (hf : ∀ x ∈ l, time x = t → Keeps (f e x) P) :
    Keeps (takeAt time t f l e) (fun y => (∀ x ∈ y.1, x ∈ l) ∧ P y.2) := by
  cases l with
  | nil => exact ⟨fun x h => h, he⟩
  | cons x xs =>
    simp only [takeAt]
    split_ifs with hx
    · have := hf x (by simp) hx
      cases hy : f e x with
      | error y => rw [hy] at this; exact this
      | ok e' =>
        rw [hy] at this
        exact ⟨fun z hz => List.mem_cons_of_mem _ hz, this⟩
    · exact ⟨fun x h => h, he⟩

private theorem iter_track {r : StraightRun} {thr t0 : ℝ} {e : Ekf} (he : Track r thr t0 e)
    (hp : cos (rad r.rpy.y) ≠ 0) (usbl depth dvl : V3 ℝ) (c : EkfCfg) (hu : c.usblToDvl = Spec.sub dvl usbl)
    (hd : c.depthToDvl = Spec.sub dvl depth) (q : Queues) (hq : TrueData r usbl depth dvl q) (t : ℝ) :
    Keeps (ekfIter c t q e) (fun y => TrueData r usbl depth dvl y.1 ∧ Track r thr t y.2) := by
  unfold ekfIter
  refine (predict_track he hp t).bind fun e he => ?_
  refine (take_keeps KOrient.time t _ (Track r thr t) q.orient e he fun o ho ht =>
    correct_track he (orient_agrees he.now c.std o (hq.orient o ho)) ht).bind ?_
  rintro ⟨os, e⟩ ⟨hos, he⟩
  refine (take_keeps KUsbl.time t _ (Track r thr t) q.usbl e he fun o ho ht =>
    correct_track he (by rw [hu]; exact usbl_agrees he.now c.std o usbl dvl ht (hq.usbl o ho)) ht).bind ?_
  rintro ⟨us, e⟩ ⟨hus, he⟩
  refine (take_keeps KDepth.time t _ (Track r thr t) q.depth e he fun o ho ht =>
    correct_track he (by rw [hd]; exact depth_agrees he.now c.std o depth dvl ht (hq.depth o ho)) ht).bind ?_
  rintro ⟨ds, e⟩ ⟨hds, he⟩
  refine (take_keeps KDvl.time t _ (Track r thr t) q.dvl e he fun o ho ht =>
    correct_track he (dvl_agrees he.now c.std o (hq.dvl o ho)) ht).bind ?_
  rintro ⟨vs, e⟩ ⟨hvs, he⟩
  exact ⟨⟨fun o ho => hq.orient o (hos o ho), fun o ho => hq.usbl o (hus o ho), fun o ho => hq.depth o (hds o ho),
    fun o ho => hq.dvl o (hvs o ho)⟩, he⟩

private theorem loop_track {r : StraightRun} {thr : ℝ} (hp : cos (rad r.rpy.y) ≠ 0) (usbl depth dvl : V3 ℝ) (c : EkfCfg)
    (hu : c.usblToDvl = Spec.sub dvl usbl) (hd : c.depthToDvl = Spec.sub dvl depth) (n : Nat) :
    ∀ (cur t : ℝ) (q : Queues) (e : Ekf), Track r thr t e → TrueData r usbl depth dvl q →
      Keeps (ekfLoop c n cur q e) (fun e => ∃ t, Track r thr t e) := by
  induction n with
  | zero => intro cur t q e _ _; simp [ekfLoop, Keeps]
  | succ n ih =>
    intro cur t q e he hq
    unfold ekfLoop
    split_ifs
    · cases hn : q.next with
      | none => exact ⟨t, he⟩
      | some t' =>
        refine (iter_track he hp usbl depth dvl c hu hd q hq t').bind ?_
        rintro ⟨q', e'⟩ ⟨h1, h2⟩
        exact ih t' t' q' e' h2 h1
    · exact ⟨t, he⟩

private theorem true_skip {r : StraightRun} {usbl depth dvl : V3 ℝ} {q : Queues} (h : TrueData r usbl depth dvl q) (t : ℝ) :
    TrueData r usbl depth dvl (q.skip t) :=
  ⟨fun o ho => h.orient o ((List.dropWhile_suffix _).subset ho), fun o ho => h.usbl o ((List.dropWhile_suffix _).subset ho),
    fun o ho => h.depth o ((List.dropWhile_suffix _).subset ho), fun o ho => h.dvl o ((List.dropWhile_suffix _).subset ho)⟩

private theorem true_init (r : StraightRun) : TrueState r r.t0 (buildState r.p0.x r.p0.y r.p0.z r.rpy r.v) := by
  have q : ∀ x : ℝ, SameAngle (2 * π) (x * π / 180) (rad x) := fun x => ⟨0, by unfold rad; push_cast; ring⟩
  refine ⟨?_, q _, q _, q _, rfl, rfl, rfl, rfl⟩
  simp [buildState, StraightRun.dvlAt, Spec.add, Spec.smul, X, Y, Z]

/-- C216: fed with measurements without errors, in any order and at any times, the filter reports at all times the position
of the DVL, the attitude and the velocity of the vehicle, whatever its covariances, its settings and its measurement
uncertainties are; no measurement is rejected. The pitch is not ±90°. -/
theorem C216_filter (r : StraightRun) (hp : cos (rad r.rpy.y) ≠ 0) (usbl depth dvl : V3 ℝ) (c : EkfCfg)
    (hu : c.usblToDvl = Spec.sub dvl usbl) (hd : c.depthToDvl = Spec.sub dvl depth) (q : Queues)
    (hq : TrueData r usbl depth dvl q) (P0 Q : KMat) (hP : IsCov P0) (hQ : IsCov Q) (thr : ℝ) :
    ∃ e, ekfRun c r.t0 (buildState r.p0.x r.p0.y r.p0.z r.rpy r.v) P0 Q thr q = .ok e ∧
      (∀ h ∈ e.hist, TrueState r h.time h.state) ∧ (0 < thr → e.nExceeded = 0 ∧ ∀ k, e.rejected k = none) := by
  have hi : Track r thr r.t0 (Ekf.init r.t0 (buildState r.p0.x r.p0.y r.p0.z r.rpy r.v) P0 Q thr) :=
    ⟨true_init r, rfl, fun h hm => by rw [List.mem_singleton.mp hm]; exact true_init r, ⟨[], _, rfl, rfl⟩, rfl,
      fun _ => ⟨rfl, fun _ => rfl⟩⟩
  have hl : Keeps (ekfRun c r.t0 (buildState r.p0.x r.p0.y r.p0.z r.rpy r.v) P0 Q thr q) (fun e => ∃ t, Track r thr t e) :=
    loop_track hp usbl depth dvl c hu hd _ 0 r.t0 (q.skip r.t0) _ hi (true_skip hq _)
  have hc := (C29_run c r.t0 (buildState r.p0.x r.p0.y r.p0.z r.rpy r.v) P0 Q thr q hP hQ).2
  cases hr : ekfRun c r.t0 (buildState r.p0.x r.p0.y r.p0.z r.rpy r.v) P0 Q thr q with
  | error y =>
    rw [hr] at hl
    exact absurd (hc y hr) hl
  | ok e =>
    rw [hr] at hl
    obtain ⟨t, h⟩ := hl
    exact ⟨e, rfl, h.hist, fun q => h.kept q.ne'⟩

private theorem smooth_zero {r : StraightRun} {t : ℝ} {a b : KVec} (ha : TrueState r t a) (hb : TrueState r t b) :
    wrapSmooth (a - b) = 0 := by
  have ang : ∀ {x y z : ℝ}, SameAngle (2 * π) x z → SameAngle (2 * π) y z →
      Complex.arg ⟨cos (x - y), sin (x - y)⟩ = 0 := by
    intro x y z h1 h2
    obtain ⟨k, hk⟩ := sameAngle_trans h1 (sameAngle_symm h2)
    have h0 : x - y = (k : ℝ) * (2 * π) := by rw [hk]; ring
    rw [h0, cos_int_mul_two_pi, show sin ((k : ℝ) * (2 * π)) = 0 by
      have := sin_add_int_mul_two_pi 0 k
      simpa using this]
    exact Complex.arg_one
  have p1 := ha.position.trans hb.position.symm
  have p2 := ha.velocity.trans hb.velocity.symm
  simp only [V3.mk.injEq] at p1 p2
  obtain ⟨a1, a2, a3⟩ := ha.rates
  obtain ⟨b1, b2, b3⟩ := hb.rates
  funext i
  have hi : i = X ∨ i = Y ∨ i = Z ∨ i = ROLL ∨ i = PITCH ∨ i = YAW ∨ i = VX ∨ i = VY ∨ i = VZ ∨ i = VROLL ∨ i = VPITCH ∨ i = VYAW := by
    revert i; decide
  rcases hi with rfl | rfl | rfl | rfl | rfl | rfl | rfl | rfl | rfl | rfl | rfl | rfl
  · simp [wrapSmooth, ROLL, PITCH, YAW, X, p1.1]
  · simp [wrapSmooth, ROLL, PITCH, YAW, Y, p1.2.1]
  · simp [wrapSmooth, ROLL, PITCH, YAW, Z, p1.2.2]
  · simpa [wrapSmooth] using ang ha.roll hb.roll
  · simpa [wrapSmooth] using ang ha.pitch hb.pitch
  · simpa [wrapSmooth] using ang ha.yaw hb.yaw
  · simp [wrapSmooth, ROLL, PITCH, YAW, VX, p2.1]
  · simp [wrapSmooth, ROLL, PITCH, YAW, VY, p2.2.1]
  · simp [wrapSmooth, ROLL, PITCH, YAW, VZ, p2.2.2]
  · simp [wrapSmooth, ROLL, PITCH, YAW, VROLL, a1, b1]
  · simp [wrapSmooth, ROLL, PITCH, YAW, VPITCH, a2, b2]
  · simp [wrapSmooth, ROLL, PITCH, YAW, VYAW, a3, b3]

private theorem step_true {r : StraightRun} {Q : KMat} {b : Bool} {sf s s' : EState} (hf : TrueState r sf.time sf.state)
    (hs : TrueState r s.time s.state) (h : smoothStep Q b sf s = .ok s') : s'.time = s.time ∧ s'.state = s.state := by
  unfold smoothStep at h
  dsimp only at h
  split_ifs at h
  injection h with h
  subst h
  refine ⟨rfl, ?_⟩
  have : wrapSmooth (sf.state - transferFunction (sf.time - s.time) s.state *ᵥ s.state) = 0 :=
    smooth_zero hf (true_step hs)
  simp [this]

private theorem rev_true {r : StraightRun} {Q : KMat} (l : List EState) :
    ∀ (sf : EState) (r' : List EState), TrueState r sf.time sf.state → (∀ h ∈ l, TrueState r h.time h.state) →
      smoothRev Q sf l = .ok r' → r'.map (fun h => (h.time, h.state)) = (sf :: l).map (fun h => (h.time, h.state)) := by
  induction l with
  | nil =>
    intro sf r' _ _ h
    simp only [smoothRev] at h
    injection h with h
    rw [← h]
  | cons s rest ih =>
    intro sf r' hf hl h
    simp only [smoothRev, bind, Except.bind] at h
    cases h1 : smoothStep Q rest.isEmpty sf s with
    | error y => rw [h1] at h; cases h
    | ok s' =>
      rw [h1] at h
      dsimp only at h
      obtain ⟨e1, e2⟩ := step_true hf (hl s (by simp)) h1
      cases h2 : smoothRev Q s' rest with
      | error y => rw [h2] at h; cases h
      | ok r2 =>
        rw [h2] at h
        injection h with h
        rw [← h]
        have := ih s' r2 (by rw [e1, e2]; exact hl s (by simp)) (fun x hx => hl x (by simp [hx])) h2
        simp [this, e1, e2]

/-- C216: the smoother leaves such a history as it is. -/
theorem C216_smoother (r : StraightRun) (Q : KMat) (h l : List EState) (hh : ∀ x ∈ h, TrueState r x.time x.state)
    (hl : 2 ≤ h.length) (hs : smooth Q h = .ok l) :
    l.map (fun x => (x.time, x.state)) = h.map (fun x => (x.time, x.state)) := by
  unfold smooth at hs
  cases hr : h.reverse with
  | nil => rw [List.reverse_eq_nil_iff] at hr; subst hr; simp at hl
  | cons a t =>
    cases t with
    | nil =>
      have := congrArg List.length hr
      simp at this
      omega
    | cons b t =>
      rw [hr] at hs
      simp only [bind, Except.bind] at hs
      cases h1 : smoothRev Q a (b :: t) with
      | error y => rw [h1] at hs; cases hs
      | ok r' =>
        rw [h1] at hs
        injection hs with hs
        have hm : ∀ x ∈ a :: b :: t, TrueState r x.time x.state := fun x hx => hh x (by
          rw [← List.mem_reverse, hr]; exact hx)
        have := rev_true (b :: t) a r' (hm a (by simp)) (fun x hx => hm x (by simp [hx])) h1
        rw [← hs, ← List.reverse_reverse h, hr, List.map_reverse, this, List.map_reverse]

/-- A vehicle that heads east, 10° nose up, with a USBL transponder behind and a depth sensor ahead of the DVL. -/
private noncomputable def exRun : StraightRun := ⟨0, ⟨10, 20, 30⟩, ⟨0, 10, 90⟩, ⟨1, 0, 1 / 10⟩⟩

private noncomputable def exQueues : Queues :=
  ⟨[⟨1, ⟨360, 10, -270⟩, ⟨0, 0, 0⟩⟩, ⟨4, ⟨0, 10, 90⟩, ⟨1, 1, 1⟩⟩],
   [⟨2, (exRun.mountAt ⟨1, 0, 0⟩ ⟨-1, 0, 0⟩ 2).x, (exRun.mountAt ⟨1, 0, 0⟩ ⟨-1, 0, 0⟩ 2).y, 0, 1, 1⟩],
   [⟨3, (exRun.mountAt ⟨1, 0, 0⟩ ⟨2, 0, 0⟩ 3).z, 1⟩], [⟨3, ⟨1, 0, 1 / 10⟩, ⟨1, 1, 1⟩⟩], [5]⟩

/-- The hypotheses are met. -/
example : cos (rad exRun.rpy.y) ≠ 0 ∧ TrueData exRun ⟨-1, 0, 0⟩ ⟨2, 0, 0⟩ ⟨1, 0, 0⟩ exQueues ∧ IsCov (1 : KMat) := by
  refine ⟨?_, ⟨?_, ?_, ?_, ?_⟩, ?_⟩
  · have : (0 : ℝ) < cos (rad exRun.rpy.y) := by
      apply cos_pos_of_mem_Ioo
      constructor <;> simp only [exRun, rad] <;> nlinarith [pi_pos]
    exact this.ne'
  · intro o ho
    simp only [exQueues, List.mem_cons, List.not_mem_nil, or_false] at ho
    rcases ho with rfl | rfl
    · exact ⟨⟨1, by simp [exRun]⟩, ⟨0, by simp [exRun]⟩, ⟨-1, by simp [exRun]; norm_num⟩⟩
    · exact ⟨⟨0, by simp [exRun]⟩, ⟨0, by simp [exRun]⟩, ⟨0, by simp [exRun]⟩⟩
  · intro u hu
    simp only [exQueues, List.mem_cons, List.not_mem_nil, or_false] at hu
    subst hu
    exact ⟨rfl, rfl⟩
  · intro u hu
    simp only [exQueues, List.mem_cons, List.not_mem_nil, or_false] at hu
    subst hu
    rfl
  · intro u hu
    simp only [exQueues, List.mem_cons, List.not_mem_nil, or_false] at hu
    subst hu
    rfl
  · exact ⟨by simp, fun v => by simp only [one_mulVec, dotProduct]; exact Finset.sum_nonneg fun i _ => mul_self_nonneg _⟩

end Oplab.Props
