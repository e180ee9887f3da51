import Verif.Spec.MovedDive
import Mathlib.Tactic.Linarith
import Mathlib.Tactic.NormNum
import Mathlib.Tactic.LinearCombination

/-! # C276: delayed, turned and shifted dives -/

namespace Oplab.Props
open Oplab.Spec Real

/-! ## Outcomes -/

private theorem alike_bind {α β γ δ : Type} {R : α → β → Prop} {S : γ → δ → Prop} {x : Res α} {y : Res β} {f : α → Res γ} {g : β → Res δ}
    (h : Alike R x y) (hf : ∀ a b, R a b → Alike S (f a) (g b)) : Alike S (x >>= f) (y >>= g) := by
  cases x <;> cases y
  · exact h
  · exact h.elim
  · exact h.elim
  · exact hf _ _ h

private theorem alike_eq {α : Type} {x y : Res α} (h : x = y) : Alike Eq x y := by
  subst h; cases x
  · rfl
  · rfl

private theorem eq_of_alike {α : Type} {x y : Res α} (h : Alike Eq x y) : x = y := by
  cases x <;> cases y
  · exact congrArg _ h
  · exact h.elim
  · exact h.elim
  · exact congrArg _ h

private theorem get_alike {α β : Type} {R : α → β → Prop} {l : List α} {l' : List β} (h : List.Forall₂ R l l') :
    ∀ (n : ℕ), (l[n]? = none ∧ l'[n]? = none) ∨ ∃ a b, l[n]? = some a ∧ l'[n]? = some b ∧ R a b := by
  induction h with
  | nil => intro n; left; simp
  | cons hr _ ih =>
    intro n
    cases n with
    | zero => right; exact ⟨_, _, rfl, rfl, hr⟩
    | succ n => simpa using ih n

private theorem alike_get {α β : Type} {R : α → β → Prop} {l : List α} {l' : List β} (h : List.Forall₂ R l l') (i : ℤ) :
    Alike R (pyGet l i) (pyGet l' i) := by
  have hl := h.length_eq
  have key : ∀ n : ℕ, Alike R (match l[n]? with | some a => .ok a | none => .error Err.indexError)
      (match l'[n]? with | some a => .ok a | none => .error Err.indexError) := by
    intro n
    rcases get_alike h n with ⟨h1, h2⟩ | ⟨a, b, h1, h2, h3⟩
    · rw [h1, h2]; rfl
    · rw [h1, h2]; exact h3
  unfold pyGet
  rw [hl]
  simp only
  by_cases h0 : (if i < 0 then i + (l'.length : ℤ) else i) < 0
  · rw [if_pos h0, if_pos h0]; rfl
  · rw [if_neg h0, if_neg h0]; exact key _

/-! ## Angles -/

private theorem turned (m : Move) (r p y y' : ℝ) (h : m.Heading y y') (v : V3 ℝ) :
    let w := bodyToInertial r p y v
    bodyToInertial r p y' v = ⟨cos (m.turn * π / 180) * w.x - sin (m.turn * π / 180) * w.y,
      sin (m.turn * π / 180) * w.x + cos (m.turn * π / 180) * w.y, w.z⟩ := by
  obtain ⟨k, rfl⟩ := h
  have e : (y + m.turn + 360 * k) * degToRad = y * degToRad + m.turn * π / 180 + k * (2 * π) := by rw [degToRad]; ring
  have hc : cos ((y + m.turn + 360 * k) * degToRad) = cos (y * degToRad + m.turn * π / 180) := by rw [e, cos_add_int_mul_two_pi]
  have hs : sin ((y + m.turn + 360 * k) * degToRad) = sin (y * degToRad + m.turn * π / 180) := by rw [e, sin_add_int_mul_two_pi]
  simp only [bodyToInertial, hc, hs, cos_add, sin_add, V3.mk.injEq]
  refine ⟨by ring, by ring, trivial⟩

/-- The difference of two headings the short way round. -/
private noncomputable def short (d : ℝ) : ℝ := if d > 180 then d - 360 else if d < -180 then d + 360 else d

private theorem short_turned (m : Move) (a b a' b' : ℝ) (ha : m.Heading a a') (hb : m.Heading b b') (ca : Compass a) (ca' : Compass a')
    (cb : Compass b) (cb' : Compass b') (hne : |b - a| ≠ 180) : short (b' - a') = short (b - a) := by
  obtain ⟨k, hk⟩ := ha
  obtain ⟨l, hl⟩ := hb
  obtain ⟨a0, a1⟩ := ca; obtain ⟨a2, a3⟩ := ca'; obtain ⟨b0, b1⟩ := cb; obtain ⟨b2, b3⟩ := cb'
  have e : b' - a' = b - a + 360 * ((l - k : ℤ) : ℝ) := by rw [hk, hl]; push_cast; ring
  have u : (-2 : ℝ) < ((l - k : ℤ) : ℝ) := by linarith
  have w : ((l - k : ℤ) : ℝ) < 2 := by linarith
  have u' : -2 < l - k := by exact_mod_cast u
  have w' : l - k < 2 := by exact_mod_cast w
  have n1 : b - a ≠ 180 := fun h => hne (by rw [h]; norm_num)
  have n2 : b - a ≠ -180 := fun h => hne (by rw [h]; norm_num)
  rw [e]
  have hcases : l - k = -1 ∨ l - k = 0 ∨ l - k = 1 := by omega
  rcases hcases with h | h | h
  · rw [h]; push_cast
    rw [h] at e; push_cast at e
    unfold short
    rcases lt_or_gt_of_ne n1 with hn | hn
    · rw [if_neg (by linarith), if_pos (by linarith), if_neg (by linarith), if_neg (by linarith)]; ring
    · rw [if_neg (by linarith), if_neg (by linarith), if_pos hn]; ring
  · rw [h]; simp
  · rw [h]; push_cast
    rw [h] at e; push_cast at e
    unfold short
    rcases lt_or_gt_of_ne n2 with hn | hn
    · rw [if_neg (by linarith), if_neg (by linarith), if_neg (by linarith), if_pos hn]; ring
    · rw [if_pos (by linarith), if_neg (by linarith), if_neg (by linarith)]; ring

private theorem interp_shift (τ q a b y z : ℝ) : interpolate (q + τ) (a + τ) (b + τ) y z = interpolate q a b y z := by
  unfold interpolate
  by_cases h : b = a
  · rw [if_pos (by rw [h]), if_pos h]
  · rw [if_neg (fun e => h (add_right_cancel e)), if_neg h]
    rw [show b + τ - (a + τ) = b - a by ring, show q + τ - (a + τ) = q - a by ring]

private theorem interp_affine (q a b : ℝ) (α β γ y z u w : ℝ) :
    interpolate q a b (α * y + β * u + γ) (α * z + β * w + γ) = α * interpolate q a b y z + β * interpolate q a b u w + γ := by
  unfold interpolate
  split_ifs
  · rfl
  · ring

private theorem interp_add (q a b y z c : ℝ) : interpolate q a b (y + c) (z + c) = interpolate q a b y z + c := by
  have := interp_affine q a b 1 0 c y z 0 0
  simpa using this

/-- Interpolated headings are those on the short way, but for full turns. -/
private theorem yaw_short (q t1 t2 a b : ℝ) (ca : Compass a) (cb : Compass b) :
    ∃ k : ℤ, interpolateYaw q t1 t2 a b = interpolate q t1 t2 a (a + short (b - a)) + 360 * k := by
  obtain ⟨a0, a1⟩ := ca; obtain ⟨b0, b1⟩ := cb
  unfold interpolateYaw
  by_cases h : |b - a| > 180
  · rw [if_pos h]
    simp only
    have base : ∃ k : ℤ, (if b > a then interpolate q t1 t2 a (b - 360) else interpolate q t1 t2 (a - 360) b)
        = interpolate q t1 t2 a (a + short (b - a)) + 360 * k := by
      split_ifs with hb
      · rw [abs_of_pos (by linarith)] at h
        refine ⟨0, ?_⟩
        rw [short, if_pos h]
        rw [show a + (b - a - 360) = b - 360 by ring]; simp
      · rw [abs_of_nonpos (by linarith)] at h
        refine ⟨-1, ?_⟩
        rw [short, if_neg (by linarith), if_pos (by linarith)]
        have := interp_add q t1 t2 (a - 360) b 360
        rw [show a - 360 + 360 = a by ring] at this
        rw [show a + (b - a + 360) = b + 360 by ring, this]; push_cast; ring
    obtain ⟨k, hk⟩ := base
    rw [hk]
    split_ifs
    · exact ⟨k + 1, by push_cast; ring⟩
    · exact ⟨k - 1, by push_cast; ring⟩
    · exact ⟨k, rfl⟩
  · rw [if_neg h]
    refine ⟨0, ?_⟩
    have h' := abs_le.1 (not_lt.1 h)
    rw [short, if_neg (by linarith), if_neg (by linarith)]
    simp

private theorem yaw_turned (m : Move) (q t1 t2 a b a' b' : ℝ) (ha : m.Heading a a') (hb : m.Heading b b') (ca : Compass a) (ca' : Compass a')
    (cb : Compass b) (cb' : Compass b') (hne : |b - a| ≠ 180) :
    m.Heading (interpolateYaw q t1 t2 a b) (interpolateYaw (q + m.delay) (t1 + m.delay) (t2 + m.delay) a' b') := by
  obtain ⟨k, hk⟩ := yaw_short q t1 t2 a b ca cb
  obtain ⟨l, hl⟩ := yaw_short (q + m.delay) (t1 + m.delay) (t2 + m.delay) a' b' ca' cb'
  have hs := short_turned m a b a' b' ha hb ca ca' cb cb' hne
  obtain ⟨j, hj⟩ := ha
  rw [hk, hl, hs, interp_shift, hj]
  refine ⟨j + l - k, ?_⟩
  rw [show a + m.turn + 360 * (j : ℝ) + short (b - a) = a + short (b - a) + (m.turn + 360 * j) by ring,
    show a + m.turn + 360 * (j : ℝ) = a + (m.turn + 360 * j) by ring, interp_add]
  push_cast; ring

/-! ## Indices -/

private theorem seekIdx_congr (n : ℕ) (c c' : ℕ → Bool) (h : ∀ m, c m = c' m) (fuel j : ℕ) : seekIdx n c fuel j = seekIdx n c' fuel j := by
  rw [funext h]

private theorem any_shift (ts : List ℝ) (τ q : ℝ) (m : ℕ) : (ts.map (· + τ))[m]?.any (· < q + τ) = ts[m]?.any (· < q) := by
  rw [List.getElem?_map]
  cases ts[m]? with
  | none => rfl
  | some x => simp

private theorem seekTime_shift (ts : List ℝ) (τ q : ℝ) (j : ℕ) : seekTime (ts.map (· + τ)) (q + τ) j = seekTime ts q j := by
  unfold seekTime
  rw [List.length_map]
  exact seekIdx_congr _ _ _ (fun m => any_shift ts τ q m) _ _

private theorem seekNext_shift (ts : List ℝ) (τ q : ℝ) (j : ℕ) : seekNext (ts.map (· + τ)) (q + τ) j = seekNext ts q j := by
  unfold seekNext
  rw [List.length_map]
  exact seekIdx_congr _ _ _ (fun m => any_shift ts τ q (m + 1)) _ _

private theorem times_of {α β : Type} {R : α → β → Prop} (f : α → ℝ) (g : β → ℝ) (τ : ℝ) (hR : ∀ a b, R a b → g b = f a + τ) {l : List α}
    {l' : List β} (h : List.Forall₂ R l l') : l'.map g = (l.map f).map (· + τ) := by
  induction h with
  | nil => rfl
  | cons hr _ ih => simp [ih, hR _ _ hr]

private theorem interpAt_shift (τ : ℝ) {l l' : List (ℝ × ℝ)} (h : List.Forall₂ (fun a b : ℝ × ℝ => b = (a.1 + τ, a.2)) l l') (q : ℝ) (i j : ℤ) :
    interpAt l' (q + τ) i j = interpAt l q i j := by
  symm
  apply eq_of_alike
  unfold interpAt
  refine alike_bind (alike_get h i) fun a b hab => alike_bind (alike_get h j) fun c d hcd => ?_
  rw [hab, hcd]
  exact (interp_shift τ q a.1 c.1 a.2 c.2).symm

section
variable (m : Move)

private theorem speeds_alike {os os' : List (Attitude ℝ)} (h : List.Forall₂ m.Attitude os os') (ht : NoTurnabout os) (i : ℕ) :
    computeAngularSpeeds os' i = computeAngularSpeeds os i := by
  symm
  apply eq_of_alike
  unfold computeAngularSpeeds
  have hl := h.length_eq
  have samples : Alike (fun p p' : Attitude ℝ × Attitude ℝ => m.Attitude p.1 p'.1 ∧ m.Attitude p.2 p'.2 ∧ |p.2.yaw - p.1.yaw| ≠ 180)
      (angularSamples os i) (angularSamples os' i) := by
    unfold angularSamples
    rw [← hl]
    split_ifs with h1 h2 h3
    · rcases get_alike h (i - 1) with ⟨e1, e2⟩ | ⟨a, b, e1, e2, e3⟩
      · simp only [e1, e2]; rfl
      · rcases get_alike h (i + 1) with ⟨f1, f2⟩ | ⟨c, d, f1, f2, f3⟩
        · simp only [e1, e2, f1, f2]; rfl
        · simp only [e1, e2, f1, f2]; exact ⟨e3, f3, ht (i - 1) (i + 1) a c (by omega) (by omega) e1 f1⟩
    · rcases get_alike h (i - 1) with ⟨e1, e2⟩ | ⟨a, b, e1, e2, e3⟩
      · simp only [e1, e2]; rfl
      · rcases get_alike h (i) with ⟨f1, f2⟩ | ⟨c, d, f1, f2, f3⟩
        · simp only [e1, e2, f1, f2]; rfl
        · simp only [e1, e2, f1, f2]; exact ⟨e3, f3, ht (i - 1) (i) a c (by omega) (by omega) e1 f1⟩
    · rcases get_alike h (i) with ⟨e1, e2⟩ | ⟨a, b, e1, e2, e3⟩
      · simp only [e1, e2]; rfl
      · rcases get_alike h (i + 1) with ⟨f1, f2⟩ | ⟨c, d, f1, f2, f3⟩
        · simp only [e1, e2, f1, f2]; rfl
        · simp only [e1, e2, f1, f2]; exact ⟨e3, f3, ht (i) (i + 1) a c (by omega) (by omega) e1 f1⟩
    · rfl
  refine alike_bind samples ?_
  rintro ⟨a, b⟩ ⟨a', b'⟩ ⟨ha, hb, hne⟩
  simp only at ha hb hne
  have hs := short_turned m a.yaw b.yaw a'.yaw b'.yaw ha.heading hb.heading ha.compass.1 ha.compass.2 hb.compass.1 hb.compass.2 hne
  unfold short at hs
  simp only [ha.time, hb.time, ha.tilt.1, ha.tilt.2, hb.tilt.1, hb.tilt.2, hs]
  rw [show b.t + m.delay - (a.t + m.delay) = b.t - a.t by ring]
  exact alike_eq rfl

/-- A turned vector. -/
private def Spun (v v' : V3 ℝ) : Prop :=
  v' = ⟨cos (m.turn * π / 180) * v.x - sin (m.turn * π / 180) * v.y, sin (m.turn * π / 180) * v.x + cos (m.turn * π / 180) * v.y, v.z⟩

private structure SyncedLike (os : List (Attitude ℝ)) (s s' : Synced ℝ) : Prop where
  mem : s.att ∈ os
  att : m.Attitude s.att s'.att
  v : s'.v = s.v
  inertial : Spun m s.inertial s'.inertial
  alt : s'.alt = s.alt
  depth : s'.depth = s.depth

variable {os os' : List (Attitude ℝ)} {vs vs' : List (VelMeas ℝ)} {alts alts' : List (ℝ × ℝ)} {ds ds' : List (DepthSample ℝ)}

private theorem one_alike (dvl : V3 ℝ) (ho : List.Forall₂ m.Attitude os os') (hv : List.Forall₂ m.Velocity vs vs')
    (ha : List.Forall₂ m.Altitude alts alts') (hd : List.Forall₂ m.Depth ds ds') (ht : NoTurnabout os) (s : SyncIdx) (i : ℕ) (o o' : Attitude ℝ)
    (hoo : m.Attitude o o') (hin : o ∈ os) :
    Alike (fun a b : SyncIdx × Synced ℝ => b.1 = a.1 ∧ SyncedLike m os a.2 b.2) (syncOne (vehicleSync dvl os vs alts ds) s i o)
      (syncOne (vehicleSync dvl os' vs' alts' ds') s i o') := by
  unfold syncOne
  simp only [vehicleSync, hoo.time]
  rw [times_of (fun v : VelMeas ℝ => v.t) (fun v : VelMeas ℝ => v.t) m.delay (fun a b h => by rw [h]) hv, seekNext_shift,
    times_of (Prod.fst : ℝ × ℝ → ℝ) Prod.fst m.delay (fun a b h => by rw [h]) ha, seekTime_shift,
    times_of (fun v : DepthSample ℝ => v.t) (fun v : DepthSample ℝ => v.t) m.delay (fun a b h => by rw [h]) hd, seekTime_shift,
    speeds_alike m ho ht]
  refine alike_bind (alike_get hv _) fun a a' haa => alike_bind (alike_get hv _) fun b b' hbb => alike_bind (alike_eq rfl) ?_
  rintro w _ rfl
  have hraw : interpVec (o.t + m.delay) (a'.t, a'.v) (b'.t, b'.v) = interpVec o.t (a.t, a.v) (b.t, b.v) := by
    rw [haa, hbb]; simp only [interpVec, interp_shift]
  rw [interpAt_shift m.delay ha]
  rw [interpAt_shift m.delay (l := ds.map fun d => (d.t, d.depth)) (l' := ds'.map fun d => (d.t, d.depth))
    (by rw [List.forall₂_map_left_iff, List.forall₂_map_right_iff]; exact hd.imp fun a b h => by rw [h])]
  rw [interpAt_shift m.delay (l := ds.map fun d => (d.t, d.std)) (l' := ds'.map fun d => (d.t, d.std))
    (by rw [List.forall₂_map_left_iff, List.forall₂_map_right_iff]; exact hd.imp fun a b h => by rw [h])]
  refine alike_bind (alike_eq rfl) ?_
  rintro alt _ rfl
  refine alike_bind (alike_eq rfl) ?_
  rintro dep _ rfl
  refine alike_bind (alike_eq rfl) ?_
  rintro dstd _ rfl
  refine ⟨rfl, hin, hoo, ?_, ?_, rfl, rfl⟩
  · simp only [hraw]
  · simp only [Spun, hraw]
    rw [hoo.tilt.1, hoo.tilt.2]
    exact turned m _ _ _ _ hoo.heading _

private theorem loop_alike (dvl : V3 ℝ) (ho : List.Forall₂ m.Attitude os os') (hv : List.Forall₂ m.Velocity vs vs')
    (ha : List.Forall₂ m.Altitude alts alts') (hd : List.Forall₂ m.Depth ds ds') (ht : NoTurnabout os) (vEnd : ℝ) {rest rest' : List (Attitude ℝ)}
    (hr : List.Forall₂ m.Attitude rest rest') : ∀ (s : SyncIdx) (i : ℕ), (∀ o ∈ rest, o ∈ os) →
    Alike (List.Forall₂ (SyncedLike m os)) (syncLoop (vehicleSync dvl os vs alts ds) vEnd s i rest)
      (syncLoop (vehicleSync dvl os' vs' alts' ds') (vEnd + m.delay) s i rest') := by
  induction hr with
  | nil => intro s i _; exact List.Forall₂.nil
  | @cons o o' _ _ hoo _ ih =>
    intro s i hin
    unfold syncLoop
    rw [hoo.time]
    by_cases hc : o.t > vEnd
    · rw [if_pos hc, if_pos (by simpa using hc)]; exact List.Forall₂.nil
    · rw [if_neg hc, if_neg (by simpa using hc)]
      refine alike_bind (one_alike m dvl ho hv ha hd ht s i _ _ hoo (hin o (by simp))) ?_
      rintro ⟨s1, x⟩ ⟨s2, y⟩ ⟨hs, hxy⟩
      simp only at hs hxy
      subst hs
      refine alike_bind (ih s2 (i + 1) fun x hx => hin x (List.mem_cons_of_mem _ hx)) fun l l' hl => ?_
      exact List.Forall₂.cons hxy hl

private theorem start_alike (q : ℝ) (ho : List.Forall₂ m.Attitude os os') : startIndex (q + m.delay) os' = startIndex q os := by
  induction ho with
  | nil => rfl
  | cons h _ ih => rw [startIndex, startIndex, h.time, ih]; simp

private structure PosLike (a b c d : ℝ) : Prop where
  n : c = cos (m.turn * π / 180) * a - sin (m.turn * π / 180) * b
  e : d = sin (m.turn * π / 180) * a + cos (m.turn * π / 180) * b

private theorem reckon_alike {l l' : List (Synced ℝ)} (h : List.Forall₂ (SyncedLike m os) l l') : ∀ (s s' : Synced ℝ) (p p' : ℝ × ℝ), SyncedLike m os s s' →
    PosLike m p.1 p.2 p'.1 p'.2 →
    List.Forall₂ (fun a b : ℝ × ℝ => PosLike m a.1 a.2 b.1 b.2) (reckonFrom ⟨s.att.t, s.inertial.x, s.inertial.y⟩ p (l.map fun s => ⟨s.att.t, s.inertial.x, s.inertial.y⟩))
      (reckonFrom ⟨s'.att.t, s'.inertial.x, s'.inertial.y⟩ p' (l'.map fun s => ⟨s.att.t, s.inertial.x, s.inertial.y⟩)) := by
  induction h with
  | nil => intro s s' p p' _ _; exact List.Forall₂.nil
  | @cons x x' _ _ hx _ ih =>
    intro s s' p p' hs hp
    simp only [List.map_cons, reckonFrom]
    have hpos : PosLike m (deadReckoning x.att.t s.att.t x.inertial.x s.inertial.x x.inertial.y s.inertial.y p.1 p.2).1
        (deadReckoning x.att.t s.att.t x.inertial.x s.inertial.x x.inertial.y s.inertial.y p.1 p.2).2
        (deadReckoning x'.att.t s'.att.t x'.inertial.x s'.inertial.x x'.inertial.y s'.inertial.y p'.1 p'.2).1
        (deadReckoning x'.att.t s'.att.t x'.inertial.x s'.inertial.x x'.inertial.y s'.inertial.y p'.1 p'.2).2 := by
      constructor
      · simp only [deadReckoning, hx.att.time, hs.att.time, hp.n]
        rw [hx.inertial, hs.inertial]; ring
      · simp only [deadReckoning, hx.att.time, hs.att.time, hp.e]
        rw [hx.inertial, hs.inertial]; ring
    exact List.Forall₂.cons hpos (ih x x' _ _ hx hpos)

private theorem run_alike (dvl : V3 ℝ) (ho : List.Forall₂ m.Attitude os os') (hv : List.Forall₂ m.Velocity vs vs')
    (ha : List.Forall₂ m.Altitude alts alts') (hd : List.Forall₂ m.Depth ds ds') (ht : NoTurnabout os) :
    Alike (List.Forall₂ fun a b : Synced ℝ × (ℝ × ℝ) => SyncedLike m os a.1 b.1 ∧ PosLike m a.2.1 a.2.2 b.2.1 b.2.2)
      (syncRun (vehicleSync dvl os vs alts ds)) (syncRun (vehicleSync dvl os' vs' alts' ds')) := by
  unfold syncRun
  cases hv with
  | nil => exact rfl
  | @cons v v' vt vt' hvv hvt =>
    have hlast : ∃ w w', (v :: vt).getLast? = some w ∧ (v' :: vt').getLast? = some w' ∧ m.Velocity w w' := by
      clear ha hd ht ho
      induction hvt generalizing v v' with
      | nil => exact ⟨v, v', rfl, rfl, hvv⟩
      | cons h _ ih =>
        obtain ⟨w, w', h1, h2, h3⟩ := ih h
        exact ⟨w, w', by rw [List.getLast?_cons_cons, h1], by rw [List.getLast?_cons_cons, h2], h3⟩
    obtain ⟨w, w', h1, h2, h3⟩ := hlast
    rw [show (vehicleSync dvl os (v :: vt) alts ds).vs.getLast? = some w from h1, show (vehicleSync dvl os' (v' :: vt') alts' ds').vs.getLast? = some w' from h2,
      show (vehicleSync dvl os (v :: vt) alts ds).vs.head? = some v from rfl, show (vehicleSync dvl os' (v' :: vt') alts' ds').vs.head? = some v' from rfl]
    simp only
    have hempty : os = [] ↔ os' = [] := by
      constructor <;> rintro rfl
      · exact List.forall₂_nil_left_iff.1 ho
      · exact List.forall₂_nil_right_iff.1 ho
    by_cases he : os = []
    · rw [if_pos (show (vehicleSync dvl os (v :: vt) alts ds).os = [] from he), if_pos (show (vehicleSync dvl os' (v' :: vt') alts' ds').os = [] from hempty.1 he)]; rfl
    · rw [if_neg (show ¬ (vehicleSync dvl os (v :: vt) alts ds).os = [] from he),
        if_neg (show ¬ (vehicleSync dvl os' (v' :: vt') alts' ds').os = [] from fun h => he (hempty.2 h))]
      rw [show v'.t = v.t + m.delay by rw [hvv], show w'.t = w.t + m.delay by rw [h3],
        show startIndex (v.t + m.delay) (vehicleSync dvl os' (v' :: vt') alts' ds').os = startIndex v.t (vehicleSync dvl os (v :: vt) alts ds).os from
          start_alike m v.t ho]
      refine alike_bind (alike_eq rfl) ?_
      rintro start _ rfl
      refine alike_bind (loop_alike m dvl ho (List.Forall₂.cons hvv hvt) ha hd ht w.t (List.forall₂_drop start ho) ⟨0, 0, 0⟩ start fun _ h => List.mem_of_mem_drop h) ?_
      intro l l' hl
      have htrack : Alike (List.Forall₂ fun a b : ℝ × ℝ => PosLike m a.1 a.2 b.1 b.2)
          (reckonTrack (l.map fun s => ⟨s.att.t, s.inertial.x, s.inertial.y⟩)) (reckonTrack (l'.map fun s => ⟨s.att.t, s.inertial.x, s.inertial.y⟩)) := by
        cases hl with
        | nil => rfl
        | cons hx hr => exact List.Forall₂.cons ⟨by simp, by simp⟩ (reckon_alike m hr _ _ (0, 0) (0, 0) hx ⟨by simp, by simp⟩)
      refine alike_bind htrack fun t t' htt => ?_
      have hz : List.Forall₂ (fun a b : Synced ℝ × (ℝ × ℝ) => SyncedLike m os a.1 b.1 ∧ PosLike m a.2.1 a.2.2 b.2.1 b.2.2) (l.zip t) (l'.zip t') := by
        clear htrack
        induction hl generalizing t t' with
        | nil => simp
        | cons hx _ ih =>
          cases htt with
          | nil => simp
          | cons hy hr => exact List.Forall₂.cons ⟨hx, hy⟩ (ih _ _ hr)
      split_ifs
      · exact List.forall₂_drop 1 hz
      · exact hz

/-! ## The shift onto the fixes -/

private def Later (u u' : TrackPt ℝ) : Prop := u'.t = u.t + m.delay

private theorem before_alike {dr dr' us us' : List (TrackPt ℝ)} (hd : List.Forall₂ (Later m) dr dr') (hu : List.Forall₂ (Later m) us us') :
    ∀ (n s d : ℕ), us.length - s + (dr.length - d) ≤ n → startBefore dr' us' s d = startBefore dr us s d := by
  intro n
  induction n with
  | zero =>
    intro s d hn
    rw [startBefore.eq_def dr' us' s d, startBefore.eq_def dr us s d, ← hd.length_eq, ← hu.length_eq, dif_pos (by omega), dif_pos (by omega)]
  | succ n ih =>
    intro s d hn
    rw [startBefore.eq_def dr' us' s d, startBefore.eq_def dr us s d, ← hd.length_eq, ← hu.length_eq]
    split_ifs with h1 h2
    · rfl
    · rfl
    · symm
      apply eq_of_alike
      refine alike_bind (alike_get hd d) fun x x' hx => alike_bind (alike_get hu s) fun a a' ha => alike_bind (alike_get hu _) fun b b' hb => ?_
      unfold Later at hx ha hb
      simp only [hx, ha, hb, add_sub_add_right_eq_sub]
      split_ifs
      · exact alike_eq (ih _ _ (by omega)).symm
      · exact alike_eq rfl
      · exact alike_eq (ih _ _ (by omega)).symm

private theorem after_alike {dr dr' us us' : List (TrackPt ℝ)} (hd : List.Forall₂ (Later m) dr dr') (hu : List.Forall₂ (Later m) us us') :
    ∀ (n s d : ℕ), us.length - s + (dr.length - d) ≤ n → startAfter dr' us' s d = startAfter dr us s d := by
  intro n
  induction n with
  | zero =>
    intro s d hn
    rw [startAfter.eq_def dr' us' s d, startAfter.eq_def dr us s d, ← hd.length_eq, ← hu.length_eq, dif_pos (by omega), dif_pos (by omega)]
  | succ n ih =>
    intro s d hn
    rw [startAfter.eq_def dr' us' s d, startAfter.eq_def dr us s d, ← hd.length_eq, ← hu.length_eq]
    split_ifs with h1 h2
    · rfl
    · rfl
    · symm
      apply eq_of_alike
      refine alike_bind (alike_get hd d) fun x x' hx => alike_bind (alike_get hu s) fun a a' ha => ?_
      have hx' : x'.t = x.t + m.delay := hx
      have ha' : a'.t = a.t + m.delay := ha
      simp only [hx', ha', add_sub_add_right_eq_sub]
      split_ifs
      · exact alike_eq (ih _ _ (by omega)).symm
      · refine alike_bind (alike_get hu _) fun b b' hb => ?_
        have hb' : b'.t = b.t + m.delay := hb
        simp only [hb', add_sub_add_right_eq_sub]
        split_ifs
        · exact alike_eq rfl
        · exact alike_eq (ih _ _ (by omega)).symm
      · exact alike_eq (ih _ _ (by omega)).symm

private theorem head_alike {α β : Type} {R : α → β → Prop} {l : List α} {l' : List β} (h : List.Forall₂ R l l') :
    (l = [] ∧ l' = []) ∨ ∃ a a' b b', l.head? = some a ∧ l'.head? = some a' ∧ R a a' ∧ l.getLast? = some b ∧ l'.getLast? = some b' ∧ R b b' := by
  induction h with
  | nil => exact .inl ⟨rfl, rfl⟩
  | @cons x x' t t' hx ht ih =>
    right
    rcases ih with ⟨rfl, rfl⟩ | ⟨a, a', b, b', h1, h2, h3, h4, h5, h6⟩
    · exact ⟨x, x', x, x', rfl, rfl, hx, rfl, rfl, hx⟩
    · refine ⟨x, x', b, b', rfl, rfl, hx, ?_, ?_, h6⟩
      · rw [List.getLast?_cons, h4]; rfl
      · rw [List.getLast?_cons, h5]; rfl

private theorem usblStart_alike {dr dr' us us' : List (TrackPt ℝ)} (hd : List.Forall₂ (Later m) dr dr') (hu : List.Forall₂ (Later m) us us') :
    usblStart dr' us' = usblStart dr us := by
  unfold usblStart
  rcases head_alike hu with ⟨rfl, rfl⟩ | ⟨u, u', -, -, e1, e2, e3, -⟩
  · rfl
  · rcases head_alike hd with ⟨rfl, rfl⟩ | ⟨d, d', -, -, f1, f2, f3, -⟩
    · rw [e1, e2]; rfl
    · rw [e1, e2, f1, f2]
      simp only
      rw [show u'.t = u.t + m.delay from e3, show d'.t = d.t + m.delay from f3]
      simp only [add_lt_add_iff_right]
      rw [before_alike m hd hu _ 0 0 le_rfl, after_alike m hd hu _ 0 0 le_rfl]

/-- Track points of the dive and the moved dive, before the shift. -/
private structure TrackLike (u u' : TrackPt ℝ) : Prop where
  time : u'.t = u.t + m.delay
  pos : PosLike m u.n u.e u'.n u'.e

private theorem positions_alike {dr dr' : List (TrackPt ℝ)} (hd : List.Forall₂ (TrackLike m) dr dr') {us us' : List (TrackPt ℝ)}
    (hu : List.Forall₂ m.Fix us us') : ∀ d, List.Forall₂ (fun a b : ℝ × ℝ => PosLike m a.1 a.2 b.1 b.2) (positionsAt dr d us) (positionsAt dr' d us') := by
  induction hu with
  | nil => intro d; exact List.Forall₂.nil
  | @cons u u' _ _ hx _ ih =>
    intro d
    unfold positionsAt
    rw [← hd.length_eq]
    split_ifs
    · exact List.Forall₂.nil
    · simp only
      rw [times_of (fun v : TrackPt ℝ => v.t) (fun v : TrackPt ℝ => v.t) m.delay (fun a b h => h.time) hd, hx.time, seekNext_shift]
      rcases get_alike hd (seekNext (dr.map fun v => v.t) u.t d) with ⟨e1, e2⟩ | ⟨a, a', e1, e2, e3⟩
      · simp only [e1, e2]; exact List.Forall₂.nil
      · rcases get_alike hd (seekNext (dr.map fun v => v.t) u.t d + 1) with ⟨f1, f2⟩ | ⟨b, b', f1, f2, f3⟩
        · simp only [e1, e2, f1, f2]; exact List.Forall₂.nil
        · simp only [e1, e2, f1, f2]
          refine List.Forall₂.cons ⟨?_, ?_⟩ (ih _)
          · simp only [e3.time, f3.time, interp_shift, e3.pos.n, f3.pos.n]
            have := interp_affine u.t a.t b.t (cos (m.turn * π / 180)) (-sin (m.turn * π / 180)) 0 a.n b.n a.e b.e
            simp only [add_zero, neg_mul, ← sub_eq_add_neg] at this
            exact this
          · simp only [e3.time, f3.time, interp_shift, e3.pos.e, f3.pos.e]
            have := interp_affine u.t a.t b.t (sin (m.turn * π / 180)) (cos (m.turn * π / 180)) 0 a.n b.n a.e b.e
            simp only [add_zero] at this
            exact this

private theorem mean_affine {α β : Type} {R : α → β → Prop} (f g : α → ℝ) (k : β → ℝ) (α' β' γ : ℝ) (hR : ∀ a b, R a b → k b = α' * f a + β' * g a + γ)
    {l : List α} {l' : List β} (h : List.Forall₂ R l l') (hne : l ≠ []) :
    (l'.map k).sum / ((l'.map k).length : ℝ) = α' * ((l.map f).sum / ((l.map f).length : ℝ)) + β' * ((l.map g).sum / ((l.map g).length : ℝ)) + γ := by
  have hs : (l'.map k).sum = α' * (l.map f).sum + β' * (l.map g).sum + l.length * γ := by
    clear hne
    induction h with
    | nil => simp
    | cons hx _ ih => simp only [List.map_cons, List.sum_cons, ih, hR _ _ hx, List.length_cons]; push_cast; ring
  have hl : (0 : ℝ) < l.length := by exact_mod_cast List.length_pos_of_ne_nil hne
  rw [hs]
  simp only [List.length_map, ← h.length_eq]
  field_simp

private theorem offset_alike {dr dr' : List (TrackPt ℝ)} (hd : List.Forall₂ (TrackLike m) dr dr') {us us' : List (TrackPt ℝ)}
    (hu : List.Forall₂ m.Fix us us') :
    Alike (fun o o' : ℝ × ℝ => o'.1 = m.n o.1 o.2 ∧ o'.2 = m.e o.1 o.2) (usblOffset dr us) (usblOffset dr' us') := by
  unfold usblOffset
  rw [usblStart_alike m (hd.imp fun a b h => h.time) (hu.imp fun a b h => h.time)]
  refine alike_bind (alike_eq rfl) ?_
  rintro p _ rfl
  have hp := positions_alike m hd (List.forall₂_drop p.1 hu) p.2
  simp only
  rw [← hp.length_eq]
  have hus := List.forall₂_take (positionsAt dr p.2 (us.drop p.1)).length (List.forall₂_drop p.1 hu)
  generalize (us.drop p.1).take (positionsAt dr p.2 (us.drop p.1)).length = used at hus ⊢
  generalize (us'.drop p.1).take (positionsAt dr p.2 (us.drop p.1)).length = used' at hus ⊢
  generalize positionsAt dr p.2 (us.drop p.1) = pos at hp ⊢
  generalize positionsAt dr' p.2 (us'.drop p.1) = pos' at hp ⊢
  by_cases h1 : used = []
  · subst h1
    rw [List.forall₂_nil_left_iff] at hus
    subst hus
    rfl
  · by_cases h2 : pos = []
    · subst h2
      rw [List.forall₂_nil_left_iff] at hp
      subst hp
      have h1' : used' ≠ [] := by rintro rfl; exact h1 (List.forall₂_nil_right_iff.1 hus)
      simp only [pyMean, List.map_eq_nil_iff, if_neg h1, if_neg h1', List.map_nil, if_true]
      rfl
    · have h1' : used' ≠ [] := by rintro rfl; exact h1 (List.forall₂_nil_right_iff.1 hus)
      have h2' : pos' ≠ [] := by rintro rfl; exact h2 (List.forall₂_nil_right_iff.1 hp)
      simp only [pyMean, List.map_eq_nil_iff, if_neg h1, if_neg h1', if_neg h2, if_neg h2', bind, Except.bind]
      refine ⟨?_, ?_⟩
      · simp only
        rw [mean_affine (fun u : TrackPt ℝ => u.n) (fun u => u.e) (fun u : TrackPt ℝ => u.n) (cos (m.turn * π / 180)) (-sin (m.turn * π / 180)) m.north
            (fun a b h => by rw [h.north, Move.n]; ring) hus h1,
          mean_affine (Prod.fst : ℝ × ℝ → ℝ) Prod.snd Prod.fst (cos (m.turn * π / 180)) (-sin (m.turn * π / 180)) 0
            (fun a b h => by rw [h.n]; ring) hp h2, Move.n]
        ring
      · simp only
        rw [mean_affine (fun u : TrackPt ℝ => u.n) (fun u => u.e) (fun u : TrackPt ℝ => u.e) (sin (m.turn * π / 180)) (cos (m.turn * π / 180)) m.east
            (fun a b h => by rw [h.east, Move.e]) hus h1,
          mean_affine (Prod.fst : ℝ × ℝ → ℝ) Prod.snd Prod.snd (sin (m.turn * π / 180)) (cos (m.turn * π / 180)) 0
            (fun a b h => by rw [h.e]; ring) hp h2, Move.e]
        ring

private theorem align_alike {dr dr' : List (TrackPt ℝ)} (hd : List.Forall₂ (TrackLike m) dr dr') {us us' : List (TrackPt ℝ)}
    (hu : List.Forall₂ m.Fix us us') (hne : us ≠ [] ∨ (m.north = 0 ∧ m.east = 0)) :
    Alike (List.Forall₂ m.Fix) (alignTrack dr us) (alignTrack dr' us') := by
  unfold alignTrack
  by_cases h : us = []
  · have h' : us' = [] := by subst h; exact List.forall₂_nil_left_iff.1 hu
    rw [if_pos h, if_pos h']
    rcases hne with hne | ⟨h1, h2⟩
    · exact absurd h hne
    · exact hd.imp fun a b hab => ⟨hab.time, by rw [hab.pos.n, Move.n, h1, add_zero], by rw [hab.pos.e, Move.e, h2, add_zero]⟩
  · have h' : us' ≠ [] := by rintro rfl; exact h (List.forall₂_nil_right_iff.1 hu)
    rw [if_neg h, if_neg h']
    refine alike_bind (offset_alike m hd hu) fun o o' ho => ?_
    change List.Forall₂ m.Fix (shiftTrack dr o) (shiftTrack dr' o')
    unfold shiftTrack
    rw [List.forall₂_map_left_iff, List.forall₂_map_right_iff]
    refine hd.imp fun a b hab => ⟨hab.time, ?_, ?_⟩
    · simp only [hab.pos.n, ho.1, Move.n]; ring
    · simp only [hab.pos.e, ho.2, Move.e]; ring

/-! ## Poses -/

/-- Poses of the dive and the moved dive, with headings that were measured. -/
private structure CentreLike (os : List (Attitude ℝ)) (c c' : Centre) : Prop where
  moved : m.Centre c c'
  compass : Compass c.yaw ∧ Compass c'.yaw
  measured : ∃ o ∈ os, o.yaw = c.yaw
  std : c.std = c'.std

private theorem zip_alike {α β γ δ ε ζ : Type} {R : α → β → Prop} {S : γ → δ → Prop} {T : ε → ζ → Prop} (f : α → γ → ε) (g : β → δ → ζ)
    (h : ∀ a b c d, R a b → S c d → T (f a c) (g b d)) {l : List α} {l' : List β} (hl : List.Forall₂ R l l') :
    ∀ {k : List γ} {k' : List δ}, List.Forall₂ S k k' → List.Forall₂ T (List.zipWith f l k) (List.zipWith g l' k') := by
  induction hl with
  | nil => intro k k' _; simp
  | cons hx _ ih =>
    intro k k' hk
    cases hk with
    | nil => simp
    | cons hy hr => exact List.Forall₂.cons (h _ _ _ _ hx hy) (ih hr)

private theorem centre_like (origin dvl depth : V3 ℝ) (e e' : Synced ℝ × (ℝ × ℝ)) (h : SyncedLike m os e.1 e'.1) (hp : PosLike m e.2.1 e.2.2 e'.2.1 e'.2.2) :
    CentreLike { m with north := 0, east := 0 } os (centreOf origin dvl depth e) (centreOf origin dvl depth e') := by
  have t := fun v => turned m e.1.att.roll e.1.att.pitch e.1.att.yaw e'.1.att.yaw h.att.heading v
  refine ⟨⟨h.att.time, h.att.tilt, h.att.heading, ?_, ?_, ?_, ?_⟩, h.att.compass, ⟨_, h.mem, rfl⟩, rfl⟩
  · simp only [centreOf, h.v]; exact ⟨trivial, trivial, trivial⟩
  · simp only [centreOf, toCentre, h.att.tilt.1, h.att.tilt.2, t, Move.n, hp.n]; ring
  · simp only [centreOf, toCentre, h.att.tilt.1, h.att.tilt.2, t, Move.e, hp.e]; ring
  · simp only [centreOf, toCentre, h.att.tilt.1, h.att.tilt.2, t, h.alt, h.depth]; exact ⟨trivial, trivial⟩

private theorem centres_alike (origin dvl depth : V3 ℝ) (ho : List.Forall₂ m.Attitude os os') (hv : List.Forall₂ m.Velocity vs vs')
    (ha : List.Forall₂ m.Altitude alts alts') (hd : List.Forall₂ m.Depth ds ds') (ht : NoTurnabout os) {us us' : List (TrackPt ℝ)}
    (hu : List.Forall₂ m.Fix us us') (hne : us ≠ [] ∨ (m.north = 0 ∧ m.east = 0)) :
    Alike (List.Forall₂ (CentreLike m os)) (drCentre origin dvl depth (vehicleSync dvl os vs alts ds) us)
      (drCentre origin dvl depth (vehicleSync dvl os' vs' alts' ds') us') := by
  unfold drCentre
  refine alike_bind (run_alike m dvl ho hv ha hd ht) fun l l' hl => ?_
  have hc : List.Forall₂ (CentreLike { m with north := 0, east := 0 } os) (l.map (centreOf origin dvl depth)) (l'.map (centreOf origin dvl depth)) := by
    rw [List.forall₂_map_left_iff, List.forall₂_map_right_iff]
    exact hl.imp fun e e' h => centre_like m origin dvl depth e e' h.1 h.2
  simp only
  generalize l.map (centreOf origin dvl depth) = cs at hc ⊢
  generalize l'.map (centreOf origin dvl depth) = cs' at hc ⊢
  have htr : List.Forall₂ (TrackLike m) (cs.map fun c => ⟨c.t, c.northings, c.eastings⟩) (cs'.map fun c => ⟨c.t, c.northings, c.eastings⟩) := by
    rw [List.forall₂_map_left_iff, List.forall₂_map_right_iff]
    refine hc.imp fun a b h => ⟨h.moved.time, ?_, ?_⟩
    · have := h.moved.north; simp only [Move.n, add_zero] at this; exact this
    · have := h.moved.east; simp only [Move.e, add_zero] at this; exact this
  refine alike_bind (align_alike m htr hu hne) fun t t' htt => ?_
  refine zip_alike _ _ (fun c c' q q' h hq => ?_) hc htt
  refine ⟨⟨h.moved.time, h.moved.tilt, h.moved.heading, h.moved.speed, hq.north, hq.east, h.moved.vertical⟩, h.compass, h.measured, h.std⟩

private theorem advance_shift (τ q sl : ℝ) : ∀ l : List ℝ, advanceSteps (q + τ) (sl + τ) (l.map (· + τ)) = advanceSteps q sl l
  | [] => rfl
  | [_] => rfl
  | c :: d :: cs => by
    have := advance_shift τ q sl (d :: cs)
    simp only [List.map_cons] at this ⊢
    rw [advanceSteps, advanceSteps, this]
    simp only [add_lt_add_iff_right, gt_iff_lt]

private theorem sensorLoop_shift (τ sl : ℝ) (ct : List ℝ) : ∀ (ss : List ℝ) (j : ℕ),
    sensorLoop (ct.map (· + τ)) (sl + τ) j (ss.map (· + τ)) = (sensorLoop ct sl j ss).map fun x => (x.1 + τ, x.2)
  | [], j => rfl
  | s :: ss, j => by
    rw [List.map_cons, sensorLoop, sensorLoop, List.length_map]
    split_ifs
    · rfl
    · rw [← List.map_drop, advance_shift]; simp only [List.map_cons]; rw [sensorLoop_shift τ sl ct ss]

private theorem mapM_alike {α β γ : Type} {R : β → γ → Prop} (f : α → Res β) (g : α → Res γ) (h : ∀ a, Alike R (f a) (g a)) :
    ∀ l : List α, Alike (List.Forall₂ R) (l.mapM f) (l.mapM g)
  | [] => List.Forall₂.nil
  | a :: l => by
    rw [List.mapM_cons, List.mapM_cons]
    exact alike_bind (h a) fun b c hbc => alike_bind (mapM_alike f g h l) fun k k' hk => List.Forall₂.cons hbc hk

private theorem sensor_like (m2ll : ℝ → ℝ → ℝ × ℝ) (origin mount : V3 ℝ) (hno : NoOpposite os) (q : ℝ) (a b a' b' : Centre) (ha : CentreLike m os a a')
    (hb : CentreLike m os b b') :
    m.Pose (interpolateSensor m2ll origin mount q a b) (interpolateSensor m2ll origin mount (q + m.delay) a' b') := by
  have hne : |b.yaw - a.yaw| ≠ 180 := by
    obtain ⟨o, ho, h1⟩ := ha.measured
    obtain ⟨o', ho', h2⟩ := hb.measured
    rw [← h1, ← h2]
    exact hno o ho o' ho'
  have hy := yaw_turned m q a.t b.t a.yaw b.yaw a'.yaw b'.yaw ha.moved.heading hb.moved.heading ha.compass.1 ha.compass.2 hb.compass.1 hb.compass.2 hne
  rw [← ha.moved.time, ← hb.moved.time] at hy
  have hi : ∀ y z, interpolate (q + m.delay) a'.t b'.t y z = interpolate q a.t b.t y z := by
    intro y z; rw [ha.moved.time, hb.moved.time, interp_shift]
  have t := fun r p v => turned m r p _ _ hy v
  have hn := interp_affine q a.t b.t (cos (m.turn * π / 180)) (-sin (m.turn * π / 180)) m.north a.northings b.northings a.eastings b.eastings
  have he := interp_affine q a.t b.t (sin (m.turn * π / 180)) (cos (m.turn * π / 180)) m.east a.northings b.northings a.eastings b.eastings
  refine ⟨?_, hy, ?_, ?_, ?_, ?_⟩
  · simp only [interpolateSensor, hi, ha.moved.tilt.1, ha.moved.tilt.2, hb.moved.tilt.1, hb.moved.tilt.2]; exact ⟨trivial, trivial⟩
  · simp only [interpolateSensor, hi, ha.moved.speed.1, ha.moved.speed.2.1, ha.moved.speed.2.2, hb.moved.speed.1, hb.moved.speed.2.1, hb.moved.speed.2.2]
    exact ⟨trivial, trivial, trivial⟩
  · simp only [interpolateSensor, hi, ha.moved.tilt.1, ha.moved.tilt.2, hb.moved.tilt.1, hb.moved.tilt.2, t, ha.moved.north, hb.moved.north]
    simp only [neg_mul, ← sub_eq_add_neg] at hn
    simp only [Move.n, hn]; ring
  · simp only [interpolateSensor, hi, ha.moved.tilt.1, ha.moved.tilt.2, hb.moved.tilt.1, hb.moved.tilt.2, t, ha.moved.east, hb.moved.east]
    simp only [Move.e, he]; ring
  · simp only [interpolateSensor, hi, ha.moved.tilt.1, ha.moved.tilt.2, hb.moved.tilt.1, hb.moved.tilt.2, t, ha.moved.vertical.1, ha.moved.vertical.2,
      hb.moved.vertical.1, hb.moved.vertical.2]
    exact ⟨trivial, trivial⟩

private theorem list_alike (m2ll : ℝ → ℝ → ℝ × ℝ) (origin mount : V3 ℝ) (hno : NoOpposite os) (times : List ℝ) {cs cs' : List Centre}
    (h : List.Forall₂ (CentreLike m os) cs cs') :
    Alike (List.Forall₂ m.Image) (interpolateSensorList m2ll origin mount times cs)
      (interpolateSensorList m2ll origin mount (times.map (· + m.delay)) cs') := by
  unfold interpolateSensorList
  rcases head_alike h with ⟨rfl, rfl⟩ | ⟨c0, c0', cl, cl', e1, e2, e3, e4, e5, e6⟩
  · rfl
  · have ht : List.Forall₂ (fun a b : ℝ => b = a + m.delay) times (times.map (· + m.delay)) := by
      rw [List.forall₂_map_right_iff]; exact List.forall₂_same.2 fun _ _ => rfl
    rcases head_alike ht with ⟨f1, f2⟩ | ⟨s0, s0', sl, sl', f1, f2, f3, f4, f5, f6⟩
    · rw [f1, e1, e2, e4, e5]; rfl
    · rw [e1, e2, e4, e5, f1, f2, f4, f5]
      simp only
      rw [f3, f6, e3.moved.time, e6.moved.time]
      simp only [gt_iff_lt, add_lt_add_iff_right]
      split_ifs
      · change List.Forall₂ m.Image _ _
        rw [List.map_map, List.forall₂_map_left_iff, List.forall₂_map_right_iff]
        exact List.forall₂_same.2 fun _ _ => ⟨rfl, trivial⟩
      · rw [times_of Centre.t Centre.t m.delay (fun a b h => h.moved.time) h]
        have hdw : (times.map (· + m.delay)).dropWhile (fun s => decide (s < c0.t + m.delay)) = (times.dropWhile fun s => decide (s < c0.t)).map (· + m.delay) := by
          rw [List.dropWhile_map]
          congr 2
          funext x
          simp
        rw [hdw, sensorLoop_shift, List.mapM_map]
        refine mapM_alike _ _ (fun x => ?_) _
        refine alike_bind (alike_get h _) fun a a' haa => alike_bind (alike_get h _) fun b b' hbb => ?_
        exact ⟨rfl, sensor_like m m2ll origin mount hno x.1 a b a' b' haa hbb⟩

end

/-- C276, the path of the vehicle: all poses are moved like the measurements; nothing else changes. Without fixes the path starts at zero before
and after the move. -/
theorem C276_path_partial (m : Move) (origin dvl depth : V3 ℝ) {os os' : List (Attitude ℝ)} {vs vs' : List (VelMeas ℝ)} {alts alts' : List (ℝ × ℝ)}
    {ds ds' : List (DepthSample ℝ)} {us us' : List (TrackPt ℝ)} (ho : List.Forall₂ m.Attitude os os') (hv : List.Forall₂ m.Velocity vs vs')
    (ha : List.Forall₂ m.Altitude alts alts') (hd : List.Forall₂ m.Depth ds ds') (hu : List.Forall₂ m.Fix us us')
    (hne : us ≠ [] ∨ (m.north = 0 ∧ m.east = 0)) (ht : NoTurnabout os) :
    Alike (List.Forall₂ m.Centre) (drCentre origin dvl depth (vehicleSync dvl os vs alts ds) us)
      (drCentre origin dvl depth (vehicleSync dvl os' vs' alts' ds') us') := by
  have h := centres_alike m origin dvl depth ho hv ha hd ht hu hne
  revert h
  generalize drCentre origin dvl depth (vehicleSync dvl os vs alts ds) us = x
  generalize drCentre origin dvl depth (vehicleSync dvl os' vs' alts' ds') us' = y
  intro h
  cases x <;> cases y
  · exact h
  · exact h
  · exact h
  · exact h.imp fun a b hab => hab.moved

/-- C276, the poses of the images: the same images get a pose, and the poses are moved like the measurements. -/
theorem C276_images_partial (m : Move) (m2ll : ℝ → ℝ → ℝ × ℝ) (origin dvl depth mount : V3 ℝ) {os os' : List (Attitude ℝ)} {vs vs' : List (VelMeas ℝ)}
    {alts alts' : List (ℝ × ℝ)} {ds ds' : List (DepthSample ℝ)} {us us' : List (TrackPt ℝ)} (times : List ℝ) (ho : List.Forall₂ m.Attitude os os')
    (hv : List.Forall₂ m.Velocity vs vs') (ha : List.Forall₂ m.Altitude alts alts') (hd : List.Forall₂ m.Depth ds ds') (hu : List.Forall₂ m.Fix us us')
    (hne : us ≠ [] ∨ (m.north = 0 ∧ m.east = 0)) (hno : NoOpposite os) :
    Alike (List.Forall₂ m.Image) (drPayload m2ll origin dvl depth mount (vehicleSync dvl os vs alts ds) us times)
      (drPayload m2ll origin dvl depth mount (vehicleSync dvl os' vs' alts' ds') us' (times.map (· + m.delay))) := by
  unfold drPayload
  refine alike_bind (centres_alike m origin dvl depth ho hv ha hd ?_ hu hne) fun cs cs' h => list_alike m m2ll origin mount hno times h
  intro i j a b _ _ hi hj
  exact hno a (List.mem_of_getElem? hi) b (List.mem_of_getElem? hj)

/-- A dive heading north and then a bit more than east, at 1 m/s, moved an hour later to the opposite shore: the headings cross 360 degrees. -/
example : let m : Move := ⟨3600, 300, 50, -20⟩
    let os : List (Attitude ℝ) := [⟨0, 1, 2, 0⟩, ⟨1, 1, 2, 30⟩, ⟨2, 0, 2, 100⟩]
    let os' : List (Attitude ℝ) := [⟨3600, 1, 2, 300⟩, ⟨3601, 1, 2, 330⟩, ⟨3602, 0, 2, 40⟩]
    List.Forall₂ m.Attitude os os' ∧ NoOpposite os ∧ NoTurnabout os ∧
      List.Forall₂ m.Velocity [⟨0, ⟨1, 0, 0⟩, ⟨0, 0, 0⟩⟩, ⟨2, ⟨1, 0, 0⟩, ⟨0, 0, 0⟩⟩] [⟨3600, ⟨1, 0, 0⟩, ⟨0, 0, 0⟩⟩, ⟨3602, ⟨1, 0, 0⟩, ⟨0, 0, 0⟩⟩] ∧
      List.Forall₂ m.Altitude [(0, 5), (2, 6)] [(3600, 5), (3602, 6)] ∧ List.Forall₂ m.Depth [⟨0, 9, 0⟩, ⟨2, 8, 0⟩] [⟨3600, 9, 0⟩, ⟨3602, 8, 0⟩] ∧
      List.Forall₂ m.Fix [⟨1, 7, 3⟩] [⟨3601, m.n 7 3, m.e 7 3⟩] := by
  intro m os os'
  have hno : NoOpposite os := by
    intro a ha b hb
    simp only [os, List.mem_cons, List.not_mem_nil, or_false] at ha hb
    rcases ha with rfl | rfl | rfl <;> rcases hb with rfl | rfl | rfl <;> norm_num [abs_of_neg, abs_of_nonneg]
  refine ⟨?_, hno, ?_, ?_, ?_, ?_, ?_⟩
  · refine .cons ⟨by norm_num [m], ⟨rfl, rfl⟩, ⟨0, by norm_num [m]⟩, by norm_num [Compass]⟩ (.cons ⟨by norm_num [m], ⟨rfl, rfl⟩, ⟨0, by norm_num [m]⟩, by norm_num [Compass]⟩
      (.cons ⟨by norm_num [m], ⟨rfl, rfl⟩, ⟨-1, by norm_num [m]⟩, by norm_num [Compass]⟩ .nil))
  · intro i j a b _ _ hi hj
    exact hno a (List.mem_of_getElem? hi) b (List.mem_of_getElem? hj)
  · norm_num [Move.Velocity, m]
  · norm_num [Move.Altitude, m]
  · norm_num [Move.Depth, m]
  · exact .cons ⟨by norm_num [m], rfl, rfl⟩ .nil

/-- C276 does not hold between opposite headings: halfway from 0 to 180 the camera faces 90, and halfway from 190 to 10 it faces 100, not 280. -/
theorem C276_opposite_false : ¬ MovedBetween := by
  intro h
  have := (h ⟨0, 190, 0, 0⟩ (fun _ _ => (0, 0)) ⟨0, 0, 0⟩ ⟨0, 0, 0⟩ 1 ⟨0, 0, 0, 0, 0, 0, 0, 0, 0, 0, 0, fun _ => none⟩ ⟨2, 0, 0, 180, 0, 0, 0, 0, 0, 0, 0, fun _ => none⟩
    ⟨0, 0, 0, 190, 0, 0, 0, 0, 0, 0, 0, fun _ => none⟩ ⟨2, 0, 0, 10, 0, 0, 0, 0, 0, 0, 0, fun _ => none⟩
    ⟨by simp, by simp, ⟨0, by simp⟩, by simp, by simp [Move.n], by simp [Move.e], by simp⟩
    ⟨by simp, by simp, ⟨-1, by norm_num⟩, by simp, by simp [Move.n], by simp [Move.e], by simp⟩
    (by norm_num [Compass]) (by norm_num [Compass]) (by norm_num [Compass]) (by norm_num [Compass])).heading
  obtain ⟨k, hk⟩ := this
  simp only [interpolateSensor, interpolateYaw, interpolate] at hk
  norm_num at hk
  have h2 : (k : ℝ) * 2 = -1 := by linarith
  have h3 : k * 2 = -1 := by exact_mod_cast h2
  omega

end Oplab.Props
