import Verif.Props.Sync
import Verif.Props.Offset
import Verif.Props.Rotation
import Verif.Props.SensorList
import Verif.Spec.SmoothRun
import Mathlib.Analysis.Calculus.Deriv.MeanValue
import Mathlib.Analysis.SpecialFunctions.Trigonometric.Bounds

/-! C224: dead reckoning follows any smooth motion, to within a bound that vanishes with the sampling intervals. -/

namespace Oplab.Props
open Oplab Oplab.Spec Oplab.Seek

/-- The line through two samples of a function that changes no faster than `L`. -/
private theorem line_near {f : ℝ → ℝ} {L a b q y : ℝ} (hL : ∀ s t, |f s - f t| ≤ L * |s - t|) (hab : a < b) (h1 : a ≤ q)
    (h2 : q ≤ b) (ho : OnLine a (f a) b (f b) q y) : |y - f q| ≤ L * (b - a) / 2 := by
  have hd : 0 < b - a := sub_pos.2 hab
  simp only [OnLine] at ho
  have key : (y - f q) * (b - a) = (b - q) * (f a - f q) + (q - a) * (f b - f q) := by linear_combination ho
  have e1 := hL a q
  have e2 := hL b q
  rw [abs_of_nonpos (by linarith : a - q ≤ 0)] at e1
  rw [abs_of_nonneg (by linarith : 0 ≤ b - q)] at e2
  have hLn : 0 ≤ L := by
    have := (abs_nonneg _).trans (hL b a)
    rw [abs_of_pos hd] at this
    exact nonneg_of_mul_nonneg_left this hd
  have e3 : |(y - f q) * (b - a)| ≤ (b - q) * (L * (q - a)) + (q - a) * (L * (b - q)) := by
    rw [key]
    refine (abs_add_le _ _).trans (add_le_add ?_ ?_)
    · rw [abs_mul, abs_of_nonneg (by linarith : 0 ≤ b - q)]
      exact mul_le_mul_of_nonneg_left (e1.trans (by linarith)) (by linarith)
    · rw [abs_mul, abs_of_nonneg (by linarith : 0 ≤ q - a)]
      exact mul_le_mul_of_nonneg_left e2 (by linarith)
  rw [abs_mul, abs_of_pos hd] at e3
  have e4 : |y - f q| * (b - a) ≤ (L * (b - a) / 2) * (b - a) := by
    refine e3.trans ?_
    nlinarith [mul_nonneg hLn (sq_nonneg ((b - q) - (q - a)))]
  exact le_of_mul_le_mul_right e4 hd

private theorem curve_near {f : ℝ → ℝ} {L h q y : ℝ} (hL : ∀ s t, |f s - f t| ≤ L * |s - t|) {l : List (ℝ × ℝ)}
    (hs : l.Pairwise fun a b => a.1 < b.1) (hl : ∀ p ∈ l, p.2 = f p.1) (hg : Spaced Prod.fst h l)
    (ho : OnCurve l q y) : |y - f q| ≤ L * h / 2 := by
  obtain ⟨m, a, b, ha, hb, h1, h2, ho⟩ := ho
  have hlt := head_lt_getElem Prod.fst hs ha hb (by omega)
  rw [hl a (List.mem_of_getElem? ha), hl b (List.mem_of_getElem? hb)] at ho
  refine (line_near hL hlt h1 h2 ho).trans ?_
  have hLn : 0 ≤ L := by
    have := (abs_nonneg _).trans (hL b.1 a.1)
    rw [abs_of_pos (sub_pos.2 hlt)] at this
    exact nonneg_of_mul_nonneg_left this (sub_pos.2 hlt)
  have := mul_le_mul_of_nonneg_left (hg m a b ha hb) hLn
  linarith

/-- The mean of the velocities at both ends of an interval. -/
private theorem step_near {f u : ℝ → ℝ} {A a b : ℝ} (hf : ∀ t, HasDerivAt f (u t) t) (hA : ∀ s t, |u s - u t| ≤ A * |s - t|)
    (hab : a < b) : |(b - a) * (u a + u b) / 2 - (f b - f a)| ≤ A * (b - a) / 2 * (b - a) := by
  obtain ⟨c, hc, he⟩ := exists_hasDerivAt_eq_slope f u hab
    (fun t _ => (hf t).continuousAt.continuousWithinAt) (fun t _ => hf t)
  have hd : 0 < b - a := sub_pos.2 hab
  have e0 : f b - f a = u c * (b - a) := by rw [he]; field_simp
  have e1 := hA a c
  have e2 := hA b c
  rw [abs_of_nonpos (by linarith [hc.1] : a - c ≤ 0)] at e1
  rw [abs_of_nonneg (by linarith [hc.2] : 0 ≤ b - c)] at e2
  have key : (b - a) * (u a + u b) / 2 - (f b - f a) = ((u a - u c) + (u b - u c)) / 2 * (b - a) := by rw [e0]; ring
  rw [key, abs_mul, abs_of_pos hd]
  refine mul_le_mul_of_nonneg_right ?_ hd.le
  rw [abs_div, abs_of_pos (by norm_num : (0 : ℝ) < 2)]
  have := (abs_add_le (u a - u c) (u b - u c)).trans (add_le_add e1 e2)
  linarith

/-- Turning a short vector. -/
private theorem turned_small (r p y : ℝ) {d : V3 ℝ} {ε : ℝ} (hx : |d.x| ≤ ε) (hy : |d.y| ≤ ε) (hz : |d.z| ≤ ε) :
    |(bodyToInertial r p y d).x| ≤ 2 * ε ∧ |(bodyToInertial r p y d).y| ≤ 2 * ε := by
  have hε : 0 ≤ ε := (abs_nonneg _).trans hx
  have h := C01_preserves_dot r p y d d
  generalize bodyToInertial r p y d = e at h
  simp only [dot] at h
  have q1 := sq_le_sq' (by linarith [(abs_le.1 hx).1] : -ε ≤ d.x) (abs_le.1 hx).2
  have q2 := sq_le_sq' (by linarith [(abs_le.1 hy).1] : -ε ≤ d.y) (abs_le.1 hy).2
  have q3 := sq_le_sq' (by linarith [(abs_le.1 hz).1] : -ε ≤ d.z) (abs_le.1 hz).2
  constructor
  · refine abs_le_of_sq_le_sq ?_ (by linarith)
    nlinarith [sq_nonneg e.y, sq_nonneg e.z, sq_nonneg ε]
  · refine abs_le_of_sq_le_sq ?_ (by linarith)
    nlinarith [sq_nonneg e.x, sq_nonneg e.z, sq_nonneg ε]

private theorem turned_diff (r p y : ℝ) (a b : V3 ℝ) :
    (bodyToInertial r p y ⟨a.x - b.x, a.y - b.y, a.z - b.z⟩).x = (bodyToInertial r p y a).x - (bodyToInertial r p y b).x ∧
    (bodyToInertial r p y ⟨a.x - b.x, a.y - b.y, a.z - b.z⟩).y = (bodyToInertial r p y a).y - (bodyToInertial r p y b).y ∧
    (bodyToInertial r p y ⟨a.x - b.x, a.y - b.y, a.z - b.z⟩).z = (bodyToInertial r p y a).z - (bodyToInertial r p y b).z := by
  simp only [C01_is_zyx_rotation, rotX, rotY, rotZ]
  refine ⟨?_, ?_, ?_⟩ <;> ring

private theorem arm_none (v w : V3 ℝ) : correctLeverArm v w ⟨0, 0, 0⟩ = v := by
  simp [correctLeverArm]

variable {m : Journey} {floor A B U ho hv ha hd : ℝ} {depth : V3 ℝ} {os : List (Attitude ℝ)} {vs : List (VelMeas ℝ)}
  {alts : List (ℝ × ℝ)} {ds : List (DepthSample ℝ)}

private theorem att_turned {t r p y : ℝ} (h : m.HasAttitude t r p y) (u : V3 ℝ) :
    bodyToInertial r p y u = m.turned t u := by
  obtain ⟨h1, h2, k, h3⟩ := h
  rw [C01_is_zyx_rotation, Journey.turned, h1, h2, h3,
    show rad ((m.rpy t).z + 360 * k) = rad (m.rpy t).z + k * (2 * Real.pi) by simp only [rad]; ring]
  simp only [rotZ, Real.cos_add_int_mul_two_pi, Real.sin_add_int_mul_two_pi]

/-- How well an entry knows the velocity, altitude and depth of its time. -/
private theorem entry_near (hx : SyncRecords (vehicleSync ⟨0, 0, 0⟩ os vs alts ds)) (hs : Sampled m floor depth os vs alts ds)
    (hB : NoFaster B m.body) (hU : NoFaster U m.pos) (hUd : NoFaster U (m.mountAt depth))
    (gv : Spaced (·.t) hv vs) (ga : Spaced Prod.fst ha alts) (gd : Spaced (·.t) hd ds)
    {e : Synced ℝ} (he : EntryOk (vehicleSync ⟨0, 0, 0⟩ os vs alts ds) e) :
    m.HasAttitude e.att.t e.att.roll e.att.pitch e.att.yaw ∧
      |e.inertial.x - (m.vel e.att.t).x| ≤ B * hv ∧ |e.inertial.y - (m.vel e.att.t).y| ≤ B * hv ∧
      |e.alt - (floor - (m.pos e.att.t).z)| ≤ U * ha / 2 ∧ |e.depth - (m.mountAt depth e.att.t).z| ≤ U * hd / 2 ∧
      |e.v.x - (m.body e.att.t).x| ≤ B * hv / 2 ∧ |e.v.y - (m.body e.att.t).y| ≤ B * hv / 2 ∧
      |e.v.z - (m.body e.att.t).z| ≤ B * hv / 2 := by
  obtain ⟨i, raw, w, hi, hvx, hvy, hvz, hw, hvv, hin, -, -, -, hal, hde, -⟩ := he
  have hat := hs.attitude e.att (List.mem_of_getElem? hi)
  have hev : e.v = raw := by rw [hvv]; exact arm_none _ _
  have sp : ∀ f : V3 ℝ → ℝ, Spaced Prod.fst hv (vs.map fun k => (k.t, f k.v)) := by
    intro f i a b h1 h2
    rw [List.getElem?_map, Option.map_eq_some_iff] at h1 h2
    obtain ⟨a', h1, rfl⟩ := h1
    obtain ⟨b', h2, rfl⟩ := h2
    exact gv i a' b' h1 h2
  have cv : ∀ (f : V3 ℝ → ℝ) (y : ℝ), (∀ s t, |f (m.body s) - f (m.body t)| ≤ B * |s - t|) →
      OnCurve (vs.map fun k => (k.t, f k.v)) e.att.t y → |y - f (m.body e.att.t)| ≤ B * hv / 2 := by
    intro f y hl h
    refine curve_near (f := fun t => f (m.body t)) hl (List.pairwise_map.2 hx.vs.2) ?_ (sp f) h
    intro p hp
    obtain ⟨k, hk, rfl⟩ := List.mem_map.1 hp
    simp only
    rw [hs.velocity k hk]
  have n1 := cv V3.x _ (fun s t => (hB s t).1) hvx
  have n2 := cv V3.y _ (fun s t => (hB s t).2.1) hvy
  have n3 := cv V3.z _ (fun s t => (hB s t).2.2) hvz
  have hrot := turned_small e.att.roll e.att.pitch e.att.yaw
    (d := ⟨raw.x - (m.body e.att.t).x, raw.y - (m.body e.att.t).y, raw.z - (m.body e.att.t).z⟩) n1 n2 n3
  obtain ⟨d1, d2, -⟩ := turned_diff e.att.roll e.att.pitch e.att.yaw raw (m.body e.att.t)
  have hin' : e.inertial = bodyToInertial e.att.roll e.att.pitch e.att.yaw raw := by rw [hin, hev]; rfl
  rw [d1, d2, ← hin', att_turned hat] at hrot
  refine ⟨hat, ?_, ?_, ?_, ?_, ?_, ?_, ?_⟩
  · refine hrot.1.trans (by linarith)
  · refine hrot.2.trans (by linarith)
  · refine curve_near (f := fun t => floor - (m.pos t).z) (fun s t => ?_) hx.alts.2 hs.altitude ga hal
    have := (hU s t).2.2
    rw [abs_sub_comm] at this
    simpa using this
  · refine curve_near (f := fun t => (m.mountAt depth t).z) (fun s t => (hUd s t).2.2) (List.pairwise_map.2 hx.ds.2) ?_ ?_ hde
    · intro p hp
      obtain ⟨k, hk, rfl⟩ := List.mem_map.1 hp
      simp only
      rw [hs.depth k hk]
    · intro i a b h1 h2
      rw [List.getElem?_map, Option.map_eq_some_iff] at h1 h2
      obtain ⟨a', h1, rfl⟩ := h1
      obtain ⟨b', h2, rfl⟩ := h2
      exact gd i a' b' h1 h2
  · rw [hev]; exact n1
  · rw [hev]; exact n2
  · rw [hev]; exact n3

/-- Successive kept measurements are successive measurements. -/
private theorem kept_spaced (hsort : os.Pairwise fun a b => a.t < b.t) (hg : Spaced (·.t) ho os) (lo hi : ℝ) (n : ℕ) :
    Spaced (·.t) ho ((os.filter fun o => decide (lo ≤ o.t ∧ o.t ≤ hi)).drop n) := by
  intro k a b ha hb
  rw [List.getElem?_drop] at ha hb
  generalize hF : os.filter (fun o => decide (lo ≤ o.t ∧ o.t ≤ hi)) = F at ha hb
  have hFs : F.Pairwise fun a b => a.t < b.t := by rw [← hF]; exact hsort.sublist List.filter_sublist
  have hma : a ∈ F := List.mem_of_getElem? ha
  have hmb : b ∈ F := List.mem_of_getElem? hb
  have hlt : a.t < b.t := head_lt_getElem (fun x : Attitude ℝ => x.t) hFs ha hb (by omega)
  rw [← hF, List.mem_filter, decide_eq_true_eq] at hma hmb
  obtain ⟨i, hi'⟩ := List.mem_iff_getElem?.1 hma.1
  obtain ⟨j, hj⟩ := List.mem_iff_getElem?.1 hmb.1
  have hij : i < j := by
    by_contra hc
    rcases Nat.lt_or_eq_of_le (not_lt.1 hc) with h | h
    · have := head_lt_getElem (fun x : Attitude ℝ => x.t) hsort hj hi' h
      linarith
    · subst h
      rw [hi'] at hj
      cases hj
      exact lt_irrefl _ hlt
  have hjl := (List.getElem?_eq_some_iff.1 hj).1
  obtain ⟨c, hc⟩ : ∃ c, os[i + 1]? = some c := ⟨_, List.getElem?_eq_getElem (by omega)⟩
  have hac : a.t < c.t := head_lt_getElem (fun x : Attitude ℝ => x.t) hsort hi' hc (by omega)
  rcases Nat.lt_or_eq_of_le (show i + 1 ≤ j from hij) with h | h
  · exfalso
    have hcb : c.t < b.t := head_lt_getElem (fun x : Attitude ℝ => x.t) hsort hc hj h
    have hcF : c ∈ F := by
      rw [← hF, List.mem_filter, decide_eq_true_eq]
      exact ⟨List.mem_of_getElem? hc, by linarith [hma.2.1], by linarith [hmb.2.2]⟩
    obtain ⟨q, hq⟩ := List.mem_iff_getElem?.1 hcF
    rcases Nat.lt_trichotomy q (n + k) with h | h | h
    · have := head_lt_getElem (fun x : Attitude ℝ => x.t) hFs hq ha h
      linarith
    · subst h
      rw [ha] at hq
      cases hq
      exact lt_irrefl _ hac
    · rcases Nat.lt_or_eq_of_le (show n + k + 1 ≤ q from h) with h' | h'
      · have := head_lt_getElem (fun x : Attitude ℝ => x.t) hFs hb hq (by omega)
        linarith
      · have : n + (k + 1) = q := by omega
        rw [this, hq] at hb
        cases hb
        exact lt_irrefl _ hcb
  · rw [h, hj] at hc
    cases hc
    exact hg i a b hi' (by rw [h]; exact hj)

/-- Adding up the steps. -/
private theorem steps_near {l : List (Synced ℝ × (ℝ × ℝ))} {g : Synced ℝ × (ℝ × ℝ) → ℝ} {w : Synced ℝ → ℝ} {f u : ℝ → ℝ}
    {ε : ℝ} (hf : ∀ t, HasDerivAt f (u t) t) (hA : ∀ s t, |u s - u t| ≤ A * |s - t|)
    (hw : ∀ e ∈ l, |w e.1 - u e.1.att.t| ≤ ε)
    (hstep : ∀ (k : ℕ) a b, l[k]? = some a → l[k + 1]? = some b → g b - g a = (b.1.att.t - a.1.att.t) * (w a.1 + w b.1) / 2)
    (hsort : l.Pairwise fun a b => a.1.att.t < b.1.att.t) (hgap : Spaced (fun e => e.1.att.t) ho l) (k : ℕ) :
    ∀ (d : ℕ) a b, l[k]? = some a → l[k + d]? = some b →
      |(g b - g a) - (f b.1.att.t - f a.1.att.t)| ≤ (b.1.att.t - a.1.att.t) * (ε + A * ho / 2) := by
  intro d
  induction d with
  | zero =>
    intro a b ha hb
    rw [Nat.add_zero, ha] at hb
    cases hb
    simp
  | succ d ih =>
    intro a c ha hc
    have hlen := (List.getElem?_eq_some_iff.1 hc).1
    obtain ⟨b, hb⟩ : ∃ b, l[k + d]? = some b := ⟨_, List.getElem?_eq_getElem (by omega)⟩
    have i1 := ih a b ha hb
    have hlt : b.1.att.t < c.1.att.t :=
      head_lt_getElem (fun x : Synced ℝ × (ℝ × ℝ) => x.1.att.t) hsort hb hc (by omega)
    have hs := hstep (k + d) b c hb hc
    have hg := hgap (k + d) b c hb hc
    have hm := step_near hf hA hlt
    have w1 := hw b (List.mem_of_getElem? hb)
    have w2 := hw c (List.mem_of_getElem? hc)
    simp only at hg
    have hD : 0 < c.1.att.t - b.1.att.t := sub_pos.2 hlt
    have hAn : 0 ≤ A := by
      have := (abs_nonneg _).trans (hA c.1.att.t b.1.att.t)
      rw [abs_of_pos hD] at this
      exact nonneg_of_mul_nonneg_left this hD
    have h1 : |(g c - g b) - (f c.1.att.t - f b.1.att.t)| ≤ (c.1.att.t - b.1.att.t) * (ε + A * ho / 2) := by
      have key : (g c - g b) - (f c.1.att.t - f b.1.att.t) =
          ((c.1.att.t - b.1.att.t) * (u b.1.att.t + u c.1.att.t) / 2 - (f c.1.att.t - f b.1.att.t)) +
          (c.1.att.t - b.1.att.t) * (((w b.1 - u b.1.att.t) + (w c.1 - u c.1.att.t)) / 2) := by rw [hs]; ring
      rw [key]
      refine (abs_add_le _ _).trans ?_
      have h2 : |(c.1.att.t - b.1.att.t) * (((w b.1 - u b.1.att.t) + (w c.1 - u c.1.att.t)) / 2)| ≤
          (c.1.att.t - b.1.att.t) * ε := by
        rw [abs_mul, abs_of_pos hD]
        refine mul_le_mul_of_nonneg_left ?_ hD.le
        rw [abs_div, abs_of_pos (by norm_num : (0 : ℝ) < 2)]
        have := (abs_add_le (w b.1 - u b.1.att.t) (w c.1 - u c.1.att.t)).trans (add_le_add w1 w2)
        linarith
      have h3 : A * (c.1.att.t - b.1.att.t) / 2 * (c.1.att.t - b.1.att.t) ≤ A * ho / 2 * (c.1.att.t - b.1.att.t) :=
        mul_le_mul_of_nonneg_right (by linarith [mul_le_mul_of_nonneg_left hg hAn]) hD.le
      linarith
    have key : (g c - g a) - (f c.1.att.t - f a.1.att.t) =
        ((g b - g a) - (f b.1.att.t - f a.1.att.t)) + ((g c - g b) - (f c.1.att.t - f b.1.att.t)) := by ring
    rw [key]
    refine (abs_add_le _ _).trans ((add_le_add i1 h1).trans ?_)
    rw [← add_mul]
    apply le_of_eq
    ring

/-- The vehicle and its sensors: `A` bounds the accelerations, `B` the changes of the velocity along the vehicle's axes, `U`
the speeds; the intervals between measurements of attitude, velocity, altitude and depth are at most `ho`, `hv`, `ha`, `hd`. -/
structure SmoothRun (m : Journey) (floor A B U ho hv ha hd : ℝ) (origin depth : V3 ℝ) (os : List (Attitude ℝ))
    (vs : List (VelMeas ℝ)) (alts : List (ℝ × ℝ)) (ds : List (DepthSample ℝ)) : Prop where
  motion : m.Consistent
  acceleration : NoFaster A m.vel
  bodyRate : NoFaster B m.body
  speed : NoFaster U m.pos
  speedDepth : NoFaster U (m.mountAt depth)
  speedOrigin : NoFaster U (m.mountAt origin)
  exact : Sampled m floor depth os vs alts ds
  attitudes : Spaced (·.t) ho os
  velocities : Spaced (·.t) hv vs
  altitudes : Spaced Prod.fst ha alts
  depths : Spaced (·.t) hd ds
  records : SyncRecords (vehicleSync ⟨0, 0, 0⟩ os vs alts ds)

variable {origin : V3 ℝ}

private theorem centres_near (h : SmoothRun m floor A B U ho hv ha hd origin depth os vs alts ds) :
    ∃ l : List (Synced ℝ × (ℝ × ℝ)), syncRun (vehicleSync ⟨0, 0, 0⟩ os vs alts ds) = .ok l ∧
      (∃ v0 ∈ vs.head?, ∃ vE ∈ vs.getLast?, (l.map (centreOf origin ⟨0, 0, 0⟩ depth)).map (·.t) =
        ((os.filter fun o => decide (v0.t ≤ o.t ∧ o.t ≤ vE.t)).drop
          (if (os.filter fun o => decide (o.t < v0.t)).length = 1 then 1 else 0)).map (·.t)) ∧
      (l.map (centreOf origin ⟨0, 0, 0⟩ depth)).Pairwise (fun a b => a.t < b.t) ∧
      Spaced (·.t) ho (l.map (centreOf origin ⟨0, 0, 0⟩ depth)) ∧
      (∀ c ∈ l.map (centreOf origin ⟨0, 0, 0⟩ depth), CentreNear m floor B U hv ha hd origin c) ∧
      (∀ c ∈ l.map (centreOf origin ⟨0, 0, 0⟩ depth), ∃ o ∈ os, o.t = c.t ∧ o.roll = c.roll ∧ o.pitch = c.pitch ∧ o.yaw = c.yaw) ∧
      ∀ (k d : ℕ) a b, (l.map (centreOf origin ⟨0, 0, 0⟩ depth))[k]? = some a →
        (l.map (centreOf origin ⟨0, 0, 0⟩ depth))[k + d]? = some b →
        |(b.northings - a.northings) - ((m.mountAt origin b.t).x - (m.mountAt origin a.t).x)| ≤
          (b.t - a.t) * (B * hv + A * ho / 2) ∧
        |(b.eastings - a.eastings) - ((m.mountAt origin b.t).y - (m.mountAt origin a.t).y)| ≤
          (b.t - a.t) * (B * hv + A * ho / 2) := by
  obtain ⟨l, v0, vE, hrun, hv0, hvE, hatt, hent, hrec, -⟩ := C79_synchronised_partial _ h.records
  have hen := fun e he => entry_near h.records h.exact h.bodyRate h.speed h.speedDepth h.velocities h.altitudes h.depths (hent e he)
  have hsa : (l.map (·.1.att)).Pairwise fun a b => a.t < b.t := by
    rw [hatt]
    exact (h.records.osSorted.sublist List.filter_sublist).sublist (List.drop_sublist _ _)
  have hsort : l.Pairwise fun a b => a.1.att.t < b.1.att.t :=
    (List.pairwise_map (f := fun x : Synced ℝ × (ℝ × ℝ) => x.1.att) (R := fun a b => a.t < b.t)).1 hsa
  have hgap : Spaced (fun e : Synced ℝ × (ℝ × ℝ) => e.1.att.t) ho l := by
    have := kept_spaced h.records.osSorted h.attitudes v0.t vE.t
      (if ((vehicleSync ⟨0, 0, 0⟩ os vs alts ds).os.filter fun o => decide (o.t < v0.t)).length = 1 then 1 else 0)
    intro i a b h1 h2
    refine this i a.1.att b.1.att ?_ ?_
    · have e := congrArg (fun z => z[i]?) hatt
      simp only [List.getElem?_map, h1, Option.map_some] at e
      exact e.symm
    · have e := congrArg (fun z => z[i + 1]?) hatt
      simp only [List.getElem?_map, h2, Option.map_some] at e
      exact e.symm
  refine ⟨l, hrun, ⟨v0, hv0, vE, hvE, ?_⟩, List.pairwise_map.2 hsort, ?_, ?_, ?_, ?_⟩
  · have := congrArg (List.map fun a : Attitude ℝ => a.t) hatt
    rw [List.map_map] at this ⊢
    exact this
  · intro i a b h1 h2
    rw [List.getElem?_map, Option.map_eq_some_iff] at h1 h2
    obtain ⟨a, h1, rfl⟩ := h1
    obtain ⟨b, h2, rfl⟩ := h2
    exact hgap i a b h1 h2
  · intro c hc
    obtain ⟨e, he, rfl⟩ := List.mem_map.1 hc
    obtain ⟨t1, -, -, t4, t5, t6, t7, t8⟩ := hen e he
    obtain ⟨-, -, d3⟩ := turned_diff e.1.att.roll e.1.att.pitch e.1.att.yaw origin depth
    obtain ⟨-, -, d4⟩ := turned_diff e.1.att.roll e.1.att.pitch e.1.att.yaw origin ⟨0, 0, 0⟩
    have z0 : (m.turned e.1.att.t ⟨0, 0, 0⟩).z = 0 := by simp [Journey.turned, rotX, rotY, rotZ]
    refine ⟨t1, t6, t7, t8, ?_, ?_⟩
    · simp only [centreOf, toCentre, d3]
      simp only [att_turned t1, Journey.mountAt, add] at t5 ⊢
      rw [show ∀ a b c d : ℝ, a + (b - c) - (d + b) = a - (d + c) by intros; ring]
      exact t5
    · simp only [centreOf, toCentre, d4]
      simp only [att_turned t1, Journey.mountAt, add, z0]
      rw [show ∀ a b c d : ℝ, a - (b - 0) - (c - (d + b)) = a - (c - d) by intros; ring]
      exact t4
  · intro c hc
    obtain ⟨e, he, rfl⟩ := List.mem_map.1 hc
    have hm : e.1.att ∈ l.map (·.1.att) := List.mem_map.2 ⟨e, he, rfl⟩
    rw [hatt] at hm
    exact ⟨e.1.att, (List.mem_filter.1 (List.mem_of_mem_drop hm)).1, rfl, rfl, rfl, rfl⟩
  · intro k d a b h1 h2
    rw [List.getElem?_map, Option.map_eq_some_iff] at h1 h2
    obtain ⟨a, h1, rfl⟩ := h1
    obtain ⟨b, h2, rfl⟩ := h2
    have ta := (hen a (List.mem_of_getElem? h1)).1
    have tb := (hen b (List.mem_of_getElem? h2)).1
    have z0 : ∀ t, (m.turned t ⟨0, 0, 0⟩).x = 0 ∧ (m.turned t ⟨0, 0, 0⟩).y = 0 := by
      intro t
      simp [Journey.turned, rotX, rotY, rotZ]
    obtain ⟨a1, a2, -⟩ := turned_diff a.1.att.roll a.1.att.pitch a.1.att.yaw origin ⟨0, 0, 0⟩
    obtain ⟨b1, b2, -⟩ := turned_diff b.1.att.roll b.1.att.pitch b.1.att.yaw origin ⟨0, 0, 0⟩
    have n1 := steps_near (g := fun e => e.2.1) (w := fun e => e.inertial.x) (f := fun t => (m.pos t).x)
      (u := fun t => (m.vel t).x) (A := A) (ε := B * hv) (fun t => (h.motion t).1) (fun s t => (h.acceleration s t).1)
      (fun e he => (hen e he).2.1) (fun k a b h1 h2 => (hrec k a b h1 h2).1) hsort hgap k d a b h1 h2
    have n2 := steps_near (g := fun e => e.2.2) (w := fun e => e.inertial.y) (f := fun t => (m.pos t).y)
      (u := fun t => (m.vel t).y) (A := A) (ε := B * hv) (fun t => (h.motion t).2.1) (fun s t => (h.acceleration s t).2.1)
      (fun e he => (hen e he).2.2.1) (fun k a b h1 h2 => (hrec k a b h1 h2).2) hsort hgap k d a b h1 h2
    constructor
    · simp only [centreOf, toCentre, a1, b1]
      simp only [att_turned ta, att_turned tb, Journey.mountAt, add, z0]
      rw [show ∀ p q x y u v : ℝ, p + (x - 0) - (q + (y - 0)) - (u + x - (v + y)) = p - q - (u - v) by intros; ring]
      exact n1
    · simp only [centreOf, toCentre, a2, b2]
      simp only [att_turned ta, att_turned tb, Journey.mountAt, add, z0]
      rw [show ∀ p q x y u v : ℝ, p + (x - 0) - (q + (y - 0)) - (u + x - (v + y)) = p - q - (u - v) by intros; ring]
      exact n2

private theorem zip_same {α β : Type} (f : α → β) (g : α → β → α) : ∀ l : List α, List.zipWith g l (l.map f) = l.map fun a => g a (f a)
  | [] => rfl
  | a :: l => by simp [zip_same f g l]

/-- C224 (without fixes): the measurements of attitude during those of velocity are kept (but the first, see C79); every entry has the attitude, velocity, depth and altitude of its time, and between any two entries
the dead reckoned displacement differs from the true one by at most `B * hv + A * ho / 2` for each second. -/
theorem C224_displacement (h : SmoothRun m floor A B U ho hv ha hd origin depth os vs alts ds) :
    ∃ cs, drCentre origin ⟨0, 0, 0⟩ depth (vehicleSync ⟨0, 0, 0⟩ os vs alts ds) [] = .ok cs ∧
      (∃ v0 ∈ vs.head?, ∃ vE ∈ vs.getLast?, cs.map (·.t) =
        ((os.filter fun o => decide (v0.t ≤ o.t ∧ o.t ≤ vE.t)).drop
          (if (os.filter fun o => decide (o.t < v0.t)).length = 1 then 1 else 0)).map (·.t)) ∧
      cs.Pairwise (fun a b => a.t < b.t) ∧ Spaced (·.t) ho cs ∧ (∀ c ∈ cs, CentreNear m floor B U hv ha hd origin c) ∧
      (∀ c ∈ cs, ∃ o ∈ os, o.t = c.t ∧ o.roll = c.roll ∧ o.pitch = c.pitch ∧ o.yaw = c.yaw) ∧
      ∀ a ∈ cs, ∀ b ∈ cs,
        |(b.northings - a.northings) - ((m.mountAt origin b.t).x - (m.mountAt origin a.t).x)| ≤
          |b.t - a.t| * (B * hv + A * ho / 2) ∧
        |(b.eastings - a.eastings) - ((m.mountAt origin b.t).y - (m.mountAt origin a.t).y)| ≤
          |b.t - a.t| * (B * hv + A * ho / 2) := by
  obtain ⟨l, hrun, hkeep, hs, hg, hc, hme, hn⟩ := centres_near h
  refine ⟨l.map (centreOf origin ⟨0, 0, 0⟩ depth), ?_, hkeep, hs, hg, hc, hme, ?_⟩
  · rw [drCentre, hrun]
    simp only [bind, Except.bind, alignTrack, if_pos]
    rw [zip_same]
    simp
  · generalize l.map (centreOf origin ⟨0, 0, 0⟩ depth) = cs at hs hn
    have key : ∀ (i j : ℕ) a b, i ≤ j → cs[i]? = some a → cs[j]? = some b →
        |(b.northings - a.northings) - ((m.mountAt origin b.t).x - (m.mountAt origin a.t).x)| ≤
          |b.t - a.t| * (B * hv + A * ho / 2) ∧
        |(b.eastings - a.eastings) - ((m.mountAt origin b.t).y - (m.mountAt origin a.t).y)| ≤
          |b.t - a.t| * (B * hv + A * ho / 2) := by
      intro i j a b hij ha hb
      have h1 := hn i (j - i) a b ha (by rw [show i + (j - i) = j by omega]; exact hb)
      rcases Nat.eq_or_lt_of_le hij with rfl | hij
      · rw [ha] at hb
        cases hb
        simp
      · rw [abs_of_pos (sub_pos.2 (head_lt_getElem Centre.t hs ha hb hij))]
        exact h1
    intro a hma b hmb
    obtain ⟨i, hi⟩ := List.mem_iff_getElem?.1 hma
    obtain ⟨j, hj⟩ := List.mem_iff_getElem?.1 hmb
    rcases Nat.le_total i j with hij | hij
    · exact key i j a b hij hi hj
    · have := key j i b a hij hj hi
      rw [abs_sub_comm b.t, ← abs_neg (_ - _ - _), ← abs_neg (b.eastings - _ - _)]
      convert this using 3 <;> ring

/-- The mean of what is near `x` is near `x`. -/
private theorem mean_near {x E : ℝ} : ∀ l : List ℝ, (∀ y ∈ l, |y - x| ≤ E) → |l.sum - l.length * x| ≤ l.length * E
  | [], _ => by simp
  | y :: l, h => by
    have h1 := mean_near l (fun z hz => h z (List.mem_cons_of_mem _ hz))
    have h2 := h y List.mem_cons_self
    simp only [List.sum_cons, List.length_cons]
    push_cast
    rw [show y + l.sum - ((l.length : ℝ) + 1) * x = (y - x) + (l.sum - l.length * x) by ring]
    refine (abs_add_le _ _).trans ?_
    linarith

private theorem sums_near {α : Type} (f : α → ℝ) {x E : ℝ} : ∀ (pos : List ℝ) (used : List α), pos.length = used.length →
    (∀ (i : ℕ) u p, used[i]? = some u → pos[i]? = some p → |p - f u - x| ≤ E) →
    |pos.sum - (used.map f).sum - used.length * x| ≤ used.length * E := by
  intro pos
  induction pos with
  | nil =>
    intro used hl _
    have : used = [] := List.length_eq_zero_iff.1 hl.symm
    subst this
    simp
  | cons p pos ih =>
    intro used hl h
    cases used with
    | nil => simp at hl
    | cons u used =>
      have h1 := ih used (by simpa using hl) (fun i v q hv hq => h (i + 1) v q (by simpa using hv) (by simpa using hq))
      have h2 := h 0 u p rfl rfl
      simp only [List.sum_cons, List.map_cons, List.length_cons]
      push_cast
      rw [show p + pos.sum - (f u + (used.map f).sum) - ((used.length : ℝ) + 1) * x =
        (p - f u - x) + (pos.sum - (used.map f).sum - used.length * x) by ring]
      refine (abs_add_le _ _).trans ?_
      linarith

/-- A point between two entries of a track that follows `f` but for errors near `x`. -/
private theorem between_near {f : ℝ → ℝ} {L h E x : ℝ} (hL : ∀ s t, |f s - f t| ≤ L * |s - t|) {l : List (ℝ × ℝ)}
    (hs : l.Pairwise fun a b => a.1 < b.1) (hl : ∀ p ∈ l, |p.2 - f p.1 - x| ≤ E) (hg : Spaced Prod.fst h l)
    {q y : ℝ} (ho : OnCurve l q y) : |y - f q - x| ≤ E + L * h / 2 := by
  obtain ⟨k, a, b, ha, hb, h1, h2, ho⟩ := ho
  have hlt := head_lt_getElem Prod.fst hs ha hb (by omega)
  have hd : 0 < b.1 - a.1 := sub_pos.2 hlt
  have ea := hl a (List.mem_of_getElem? ha)
  have eb := hl b (List.mem_of_getElem? hb)
  have hg := hg k a b ha hb
  simp only [OnLine] at ho
  obtain ⟨z, hz⟩ : ∃ z, OnLine a.1 (f a.1) b.1 (f b.1) q z :=
    ⟨f a.1 + (q - a.1) * (f b.1 - f a.1) / (b.1 - a.1), by simp only [OnLine]; field_simp; ring⟩
  have n1 := line_near hL hlt h1 h2 hz
  simp only [OnLine] at hz
  have hLn : 0 ≤ L := by
    have := (abs_nonneg _).trans (hL b.1 a.1)
    rw [abs_of_pos hd] at this
    exact nonneg_of_mul_nonneg_left this hd
  have n2 : |y - z - x| ≤ E := by
    have key : (y - z - x) * (b.1 - a.1) = (b.1 - q) * (a.2 - f a.1 - x) + (q - a.1) * (b.2 - f b.1 - x) := by
      linear_combination ho - hz
    refine le_of_mul_le_mul_right ?_ hd
    rw [← abs_of_pos hd, ← abs_mul, abs_of_pos hd, key]
    refine (abs_add_le _ _).trans ?_
    rw [abs_mul, abs_mul, abs_of_nonneg (by linarith : 0 ≤ b.1 - q), abs_of_nonneg (by linarith : 0 ≤ q - a.1)]
    have m1 := mul_le_mul_of_nonneg_left ea (by linarith : 0 ≤ b.1 - q)
    have m2 := mul_le_mul_of_nonneg_left eb (by linarith : 0 ≤ q - a.1)
    linarith
  have n3 := mul_le_mul_of_nonneg_left hg hLn
  rw [show y - f q - x = (y - z - x) + (z - f q) by ring]
  refine (abs_add_le _ _).trans ?_
  linarith

private theorem lip_nonneg {f : ℝ → V3 ℝ} {L : ℝ} (h : NoFaster L f) : 0 ≤ L := by
  have := (abs_nonneg _).trans (h 1 0).1
  simpa using this

/-- C224: with fixes of a transponder at the vehicle's origin, every entry is within the error dead reckoning can collect during
the dive, and half of what the vehicle moves between two measurements of its attitude, of where the vehicle was. -/
theorem C224_track (h : SmoothRun m floor A B U ho hv ha hd origin depth os vs alts ds) (us : List (TrackPt ℝ))
    (hu : FixedAt m origin us) (cs : List Centre) (d0 dl : TrackPt ℝ)
    (hcs : drCentre origin ⟨0, 0, 0⟩ depth (vehicleSync ⟨0, 0, 0⟩ os vs alts ds) [] = .ok cs)
    (hoff : OffsetRecords (cs.map fun c => ⟨c.t, c.northings, c.eastings⟩) us d0 dl) :
    ∃ out, drCentre origin ⟨0, 0, 0⟩ depth (vehicleSync ⟨0, 0, 0⟩ os vs alts ds) us = .ok out ∧
      out.map (·.t) = cs.map (·.t) ∧ (∀ c ∈ out, CentreNear m floor B U hv ha hd origin c) ∧
      (∀ c ∈ out, ∃ o ∈ os, o.t = c.t ∧ o.roll = c.roll ∧ o.pitch = c.pitch ∧ o.yaw = c.yaw) ∧
      ∀ c ∈ out,
        |c.northings - (m.mountAt origin c.t).x| ≤ (dl.t - d0.t) * (B * hv + A * ho / 2) + U * ho / 2 ∧
        |c.eastings - (m.mountAt origin c.t).y| ≤ (dl.t - d0.t) * (B * hv + A * ho / 2) + U * ho / 2 := by
  obtain ⟨cs', hcs', -, hs, hg, hc, hme, hn⟩ := C224_displacement h
  rw [hcs] at hcs'
  have := Except.ok.inj hcs'
  subst this
  clear hcs'
  obtain ⟨o, pos, hofs, used, hused, hne, hlen, hon, ho1, ho2⟩ := C82_used_fixes_partial _ us d0 dl hoff
  have hus : us ≠ [] := by
    intro he
    rw [hused, he] at hne
    simp at hne
  have hE : 0 ≤ B * hv + A * ho / 2 := by
    have hvn : 0 ≤ hv := by
      obtain ⟨h2, hsv⟩ := h.records.vs
      have h2 : 2 ≤ vs.length := h2
      have e0 : vs[0]? = some vs[0] := List.getElem?_eq_getElem (by omega)
      have e1 : vs[0 + 1]? = some vs[0 + 1] := List.getElem?_eq_getElem (by omega)
      have := h.velocities 0 _ _ e0 e1
      have := head_lt_getElem (fun x : VelMeas ℝ => x.t) hsv e0 e1 (by omega)
      linarith
    have hon : 0 ≤ ho := by
      have h3 : 3 ≤ os.length := h.records.os3
      have e0 : os[0]? = some os[0] := List.getElem?_eq_getElem (by omega)
      have e1 : os[0 + 1]? = some os[0 + 1] := List.getElem?_eq_getElem (by omega)
      have := h.attitudes 0 _ _ e0 e1
      have := head_lt_getElem (fun x : Attitude ℝ => x.t) h.records.osSorted e0 e1 (by omega)
      linarith
    have := mul_nonneg (lip_nonneg h.bodyRate) hvn
    have := mul_nonneg (lip_nonneg h.acceleration) hon
    linarith
  have hspan : ∀ a ∈ cs, ∀ b ∈ cs, |b.t - a.t| ≤ dl.t - d0.t := by
    have hb : ∀ a ∈ cs, d0.t ≤ a.t ∧ a.t ≤ dl.t := by
      intro a ha
      obtain ⟨i, hi⟩ := List.mem_iff_getElem?.1 ha
      have h1 := hoff.first
      have h2 := hoff.last
      rw [List.head?_map, List.head?_eq_getElem?, Option.map_eq_some_iff] at h1
      rw [List.getLast?_map, List.getLast?_eq_getElem?, Option.map_eq_some_iff] at h2
      obtain ⟨c0, h1, rfl⟩ := h1
      obtain ⟨cl, h2, rfl⟩ := h2
      simp only
      have hil := (List.getElem?_eq_some_iff.1 hi).1
      constructor
      · rcases Nat.eq_zero_or_pos i with rfl | hp
        · rw [hi] at h1
          cases h1
          exact le_refl _
        · exact (head_lt_getElem Centre.t hs h1 hi hp).le
      · rcases Nat.eq_or_lt_of_le (show i ≤ cs.length - 1 by omega) with rfl | hp
        · rw [hi] at h2
          cases h2
          exact le_refl _
        · exact (head_lt_getElem Centre.t hs hi h2 hp).le
    intro a ha b hb'
    have := hb a ha
    have := hb b hb'
    rw [abs_le]
    constructor <;> linarith
  have hpl : (0 : ℝ) < used.length := by exact_mod_cast List.length_pos_iff.2 hne
  have shift : ∀ (g : Centre → ℝ) (f : ℝ → ℝ) (pr : TrackPt ℝ → ℝ) (ps : List ℝ), (∀ s t, |f s - f t| ≤ U * |s - t|) →
      (∀ u ∈ us, pr u = f u.t) →
      (∀ a ∈ cs, ∀ b ∈ cs, |(g b - g a) - (f b.t - f a.t)| ≤ |b.t - a.t| * (B * hv + A * ho / 2)) → ps.length = used.length →
      (∀ (i : ℕ) u p, used[i]? = some u → ps[i]? = some p → OnCurve (cs.map fun c => (c.t, g c)) u.t p) →
      ∀ c ∈ cs, |g c + ((used.map pr).sum / used.length - ps.sum / used.length) - f c.t| ≤
        (dl.t - d0.t) * (B * hv + A * ho / 2) + U * ho / 2 := by
    intro g f pr ps hL hpr hd hl hcur c hcm
    have hsum := sums_near pr (x := g c - f c.t) (E := (dl.t - d0.t) * (B * hv + A * ho / 2) + U * ho / 2) ps used hl (by
      intro i u p hu' hp
      have hmem := List.mem_of_getElem? hu'
      rw [hused] at hmem
      have hmu := List.mem_of_mem_drop (List.mem_filter.1 hmem).1
      rw [hpr u hmu]
      refine between_near hL (List.pairwise_map.2 hs) ?_ ?_ (hcur i u p hu' hp)
      · intro q hq
        obtain ⟨b, hb, rfl⟩ := List.mem_map.1 hq
        simp only
        rw [show g b - f b.t - (g c - f c.t) = (g b - g c) - (f b.t - f c.t) by ring]
        exact (hd c hcm b hb).trans (mul_le_mul_of_nonneg_right (hspan c hcm b hb) hE)
      · intro i a b h1 h2
        rw [List.getElem?_map, Option.map_eq_some_iff] at h1 h2
        obtain ⟨a, h1, rfl⟩ := h1
        obtain ⟨b, h2, rfl⟩ := h2
        exact hg i a b h1 h2)
    rw [show g c + ((used.map pr).sum / used.length - ps.sum / used.length) - f c.t =
      -((ps.sum - (used.map pr).sum - used.length * (g c - f c.t)) / used.length) by field_simp; ring, abs_neg, abs_div,
      abs_of_pos hpl, div_le_iff₀ hpl]
    linarith
  have sN := shift (·.northings) (fun t => (m.mountAt origin t).x) (·.n) (pos.map Prod.fst) (fun s t => (h.speedOrigin s t).1)
    (fun u hu' => (hu u hu').1) (fun a ha b hb => (hn a ha b hb).1) (by simpa using hlen) (by
      intro i u p hu' hp
      rw [List.getElem?_map, Option.map_eq_some_iff] at hp
      obtain ⟨p, hp, rfl⟩ := hp
      have := (hon i u p hu' hp).1
      rw [List.map_map] at this
      exact this)
  have sE := shift (·.eastings) (fun t => (m.mountAt origin t).y) (·.e) (pos.map Prod.snd) (fun s t => (h.speedOrigin s t).2.1)
    (fun u hu' => (hu u hu').2) (fun a ha b hb => (hn a ha b hb).2) (by simpa using hlen) (by
      intro i u p hu' hp
      rw [List.getElem?_map, Option.map_eq_some_iff] at hp
      obtain ⟨p, hp, rfl⟩ := hp
      have := (hon i u p hu' hp).2
      rw [List.map_map] at this
      exact this)
  rw [← ho1] at sN
  rw [← ho2] at sE
  obtain ⟨l, hrun, -⟩ := centres_near h
  have hpre : l.map (centreOf origin ⟨0, 0, 0⟩ depth) = cs := by
    rw [drCentre, hrun] at hcs
    simp only [bind, Except.bind, alignTrack, if_pos] at hcs
    rw [zip_same] at hcs
    rw [← Except.ok.inj hcs, List.map_map]
    rfl
  refine ⟨cs.map fun c => { c with northings := c.northings + o.1, eastings := c.eastings + o.2 }, ?_, ?_, ?_, ?_, ?_⟩
  · rw [drCentre, hrun]
    simp only [bind, Except.bind, alignTrack, if_neg hus, hpre, hofs, shiftTrack, List.map_map]
    rw [zip_same]
    rfl
  · rw [List.map_map]
    rfl
  · intro c hc'
    obtain ⟨b, hb, rfl⟩ := List.mem_map.1 hc'
    have := hc b hb
    exact ⟨this.attitude, this.surge, this.sway, this.heave, this.depth, this.altitude⟩
  · intro c hc'
    obtain ⟨b, hb, rfl⟩ := List.mem_map.1 hc'
    exact hme b hb
  · intro c hc'
    obtain ⟨b, hb, rfl⟩ := List.mem_map.1 hc'
    exact ⟨sN b hb, sE b hb⟩

/-- C224: with measurements often enough, the path is as near to the true one as one likes. -/
theorem C224_converges (m : Journey) (floor A B U T ε : ℝ) (origin depth : V3 ℝ) (hε : 0 < ε) (hT : 0 ≤ T) (hA : 0 ≤ A)
    (hB : 0 ≤ B) (hU : 0 ≤ U) :
    ∃ δ : ℝ, 0 < δ ∧ ∀ os vs alts ds us cs d0 dl, SmoothRun m floor A B U δ δ δ δ origin depth os vs alts ds →
      FixedAt m origin us → drCentre origin ⟨0, 0, 0⟩ depth (vehicleSync ⟨0, 0, 0⟩ os vs alts ds) [] = .ok cs →
      OffsetRecords (cs.map fun c => ⟨c.t, c.northings, c.eastings⟩) us d0 dl → dl.t - d0.t ≤ T →
      ∃ out, drCentre origin ⟨0, 0, 0⟩ depth (vehicleSync ⟨0, 0, 0⟩ os vs alts ds) us = .ok out ∧
        out.map (·.t) = cs.map (·.t) ∧
        ∀ c ∈ out, |c.northings - (m.mountAt origin c.t).x| ≤ ε ∧ |c.eastings - (m.mountAt origin c.t).y| ≤ ε ∧
          |c.depth - (m.mountAt origin c.t).z| ≤ ε ∧ |c.altitude - (floor - (m.mountAt origin c.t).z)| ≤ ε := by
  have hD : 0 < T * (B + A / 2) + U / 2 + 1 := by positivity
  refine ⟨ε / (T * (B + A / 2) + U / 2 + 1), by positivity, ?_⟩
  intro os vs alts ds us cs d0 dl h hu hcs hoff hle
  generalize hδ : ε / (T * (B + A / 2) + U / 2 + 1) = δ at h
  have hδ0 : 0 < δ := by rw [← hδ]; positivity
  have hb : T * (B * δ + A * δ / 2) + U * δ / 2 ≤ ε := by
    have : δ * (T * (B + A / 2) + U / 2 + 1) = ε := by rw [← hδ]; field_simp
    nlinarith
  have hb2 : U * δ / 2 ≤ ε := by
    have : 0 ≤ T * (B * δ + A * δ / 2) := by positivity
    linarith
  obtain ⟨out, h1, h2, h3, -, h4⟩ := C224_track h us hu cs d0 dl hcs hoff
  refine ⟨out, h1, h2, fun c hc => ?_⟩
  have hw : (dl.t - d0.t) * (B * δ + A * δ / 2) ≤ T * (B * δ + A * δ / 2) :=
    mul_le_mul_of_nonneg_right hle (by positivity)
  obtain ⟨n, e⟩ := h4 c hc
  exact ⟨by linarith, by linarith, (h3 c hc).depth.trans hb2, (h3 c hc).altitude.trans hb2⟩

/-! ### The payload -/

private theorem cos_lower (x : ℝ) : 2 * (1 - Real.cos x) ≤ x ^ 2 := by
  have := Real.one_sub_sq_div_two_le_cos (x := x)
  linarith

/-- The square of the length of the difference of two vectors. -/
private def far (u v : V3 ℝ) : ℝ := (u.x - v.x) ^ 2 + (u.y - v.y) ^ 2 + (u.z - v.z) ^ 2

private theorem far_comp {u v : V3 ℝ} {e : ℝ} (he : 0 ≤ e) (h : far u v ≤ e ^ 2) :
    |u.x - v.x| ≤ e ∧ |u.y - v.y| ≤ e ∧ |u.z - v.z| ≤ e := by
  simp only [far] at h
  refine ⟨abs_le_of_sq_le_sq ?_ he, abs_le_of_sq_le_sq ?_ he, abs_le_of_sq_le_sq ?_ he⟩ <;>
    nlinarith [sq_nonneg (u.x - v.x), sq_nonneg (u.y - v.y), sq_nonneg (u.z - v.z)]

private theorem rotX_len (a : ℝ) (u : V3 ℝ) : dot (rotX a u) (rotX a u) = dot u u := by
  have := Real.sin_sq_add_cos_sq a
  simp only [dot, rotX]
  linear_combination (u.y ^ 2 + u.z ^ 2) * this

private theorem rotY_len (a : ℝ) (u : V3 ℝ) : dot (rotY a u) (rotY a u) = dot u u := by
  have := Real.sin_sq_add_cos_sq a
  simp only [dot, rotY]
  linear_combination (u.x ^ 2 + u.z ^ 2) * this

private theorem rotX_far (a b : ℝ) (u : V3 ℝ) : far (rotX a u) (rotX b u) ≤ (a - b) ^ 2 * dot u u := by
  have h1 := Real.sin_sq_add_cos_sq a
  have h2 := Real.sin_sq_add_cos_sq b
  have h3 := Real.cos_sub a b
  have h4 := cos_lower (a - b)
  have e : far (rotX a u) (rotX b u) = 2 * (1 - Real.cos (a - b)) * (u.y ^ 2 + u.z ^ 2) := by
    simp only [far, rotX, h3]
    linear_combination (u.y ^ 2 + u.z ^ 2) * (h1 + h2)
  rw [e]
  have h5 := mul_le_mul_of_nonneg_right h4 (by positivity : 0 ≤ u.y ^ 2 + u.z ^ 2)
  have h6 : 0 ≤ (a - b) ^ 2 * u.x ^ 2 := by positivity
  simp only [dot]
  linarith

private theorem rotY_far (a b : ℝ) (u : V3 ℝ) : far (rotY a u) (rotY b u) ≤ (a - b) ^ 2 * dot u u := by
  have h1 := Real.sin_sq_add_cos_sq a
  have h2 := Real.sin_sq_add_cos_sq b
  have h3 := Real.cos_sub a b
  have h4 := cos_lower (a - b)
  have e : far (rotY a u) (rotY b u) = 2 * (1 - Real.cos (a - b)) * (u.x ^ 2 + u.z ^ 2) := by
    simp only [far, rotY, h3]
    linear_combination (u.x ^ 2 + u.z ^ 2) * (h1 + h2)
  rw [e]
  have h5 := mul_le_mul_of_nonneg_right h4 (by positivity : 0 ≤ u.x ^ 2 + u.z ^ 2)
  have h6 : 0 ≤ (a - b) ^ 2 * u.y ^ 2 := by positivity
  simp only [dot]
  linarith

private theorem rotZ_far (a b : ℝ) (u : V3 ℝ) : far (rotZ a u) (rotZ b u) ≤ (a - b) ^ 2 * dot u u := by
  have h1 := Real.sin_sq_add_cos_sq a
  have h2 := Real.sin_sq_add_cos_sq b
  have h3 := Real.cos_sub a b
  have h4 := cos_lower (a - b)
  have e : far (rotZ a u) (rotZ b u) = 2 * (1 - Real.cos (a - b)) * (u.x ^ 2 + u.y ^ 2) := by
    simp only [far, rotZ, h3]
    linear_combination (u.x ^ 2 + u.y ^ 2) * (h1 + h2)
  rw [e]
  have h5 := mul_le_mul_of_nonneg_right h4 (by positivity : 0 ≤ u.x ^ 2 + u.y ^ 2)
  have h6 : 0 ≤ (a - b) ^ 2 * u.z ^ 2 := by positivity
  simp only [dot]
  linarith

private theorem rotY_keeps (a : ℝ) (u v : V3 ℝ) : far (rotY a u) (rotY a v) = far u v := by
  have := Real.sin_sq_add_cos_sq a
  simp only [far, rotY]
  linear_combination ((u.x - v.x) ^ 2 + (u.z - v.z) ^ 2) * this

private theorem rotZ_keeps (a : ℝ) (u v : V3 ℝ) : far (rotZ a u) (rotZ a v) = far u v := by
  have := Real.sin_sq_add_cos_sq a
  simp only [far, rotZ]
  linear_combination ((u.x - v.x) ^ 2 + (u.y - v.y) ^ 2) * this

/-- Turning a vector of length at most `N` by angles that differ by at most `e` each. -/
private theorem turn_near {r p y r' p' y' e N : ℝ} {u : V3 ℝ} (hN : 0 ≤ N) (hu : dot u u ≤ N ^ 2) (h1 : |r - r'| ≤ e) (h2 : |p - p'| ≤ e)
    (h3 : |y - y'| ≤ e) :
    let d := rotZ y (rotY p (rotX r u))
    let d' := rotZ y' (rotY p' (rotX r' u))
    |d.x - d'.x| ≤ 3 * (e * N) ∧ |d.y - d'.y| ≤ 3 * (e * N) ∧ |d.z - d'.z| ≤ 3 * (e * N) := by
  intro d d'
  have he : 0 ≤ e := (abs_nonneg _).trans h1
  have sq : ∀ {a b : ℝ}, |a - b| ≤ e → (a - b) ^ 2 ≤ e ^ 2 := by
    intro a b h
    rw [← sq_abs (a - b)]
    exact pow_le_pow_left₀ (abs_nonneg _) h 2
  have hen : 0 ≤ e * N := mul_nonneg he hN
  have bound : ∀ {c : ℝ} {w : V3 ℝ}, c ^ 2 ≤ e ^ 2 → dot w w ≤ N ^ 2 → c ^ 2 * dot w w ≤ (e * N) ^ 2 := by
    intro c w hc hw
    have h0 : 0 ≤ dot w w := by simp only [dot]; nlinarith [sq_nonneg w.x, sq_nonneg w.y, sq_nonneg w.z]
    calc c ^ 2 * dot w w ≤ e ^ 2 * N ^ 2 := mul_le_mul hc hw h0 (sq_nonneg _)
      _ = (e * N) ^ 2 := by ring
  have hX : dot (rotX r u) (rotX r u) ≤ N ^ 2 := by rw [rotX_len]; exact hu
  have hYX : dot (rotY p (rotX r u)) (rotY p (rotX r u)) ≤ N ^ 2 := by rw [rotY_len]; exact hX
  obtain ⟨a1, a2, a3⟩ := far_comp hen ((rotZ_far y y' (rotY p (rotX r u))).trans (bound (sq h3) hYX))
  obtain ⟨b1, b2, b3⟩ := far_comp (u := rotZ y' (rotY p (rotX r u))) (v := rotZ y' (rotY p' (rotX r u))) hen
    (by rw [rotZ_keeps]; exact (rotY_far p p' (rotX r u)).trans (bound (sq h2) hX))
  obtain ⟨c1, c2, c3⟩ := far_comp (u := rotZ y' (rotY p' (rotX r u))) (v := d') hen
    (by rw [rotZ_keeps, rotY_keeps]; exact (rotX_far r r' u).trans (bound (sq h1) hu))
  refine ⟨?_, ?_, ?_⟩
  · have := abs_le.1 a1; have := abs_le.1 b1; have := abs_le.1 c1
    rw [abs_le]; constructor <;> linarith
  · have := abs_le.1 a2; have := abs_le.1 b2; have := abs_le.1 c2
    rw [abs_le]; constructor <;> linarith
  · have := abs_le.1 a3; have := abs_le.1 b3; have := abs_le.1 c3
    rw [abs_le]; constructor <;> linarith

/-- Headings that pass north. -/
private theorem yaw_near {f : ℝ → ℝ} {W a b q y1 y2 : ℝ} {k1 k2 : ℤ} (hW : ∀ s t, |f s - f t| ≤ W * |s - t|) (hab : a < b)
    (h1 : a ≤ q) (h2 : q ≤ b) (hs : W * (b - a) < 180) (e1 : y1 = f a + 360 * k1) (e2 : y2 = f b + 360 * k2)
    (r1 : 0 ≤ y1 ∧ y1 ≤ 360) (r2 : 0 ≤ y2 ∧ y2 ≤ 360) :
    ∃ k : ℤ, |interpolateYaw q a b y1 y2 - (f q + 360 * k)| ≤ W * (b - a) / 2 := by
  have hd : |f b - f a| < 180 := by
    have := hW b a
    rw [abs_of_pos (sub_pos.2 hab)] at this
    linarith
  have hline : ∀ k : ℤ, |interpolate q a b (f a + 360 * k) (f b + 360 * k) - (f q + 360 * k)| ≤ W * (b - a) / 2 := by
    intro k
    refine line_near (f := fun t => f t + 360 * k) (fun s t => ?_) hab h1 h2 (C03_on_line _ _ _ _ _ hab.ne)
    simpa using hW s t
  have small : ∀ n : ℤ, |(360 : ℝ) * n| < 360 → n = 0 := by
    intro n hn
    rw [abs_mul, abs_of_pos (by norm_num : (0 : ℝ) < 360)] at hn
    have h5 : |((n : ℤ) : ℝ)| < 1 := by linarith
    exact Int.abs_lt_one_iff.1 (by exact_mod_cast h5)
  obtain ⟨d1, d2⟩ := abs_lt.1 hd
  rw [interpolateYaw]
  by_cases c1 : |y2 - y1| > 180
  · rw [if_pos c1]
    by_cases c2 : y2 > y1
    · have hk : k2 - k1 - 1 = 0 := small _ (by
        push_cast
        rw [abs_of_pos (by linarith)] at c1
        rw [abs_lt]
        constructor <;> linarith)
      have hk : k2 = k1 + 1 := by omega
      have hz : interpolate q a b y1 (y2 - 360) = interpolate q a b (f a + 360 * k1) (f b + 360 * k1) := by
        rw [e1, e2, hk]
        push_cast
        congr 1
        ring
      simp only [if_pos c2, hz]
      have := hline k1
      generalize interpolate q a b (f a + 360 * k1) (f b + 360 * k1) = z at this ⊢
      split_ifs
      · refine ⟨k1 + 1, ?_⟩
        push_cast
        convert this using 2
        ring
      · refine ⟨k1 - 1, ?_⟩
        push_cast
        convert this using 2
        ring
      · exact ⟨k1, this⟩
    · have hk : k2 - k1 + 1 = 0 := small _ (by
        push_cast
        rw [abs_of_nonpos (by linarith)] at c1
        rw [abs_lt]
        constructor <;> linarith)
      have hk : k1 = k2 + 1 := by omega
      have hz : interpolate q a b (y1 - 360) y2 = interpolate q a b (f a + 360 * k2) (f b + 360 * k2) := by
        rw [e1, e2, hk]
        push_cast
        congr 1
        ring
      simp only [if_neg c2, hz]
      have := hline k2
      generalize interpolate q a b (f a + 360 * k2) (f b + 360 * k2) = z at this ⊢
      split_ifs
      · refine ⟨k2 + 1, ?_⟩
        push_cast
        convert this using 2
        ring
      · refine ⟨k2 - 1, ?_⟩
        push_cast
        convert this using 2
        ring
      · exact ⟨k2, this⟩
  · rw [if_neg c1]
    have hk : k2 - k1 = 0 := small _ (by
      have := abs_le.1 (not_lt.1 c1)
      push_cast
      rw [abs_lt]
      constructor <;> linarith)
    have hk : k2 = k1 := by omega
    refine ⟨k1, ?_⟩
    rw [e1, e2, hk]
    exact hline k1

/-- A line between two values that are each within `e` of a function that changes no faster than `L`. -/
private theorem pair_near {f : ℝ → ℝ} {L a b q y1 y2 e : ℝ} (hL : ∀ s t, |f s - f t| ≤ L * |s - t|) (hab : a < b) (h1 : a ≤ q)
    (h2 : q ≤ b) (e1 : |y1 - f a| ≤ e) (e2 : |y2 - f b| ≤ e) : |interpolate q a b y1 y2 - f q| ≤ e + L * (b - a) / 2 := by
  have := between_near (x := 0) (E := e) (h := b - a) hL (l := [(a, y1), (b, y2)]) (by simpa using hab)
    (by simpa using ⟨e1, e2⟩) (by
      intro i x y hx hy
      have : i = 0 := by
        have := (List.getElem?_eq_some_iff.1 hy).1
        simp at this
        omega
      subst this
      cases hx
      cases hy
      exact le_refl _)
    (show OnCurve _ q (interpolate q a b y1 y2) from ⟨0, _, _, rfl, rfl, h1, h2, C03_on_line _ _ _ _ _ hab.ne⟩)
  simpa using this

private theorem sensor_near (m2ll : ℝ → ℝ → ℝ × ℝ) (mount : V3 ℝ) {a b : Centre} {q W N E : ℝ} (h1 : a.t < q) (h2 : q ≤ b.t)
    (hgap : b.t - a.t ≤ ho) (hB : NoFaster B m.body) (hU : NoFaster U (m.mountAt origin)) (hW : NoFaster W m.rpy) (hs : W * ho < 180)
    (hN : 0 ≤ N) (hm : dot (sub mount origin) (sub mount origin) ≤ N ^ 2)
    (ha' : CentreNear m floor B U hv ha hd origin a) (hb' : CentreNear m floor B U hv ha hd origin b)
    (ya : 0 ≤ a.yaw ∧ a.yaw ≤ 360) (yb : 0 ≤ b.yaw ∧ b.yaw ≤ 360)
    (pa : |a.northings - (m.mountAt origin a.t).x| ≤ E ∧ |a.eastings - (m.mountAt origin a.t).y| ≤ E)
    (pb : |b.northings - (m.mountAt origin b.t).x| ≤ E ∧ |b.eastings - (m.mountAt origin b.t).y| ≤ E) :
    SensorNear m floor mount (E + U * ho / 2 + 3 * (rad (W * ho / 2) * N)) (U * hd / 2 + U * ho / 2 + 3 * (rad (W * ho / 2) * N))
      (U * ha / 2 + U * ho / 2 + 3 * (rad (W * ho / 2) * N)) (W * ho / 2) (B * hv / 2 + B * ho / 2) q
      (interpolateSensor m2ll origin mount q a b) := by
  have hab : a.t < b.t := lt_of_lt_of_le h1 h2
  have gap : ∀ {L : ℝ}, 0 ≤ L → L * (b.t - a.t) / 2 ≤ L * ho / 2 := by
    intro L hL
    have := mul_le_mul_of_nonneg_left hgap hL
    linarith
  have near : ∀ {f : ℝ → ℝ} {L y1 y2 e : ℝ}, (∀ s t, |f s - f t| ≤ L * |s - t|) → |y1 - f a.t| ≤ e → |y2 - f b.t| ≤ e →
      |interpolate q a.t b.t y1 y2 - f q| ≤ e + L * ho / 2 := by
    intro f L y1 y2 e hL e1 e2
    have hLn : 0 ≤ L := by
      have := (abs_nonneg _).trans (hL 1 0)
      simpa using this
    exact (pair_near hL hab h1.le h2 e1 e2).trans (by linarith [gap hLn])
  obtain ⟨ra, pa', ka, yaw_a⟩ := ha'.attitude
  obtain ⟨rb, pb', kb, yaw_b⟩ := hb'.attitude
  have hWn := lip_nonneg hW
  have nr : |interpolate q a.t b.t a.roll b.roll - (m.rpy q).x| ≤ W * ho / 2 := by
    have := near (f := fun t => (m.rpy t).x) (e := 0) (y1 := a.roll) (y2 := b.roll) (fun s t => (hW s t).1) (by simp [ra]) (by simp [rb])
    linarith
  have np : |interpolate q a.t b.t a.pitch b.pitch - (m.rpy q).y| ≤ W * ho / 2 := by
    have := near (f := fun t => (m.rpy t).y) (e := 0) (y1 := a.pitch) (y2 := b.pitch) (fun s t => (hW s t).2.1) (by simp [pa']) (by simp [pb'])
    linarith
  obtain ⟨k, ny⟩ := yaw_near (f := fun t => (m.rpy t).z) (fun s t => (hW s t).2.2) hab h1.le h2
    (lt_of_le_of_lt (mul_le_mul_of_nonneg_left hgap hWn) hs) yaw_a yaw_b ya yb
  have ny := ny.trans (gap hWn)
  have hr : ∀ {x y : ℝ}, |x - y| ≤ W * ho / 2 → |rad x - rad y| ≤ rad (W * ho / 2) := by
    intro x y h
    have hp : (0 : ℝ) ≤ Real.pi / 180 := by positivity
    simp only [rad] at *
    rw [← sub_mul, abs_mul, abs_of_nonneg hp]
    exact mul_le_mul_of_nonneg_right h hp
  have turn := turn_near (u := sub mount origin) hN hm (hr nr) (hr np) (hr ny)
  have hT : rotZ (rad ((m.rpy q).z + 360 * k)) (rotY (rad (m.rpy q).y) (rotX (rad (m.rpy q).x) (sub mount origin))) =
      sub (m.turned q mount) (m.turned q origin) := by
    rw [← C01_is_zyx_rotation, att_turned (m := m) (t := q) ⟨rfl, rfl, k, rfl⟩]
    simp only [Journey.turned, rotX, rotY, rotZ, sub, V3.mk.injEq]
    refine ⟨?_, ?_, ?_⟩ <;> ring
  have hneg : ∀ r p y : ℝ, bodyToInertial r p y ⟨origin.x - mount.x, origin.y - mount.y, origin.z - mount.z⟩ =
      smul (-1) (rotZ (rad y) (rotY (rad p) (rotX (rad r) (sub mount origin)))) := by
    intro r p y
    rw [C01_is_zyx_rotation]
    simp only [rotX, rotY, rotZ, sub, smul, V3.mk.injEq]
    refine ⟨?_, ?_, ?_⟩ <;> ring
  dsimp only at turn
  rw [hT] at turn
  simp only [sub] at turn
  obtain ⟨t1, t2, t3⟩ := turn
  have nN := near (f := fun t => (m.mountAt origin t).x) (fun s t => (hU s t).1) pa.1 pb.1
  have nE := near (f := fun t => (m.mountAt origin t).y) (fun s t => (hU s t).2.1) pa.2 pb.2
  have nD := near (f := fun t => (m.mountAt origin t).z) (fun s t => (hU s t).2.2) ha'.depth hb'.depth
  have nA := near (f := fun t => floor - (m.mountAt origin t).z) (L := U) (fun s t => by
    have := (hU s t).2.2
    rw [abs_sub_comm] at this
    simpa using this) ha'.altitude hb'.altitude
  refine ⟨nr, np, ⟨k, ny⟩, near (f := fun t => (m.body t).x) (fun s t => (hB s t).1) ha'.surge hb'.surge,
    near (f := fun t => (m.body t).y) (fun s t => (hB s t).2.1) ha'.sway hb'.sway,
    near (f := fun t => (m.body t).z) (fun s t => (hB s t).2.2) ha'.heave hb'.heave, ?_, ?_, ?_, ?_⟩ <;>
  · simp only [interpolateSensor, hneg, Journey.mountAt, add, smul, sub] at *
    rw [abs_le] at *
    constructor <;> linarith

/-- C224: the poses given to a camera or another sensor. `W` bounds the rates of roll, pitch and heading (degrees a second; less
than half a turn between two measurements), headings are measured as 0 to 360, and the sensor is mounted within `N` of the origin.
The bounds hold for measurements during the dive (see C06 for what happens before, after and at the end). -/
theorem C224_payload (h : SmoothRun m floor A B U ho hv ha hd origin depth os vs alts ds) (us : List (TrackPt ℝ))
    (hu : FixedAt m origin us) (cs : List Centre) (d0 dl : TrackPt ℝ)
    (hcs : drCentre origin ⟨0, 0, 0⟩ depth (vehicleSync ⟨0, 0, 0⟩ os vs alts ds) [] = .ok cs)
    (hoff : OffsetRecords (cs.map fun c => ⟨c.t, c.northings, c.eastings⟩) us d0 dl) (W N : ℝ) (hW : NoFaster W m.rpy)
    (hturn : W * ho < 180) (hy : ∀ o ∈ os, 0 ≤ o.yaw ∧ o.yaw ≤ 360) (mount : V3 ℝ) (hN : 0 ≤ N)
    (hm : dot (sub mount origin) (sub mount origin) ≤ N ^ 2) (m2ll : ℝ → ℝ → ℝ × ℝ) (times : List ℝ)
    (htimes : times.Pairwise (· ≤ ·)) (out : List (ℝ × Option SensorPose))
    (hrun : drPayload m2ll origin ⟨0, 0, 0⟩ depth mount (vehicleSync ⟨0, 0, 0⟩ os vs alts ds) us times = .ok out)
    (q : ℝ) (p : SensorPose) (hmem : (q, some p) ∈ out) (hfirst : d0.t < q)
    (hnext : ∃ c ∈ cs, q ≤ c.t ∧ ∃ sl, times.getLast? = some sl ∧ c.t ≤ sl) :
    SensorNear m floor mount ((dl.t - d0.t) * (B * hv + A * ho / 2) + U * ho + 3 * (rad (W * ho / 2) * N))
      (U * hd / 2 + U * ho / 2 + 3 * (rad (W * ho / 2) * N)) (U * ha / 2 + U * ho / 2 + 3 * (rad (W * ho / 2) * N))
      (W * ho / 2) (B * hv / 2 + B * ho / 2) q p := by
  obtain ⟨tr, h1, h2, h3, h4, h5⟩ := C224_track h us hu cs d0 dl hcs hoff
  obtain ⟨cs', hcs', -, hs, hg, -, -, -⟩ := C224_displacement h
  rw [hcs] at hcs'
  have := Except.ok.inj hcs'
  subst this
  have hlen : tr.length = cs.length := by
    have := congrArg List.length h2
    simpa using this
  have time : ∀ (i : ℕ) c, tr[i]? = some c → ∃ c', cs[i]? = some c' ∧ c'.t = c.t := by
    intro i c hi
    have e := congrArg (fun z => z[i]?) h2
    simp only [List.getElem?_map, hi, Option.map_some] at e
    obtain ⟨c', hc', he⟩ := Option.map_eq_some_iff.1 e.symm
    exact ⟨c', hc', he⟩
  have hts : tr.Pairwise fun a b => a.t < b.t := by
    have : (tr.map (·.t)).Pairwise (· < ·) := by
      rw [h2]
      exact List.pairwise_map.2 hs
    exact List.pairwise_map.1 this
  rw [drPayload, h1] at hrun
  obtain ⟨k, a, b, hka, hkb, l1, l2, hp⟩ := between_states m2ll origin mount times tr out hts htimes hrun q p hmem
    (by
      intro c hc
      rw [List.head?_eq_getElem?] at hc
      obtain ⟨c', hc', he⟩ := time 0 c hc
      have hd0 := hoff.first
      rw [List.head?_map, List.head?_eq_getElem?, hc'] at hd0
      cases hd0
      rw [← he]
      exact hfirst)
    (by
      obtain ⟨c, hc, hqc, sl, hsl, hcl⟩ := hnext
      have hmt : c.t ∈ tr.map (·.t) := by
        rw [h2]
        exact List.mem_map.2 ⟨c, hc, rfl⟩
      obtain ⟨c', hc', he⟩ := List.mem_map.1 hmt
      exact ⟨c', hc', by rw [he]; exact hqc, sl, hsl, by rw [he]; exact hcl⟩)
  have ma := List.mem_of_getElem? hka
  have mb := List.mem_of_getElem? hkb
  obtain ⟨a', ka, ea⟩ := time k a hka
  obtain ⟨b', kb, eb⟩ := time (k + 1) b hkb
  have hgap := hg k a' b' ka kb
  simp only [ea, eb] at hgap
  obtain ⟨oa, hoa, -, -, -, ya⟩ := h4 a ma
  obtain ⟨ob, hob, -, -, -, yb⟩ := h4 b mb
  rw [hp]
  have := sensor_near (N := N) m2ll mount l1 l2 hgap h.bodyRate h.speedOrigin hW hturn hN hm (h3 a ma) (h3 b mb)
    (by rw [← ya]; exact hy oa hoa) (by rw [← yb]; exact hy ob hob) (h5 a ma) (h5 b mb)
  have e : (dl.t - d0.t) * (B * hv + A * ho / 2) + U * ho / 2 + U * ho / 2 = (dl.t - d0.t) * (B * hv + A * ho / 2) + U * ho := by ring
  rw [e] at this
  exact this

/-! ### A vehicle going in a circle -/

/-- 1 m/s ahead, turning by 10 degrees a second. -/
private noncomputable def circle : Journey where
  pos := fun t => ⟨Real.sin (rad (10 * t)) / rad 10, -Real.cos (rad (10 * t)) / rad 10, 30⟩
  rpy := fun t => ⟨0, 0, 10 * t⟩
  body := fun _ => ⟨1, 0, 0⟩

private theorem circle_vel (t : ℝ) : circle.vel t = ⟨Real.cos (rad (10 * t)), Real.sin (rad (10 * t)), 0⟩ := by
  simp [Journey.vel, Journey.turned, circle, rotX, rotY, rotZ, rad]

private theorem omega_pos : 0 < rad 10 := by
  simp only [rad]
  positivity

private theorem omega_le : rad 10 ≤ 1 := by
  have := Real.pi_le_four
  simp only [rad]
  linarith

private theorem cos_slow (a b : ℝ) : |Real.cos a - Real.cos b| ≤ |a - b| := Real.abs_cos_sub_cos_le a b

private theorem sin_slow (a b : ℝ) : |Real.sin a - Real.sin b| ≤ |a - b| := Real.abs_sin_sub_sin_le a b

private theorem rad_sub (s t : ℝ) : |rad (10 * s) - rad (10 * t)| = rad 10 * |s - t| := by
  rw [show rad (10 * s) - rad (10 * t) = rad 10 * (s - t) by simp only [rad]; ring, abs_mul, abs_of_pos omega_pos]

private theorem circle_consistent : circle.Consistent := by
  intro t
  rw [circle_vel]
  have hl : HasDerivAt (fun s : ℝ => rad (10 * s)) (rad 10) t := by
    have := (hasDerivAt_id t).const_mul (rad 10)
    simp only [id, mul_one] at this
    have he : (fun s : ℝ => rad (10 * s)) = fun s => rad 10 * s := by
      funext s
      simp only [rad]
      ring
    rw [he]
    exact this
  have hne := omega_pos.ne'
  refine ⟨?_, ?_, hasDerivAt_const _ _⟩
  · have := ((Real.hasDerivAt_sin _).comp t hl).div_const (rad 10)
    rw [mul_div_assoc, div_self hne, mul_one] at this
    exact this
  · have := ((Real.hasDerivAt_cos _).comp t hl).neg.div_const (rad 10)
    rw [neg_mul, neg_neg, mul_div_assoc, div_self hne, mul_one] at this
    exact this

private theorem circle_slow : NoFaster 1 circle.pos := by
  intro s t
  have h : ∀ x y : ℝ, |x - y| ≤ rad 10 * |s - t| → |x / rad 10 - y / rad 10| ≤ 1 * |s - t| := by
    intro x y hxy
    rw [← sub_div, abs_div, abs_of_pos omega_pos, div_le_iff₀ omega_pos]
    linarith
  refine ⟨h _ _ ?_, h _ _ ?_, ?_⟩
  · rw [← rad_sub]
    exact sin_slow _ _
  · rw [← rad_sub, ← abs_neg]
    convert cos_slow (rad (10 * s)) (rad (10 * t)) using 2
    ring
  · simp [circle]

private theorem circle_mount : circle.mountAt ⟨0, 0, 0⟩ = circle.pos := by
  funext t
  simp [Journey.mountAt, Journey.turned, add, rotX, rotY, rotZ]

private noncomputable def circleOs : List (Attitude ℝ) := [⟨0, 0, 0, 360⟩, ⟨1, 0, 0, 10⟩, ⟨2, 0, 0, 20⟩, ⟨3, 0, 0, 30⟩]
private noncomputable def circleVs : List (VelMeas ℝ) := [⟨0, ⟨1, 0, 0⟩, ⟨0, 0, 0⟩⟩, ⟨3, ⟨1, 0, 0⟩, ⟨0, 0, 0⟩⟩]
private noncomputable def circleAs : List (ℝ × ℝ) := [(0, 10), (3, 10)]
private noncomputable def circleDs : List (DepthSample ℝ) := [⟨0, 30, 0⟩, ⟨3, 30, 0⟩]

/-- It meets the hypotheses: attitudes every second, the other sensors every 3 seconds. -/
private theorem circle_run : SmoothRun circle 40 1 0 1 1 3 3 3 ⟨0, 0, 0⟩ ⟨0, 0, 0⟩ circleOs circleVs circleAs circleDs where
  motion := circle_consistent
  acceleration := by
    intro s t
    simp only [circle_vel]
    have h := mul_le_mul_of_nonneg_right omega_le (abs_nonneg (s - t))
    refine ⟨(cos_slow _ _).trans ?_, (sin_slow _ _).trans ?_, by simp⟩ <;> rw [rad_sub] <;> exact h
  bodyRate := by intro s t; simp [circle]
  speed := circle_slow
  speedDepth := by rw [circle_mount]; exact circle_slow
  speedOrigin := by rw [circle_mount]; exact circle_slow
  exact := by
    constructor
    · intro o ho
      simp only [circleOs, List.mem_cons, List.not_mem_nil, or_false] at ho
      rcases ho with rfl | rfl | rfl | rfl
      · exact ⟨rfl, rfl, 1, by simp [circle]⟩
      · exact ⟨rfl, rfl, 0, by simp [circle]⟩
      · exact ⟨rfl, rfl, 0, by simp [circle]; norm_num⟩
      · exact ⟨rfl, rfl, 0, by simp [circle]; norm_num⟩
    · intro v hv
      simp only [circleVs, List.mem_cons, List.not_mem_nil, or_false] at hv
      rcases hv with rfl | rfl <;> rfl
    · intro a ha
      simp only [circleAs, List.mem_cons, List.not_mem_nil, or_false] at ha
      rcases ha with rfl | rfl <;> simp [circle] <;> norm_num
    · intro a ha
      simp only [circleDs, List.mem_cons, List.not_mem_nil, or_false] at ha
      rw [circle_mount]
      rcases ha with rfl | rfl <;> rfl
  attitudes := by
    intro i a b h1 h2
    rcases i with _ | _ | _ | i <;> simp [circleOs] at h1 h2 <;> subst h1 h2 <;> norm_num
  velocities := by
    intro i a b h1 h2
    rcases i with _ | i <;> simp [circleVs] at h1 h2
    subst h1 h2
    norm_num
  altitudes := by
    intro i a b h1 h2
    rcases i with _ | i <;> simp [circleAs] at h1 h2
    subst h1 h2
    norm_num
  depths := by
    intro i a b h1 h2
    rcases i with _ | i <;> simp [circleDs] at h1 h2
    subst h1 h2
    norm_num
  records := by
    constructor
    · simp [vehicleSync, circleOs]
    · simp [vehicleSync, circleOs]; norm_num
    · exact ⟨by simp [vehicleSync, circleVs], by simp [vehicleSync, circleVs]⟩
    · exact ⟨by simp [vehicleSync, circleAs], by simp [vehicleSync, circleAs]⟩
    · exact ⟨by simp [vehicleSync, circleDs], by simp [vehicleSync, circleDs]⟩
    · intro o ho hc
      simpa [vehicleSync, circleVs, circleAs, circleDs, Covers] using hc
    · exact ⟨⟨1, 0, 0, 10⟩, by simp [vehicleSync, circleOs], by simp [vehicleSync, circleVs, Covers]⟩

private noncomputable def circleFixes : List (TrackPt ℝ) :=
  [⟨0, (circle.pos 0).x, (circle.pos 0).y⟩, ⟨3 / 2, (circle.pos (3 / 2)).x, (circle.pos (3 / 2)).y⟩]

/-- And with fixes, its positions are within 2 m of the true ones. -/
example : ∃ out, drCentre ⟨0, 0, 0⟩ ⟨0, 0, 0⟩ ⟨0, 0, 0⟩ (vehicleSync ⟨0, 0, 0⟩ circleOs circleVs circleAs circleDs) circleFixes = .ok out ∧
    out.map (·.t) = [0, 1, 2, 3] ∧
    ∀ c ∈ out, |c.northings - (circle.pos c.t).x| ≤ 2 ∧ |c.eastings - (circle.pos c.t).y| ≤ 2 := by
  obtain ⟨cs, hcs, ⟨v0, hv0, vE, hvE, hk⟩, hs, -⟩ := C224_displacement circle_run
  simp only [circleVs, List.head?_cons, Option.mem_def, Option.some.injEq] at hv0
  have hvE : vE = ⟨3, ⟨1, 0, 0⟩, ⟨0, 0, 0⟩⟩ := by
    simp only [circleVs, Option.mem_def, List.getLast?_cons_cons, List.getLast?_singleton, Option.some.injEq] at hvE
    exact hvE.symm
  subst hv0 hvE
  have hk : cs.map (·.t) = [0, 1, 2, 3] := by
    rw [hk]
    norm_num [circleOs, List.filter]
  obtain ⟨out, h1, h2, -, -, h3⟩ := C224_track circle_run circleFixes
    (by
      intro u hu
      rw [circle_mount]
      simp only [circleFixes, List.mem_cons, List.not_mem_nil, or_false] at hu
      rcases hu with rfl | rfl <;> exact ⟨rfl, rfl⟩) cs
    ⟨0, (cs.head?.getD ⟨0, 0, 0, 0, 0, 0, 0, 0, 0, 0, 0, fun _ => none⟩).northings,
      (cs.head?.getD ⟨0, 0, 0, 0, 0, 0, 0, 0, 0, 0, 0, fun _ => none⟩).eastings⟩
    ⟨3, (cs.getLast?.getD ⟨0, 0, 0, 0, 0, 0, 0, 0, 0, 0, 0, fun _ => none⟩).northings,
      (cs.getLast?.getD ⟨0, 0, 0, 0, 0, 0, 0, 0, 0, 0, 0, fun _ => none⟩).eastings⟩ hcs (by
      rcases cs with _ | ⟨c0, _ | ⟨c1, _ | ⟨c2, _ | ⟨c3, _ | ⟨c4, cs⟩⟩⟩⟩⟩ <;> simp at hk
      obtain ⟨k0, k1, k2, k3⟩ := hk
      constructor
      · exact ⟨by simp, by simp [k0, k1, k2, k3]; norm_num⟩
      · simp [k0]
      · simp [k3]
      · simp [circleFixes]
      · intro i a b h1 h2
        rcases i with _ | i <;> simp [circleFixes] at h1 h2
        subst h1 h2
        norm_num
      · intro i a b h1 h2 _ _
        rcases i with _ | i <;> simp [circleFixes] at h1 h2
        subst h1 h2
        refine ⟨⟨c1.t, c1.northings, c1.eastings⟩, by simp, ?_⟩
        simp only [k1]
        norm_num
      · exact ⟨⟨3 / 2, (circle.pos (3 / 2)).x, (circle.pos (3 / 2)).y⟩, by simp [circleFixes], by norm_num⟩)
  refine ⟨out, h1, h2.trans hk, fun c hc => ?_⟩
  have := h3 c hc
  rw [circle_mount] at this
  constructor
  · exact this.1.trans (by norm_num)
  · exact this.2.trans (by norm_num)

end Oplab.Props
