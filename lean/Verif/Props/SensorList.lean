import Mathlib.Data.List.Basic
import Verif.Props.Interpolate
import Verif.Props.Rotation

/-! Property C06: `interpolate_sensor_list`. -/

namespace Oplab.Props
open Oplab Oplab.Spec

section loop
variable {K : Type} [LinearOrder K]

private theorem adv_before (q sl : K) : ∀ (l : List K) (k : Nat) (c : K),
    k < advanceSteps q sl l → l[k]? = some c → c < q
  | [], k, c, h, _ => by simp [advanceSteps] at h
  | [_], k, c, h, _ => by simp [advanceSteps] at h
  | a :: b :: l, k, c, h, hc => by
    by_cases h1 : a < q
    · by_cases h2 : b > sl
      · simp [advanceSteps, h1, h2] at h
      · simp only [advanceSteps, if_pos h1, if_neg h2] at h
        cases k with
        | zero => simp at hc; subst hc; exact h1
        | succ k => exact adv_before q sl (b :: l) k c (by omega) (by simpa using hc)
    · simp [advanceSteps, h1] at h

private theorem adv_stop (q sl : K) : ∀ (l : List K), l ≠ [] →
    advanceSteps q sl l < l.length ∧
    ((∃ c, l[advanceSteps q sl l]? = some c ∧ q ≤ c) ∨
      (advanceSteps q sl l + 1 = l.length) ∨
      (∃ d, l[advanceSteps q sl l + 1]? = some d ∧ sl < d))
  | [], h => absurd rfl h
  | [c], _ => by simp [advanceSteps]
  | a :: b :: l, _ => by
    by_cases h1 : a < q
    · by_cases h2 : b > sl
      · simp only [advanceSteps, if_pos h1, if_pos h2]
        exact ⟨by simp, Or.inr (Or.inr ⟨b, by simp, h2⟩)⟩
      · simp only [advanceSteps, if_pos h1, if_neg h2]
        obtain ⟨hl, h⟩ := adv_stop q sl (b :: l) (by simp)
        refine ⟨by simpa using hl, ?_⟩
        rcases h with ⟨c, hc, hq⟩ | h | ⟨d, hd, hs⟩
        · exact Or.inl ⟨c, by simpa using hc, hq⟩
        · exact Or.inr (Or.inl (by simpa using h))
        · exact Or.inr (Or.inr ⟨d, by simpa using hd, hs⟩)
    · simp only [advanceSteps, if_neg h1]
      exact ⟨by simp, Or.inl ⟨a, by simp, not_lt.mp h1⟩⟩

/-- Loop facts for every retained entry: the index is in range, all earlier centre times are before the entry, and
the loop stopped for one of three reasons. -/
private theorem loop_inv (ct : List K) (sl : K) : ∀ (ss : List K) (j : Nat), ss.Pairwise (· ≤ ·) →
    (∀ s ∈ ss, ∀ k c, k < j → ct[k]? = some c → c < s) →
    ∀ e ∈ sensorLoop ct sl j ss,
      e.1 ∈ ss ∧ e.2 < ct.length ∧ (∀ k c, k < e.2 → ct[k]? = some c → c < e.1) ∧
      ((∃ c, ct[e.2]? = some c ∧ e.1 ≤ c) ∨ e.2 + 1 = ct.length ∨ (∃ d, ct[e.2 + 1]? = some d ∧ sl < d))
  | [], j, _, _, e, he => by simp [sensorLoop] at he
  | s :: ss, j, hs, hj, e, he => by
    by_cases hlen : j + 1 ≥ ct.length
    · simp [sensorLoop, hlen] at he
    · simp only [sensorLoop, if_neg hlen] at he
      have hne : ct.drop j ≠ [] := by simp; omega
      obtain ⟨hl, hstop⟩ := adv_stop s sl (ct.drop j) hne
      rw [List.length_drop] at hl
      have hbefore : ∀ k c, k < j + advanceSteps s sl (ct.drop j) → ct[k]? = some c → c < s := by
        intro k c hk hc
        rcases Nat.lt_or_ge k j with h | h
        · exact hj s (by simp) k c h hc
        · apply adv_before s sl (ct.drop j) (k - j) c (by omega)
          rw [List.getElem?_drop, ← hc]; congr 1; omega
      rcases List.mem_cons.mp he with rfl | he
      · refine ⟨by simp, by simp only; omega, hbefore, ?_⟩
        rcases hstop with ⟨c, hc, hq⟩ | h | ⟨d, hd, hsd⟩
        · exact Or.inl ⟨c, by simpa [List.getElem?_drop] using hc, hq⟩
        · right; left; rw [List.length_drop] at h; simp only; omega
        · right; right; refine ⟨d, ?_, hsd⟩
          rw [List.getElem?_drop] at hd; rw [← hd]; congr 1
      · rw [List.pairwise_cons] at hs
        obtain ⟨h1, h2, h3, h4⟩ := loop_inv ct sl ss _ hs.2
          (fun s' hs' k c hk hc => lt_of_lt_of_le (hbefore k c hk hc) (hs.1 s' hs')) e he
        exact ⟨by simp [h1], h2, h3, h4⟩

/-- The retained times are an initial segment of the given ones. -/
private theorem loop_prefix (ct : List K) (sl : K) : ∀ (ss : List K) (j : Nat),
    (sensorLoop ct sl j ss).map Prod.fst <+: ss
  | [], j => by simp [sensorLoop]
  | s :: ss, j => by
    by_cases hlen : j + 1 ≥ ct.length
    · simp [sensorLoop, hlen]
    · simp only [sensorLoop, if_neg hlen, List.map_cons]
      exact List.cons_prefix_cons.mpr ⟨rfl, loop_prefix ct sl ss _⟩

/-- An entry not after the second-to-last centre time is never deleted by the loop. -/
private theorem loop_keeps (ct : List K) (sl : K) (c : K) (hc : ct[ct.length - 2]? = some c)
    (hlen2 : 2 ≤ ct.length) : ∀ (ss : List K) (j : Nat), ss.Pairwise (· ≤ ·) →
    (∀ s ∈ ss, ∀ k c, k < j → ct[k]? = some c → c < s) →
    ∀ s ∈ ss, s ≤ c → s ∈ (sensorLoop ct sl j ss).map Prod.fst
  | [], j, _, _, s, hs, _ => by simp at hs
  | a :: ss, j, hp, hj, s, hs, hsc => by
    by_cases hlen : j + 1 ≥ ct.length
    · exfalso
      have := hj s hs (ct.length - 2) c (by omega) hc
      exact absurd hsc (not_le.mpr this)
    · simp only [sensorLoop, if_neg hlen, List.map_cons]
      rcases List.mem_cons.mp hs with rfl | hs
      · simp
      · rw [List.pairwise_cons] at hp
        refine List.mem_cons_of_mem _ (loop_keeps ct sl c hc hlen2 ss _ hp.2 ?_ s hs hsc)
        intro s' hs' k c' hk hc'
        have : c' < a := by
          rcases Nat.lt_or_ge k j with h | h
          · exact hj a (by simp) k c' h hc'
          · apply adv_before a sl (ct.drop j) (k - j) c' (by omega)
            rw [List.getElem?_drop, ← hc']; congr 1; omega
        exact lt_of_lt_of_le this (hp.1 s' hs')

end loop

/-- What it means for a sensor pose to be right with respect to two centre states that enclose it: the
velocities, roll and pitch are on the straight line, the heading is on the short arc, and the position is the
interpolated centre position plus the rotated lever arm (sensor relative to origin). -/
structure PoseBetween (origin offsets : V3 ℝ) (q : ℝ) (a b : Centre) (p : SensorPose) : Prop where
  roll : OnLine a.t a.roll b.t b.roll q p.roll
  pitch : OnLine a.t a.pitch b.t b.pitch q p.pitch
  vx : OnLine a.t a.vx b.t b.vx q p.vx
  vy : OnLine a.t a.vy b.t b.vy q p.vy
  vz : OnLine a.t a.vz b.t b.vz q p.vz
  yaw : (0 ≤ a.yaw ∧ a.yaw ≤ 360) → (0 ≤ b.yaw ∧ b.yaw ≤ 360) →
    headingDist a.yaw p.yaw * (b.t - a.t) = headingDist a.yaw b.yaw * (q - a.t) ∧
    headingDist p.yaw b.yaw * (b.t - a.t) = headingDist a.yaw b.yaw * (b.t - q)
  northings : OnLine a.t a.northings b.t b.northings q
    (p.northings - (rotZ (rad p.yaw) (rotY (rad p.pitch) (rotX (rad p.roll) (sub offsets origin)))).x)
  eastings : OnLine a.t a.eastings b.t b.eastings q
    (p.eastings - (rotZ (rad p.yaw) (rotY (rad p.pitch) (rotX (rad p.roll) (sub offsets origin)))).y)
  depth : OnLine a.t a.depth b.t b.depth q
    (p.depth - (rotZ (rad p.yaw) (rotY (rad p.pitch) (rotX (rad p.roll) (sub offsets origin)))).z)
  altitude : OnLine a.t a.altitude b.t b.altitude q
    (p.altitude + (rotZ (rad p.yaw) (rotY (rad p.pitch) (rotX (rad p.roll) (sub offsets origin)))).z)
  std : ∀ k, match a.std k, b.std k with
    | some x, some y => ∃ z, p.std k = some z ∧ OnLine a.t x b.t y q z
    | _, _ => p.std k = none

/-- The geodetic position is derived from the metric one. -/
def LatLonConsistent (m2ll : ℝ → ℝ → ℝ × ℝ) (p : SensorPose) : Prop :=
  p.latlon = m2ll p.eastings p.northings

private theorem b2i_neg (r p y : ℝ) (o s : V3 ℝ) :
    bodyToInertial r p y ⟨o.x - s.x, o.y - s.y, o.z - s.z⟩
      = smul (-1) (bodyToInertial r p y (sub s o)) := by
  simp only [bodyToInertial, smul, sub, V3.mk.injEq]
  refine ⟨by ring, by ring, by ring⟩

private theorem sensor_pose_between (m2ll : ℝ → ℝ → ℝ × ℝ) (origin offsets : V3 ℝ) (q : ℝ)
    (a b : Centre) (h1 : a.t < q) (h2 : q ≤ b.t) :
    PoseBetween origin offsets q a b (interpolateSensor m2ll origin offsets q a b)
      ∧ LatLonConsistent m2ll (interpolateSensor m2ll origin offsets q a b) := by
  have hne : a.t ≠ b.t := (lt_of_lt_of_le h1 h2).ne
  refine ⟨⟨C03_on_line _ _ _ _ _ hne, C03_on_line _ _ _ _ _ hne, C03_on_line _ _ _ _ _ hne,
    C03_on_line _ _ _ _ _ hne, C03_on_line _ _ _ _ _ hne, ?_, ?_, ?_, ?_, ?_, ?_⟩, rfl⟩
  · intro ha hb
    exact (C04_heading_rule q a.t b.t a.yaw b.yaw (lt_of_lt_of_le h1 h2) h1.le h2 ha hb).2
  all_goals try rw [← C01_is_zyx_rotation]
  all_goals simp only [interpolateSensor]
  all_goals try rw [b2i_neg]
  all_goals try simp only [smul]
  · convert C03_on_line q a.t b.t a.northings b.northings hne using 1; ring
  · convert C03_on_line q a.t b.t a.eastings b.eastings hne using 1; ring
  · convert C03_on_line q a.t b.t a.depth b.depth hne using 1; ring
  · convert C03_on_line q a.t b.t a.altitude b.altitude hne using 1; ring
  · intro k
    cases ha : a.std k <;> cases hb : b.std k <;> simp [interpolateProperty]
    exact C03_on_line _ _ _ _ _ hne

private theorem mapM_mem {α β : Type} (f : α → Res β) : ∀ (l : List α) (r : List β),
    l.mapM f = .ok r → ∀ y ∈ r, ∃ x ∈ l, f x = .ok y
  | [], r, h, y, hy => by
    simp [List.mapM_nil, pure, Except.pure] at h; subst h; simp at hy
  | a :: l, r, h, y, hy => by
    rw [List.mapM_cons] at h
    cases hf : f a with
    | error e => rw [hf] at h; simp [bind, Except.bind] at h
    | ok b =>
      rw [hf] at h
      cases hl : l.mapM f with
      | error e => rw [hl] at h; simp [bind, Except.bind] at h
      | ok bs =>
        rw [hl] at h
        simp [bind, Except.bind, pure, Except.pure] at h
        subst h
        rcases List.mem_cons.mp hy with rfl | hy
        · exact ⟨a, by simp, hf⟩
        · obtain ⟨x, hx, hfx⟩ := mapM_mem f l bs hl y hy
          exact ⟨x, by simp [hx], hfx⟩

private theorem mapM_fst {α β γ : Type} (f : α → Res β) (g : β → γ) (h : α → γ)
    (hfg : ∀ a b, f a = .ok b → g b = h a) : ∀ (l : List α) (r : List β),
    l.mapM f = .ok r → r.map g = l.map h
  | [], r, hr => by simp [List.mapM_nil, pure, Except.pure] at hr; subst hr; rfl
  | a :: l, r, hr => by
    rw [List.mapM_cons] at hr
    cases hf : f a with
    | error e => rw [hf] at hr; simp [bind, Except.bind] at hr
    | ok b =>
      rw [hf] at hr
      cases hl : l.mapM f with
      | error e => rw [hl] at hr; simp [bind, Except.bind] at hr
      | ok bs =>
        rw [hl] at hr
        simp [bind, Except.bind, pure, Except.pure] at hr
        subst hr
        simp [mapM_fst f g h hfg l bs hl, hfg a b hf]

/-- What C06 asks for: every retained entry is interpolated between two consecutive centre states that enclose
it. -/
def SensorListBracketed : Prop :=
  ∀ (m2ll : ℝ → ℝ → ℝ × ℝ) (origin offsets : V3 ℝ) (sensors : List ℝ) (centre : List Centre)
    (out : List (ℝ × Option SensorPose)),
    centre.Pairwise (fun a b => a.t < b.t) → sensors.Pairwise (· ≤ ·) →
    interpolateSensorList m2ll origin offsets sensors centre = .ok out →
    ∀ q p, (q, some p) ∈ out →
      ∃ k a b, centre[k]? = some a ∧ centre[k + 1]? = some b ∧ a.t ≤ q ∧ q ≤ b.t ∧
        PoseBetween origin offsets q a b p

private def c0 (t n : ℝ) : Centre := ⟨t, 0, 0, 0, 0, 0, 0, 0, n, 0, 0, fun _ => none⟩

/-- C06 as stated is false: one measurement at t=5 between centre states at 0, 10, 20 with northings
0, 100, 100 gets northing 25 (interpolated between the last and the first state) where
50 is right. -/
theorem C06_bracketed_false : ¬ SensorListBracketed := by
  intro h
  have hrun : ∃ p, interpolateSensorList (fun _ _ => (0, 0)) ⟨0, 0, 0⟩ ⟨0, 0, 0⟩ [5]
      [c0 0 0, c0 10 100, c0 20 100] = .ok [(5, some p)] ∧ p.northings = 25 ∧ p.roll = 0 ∧ p.pitch = 0
        ∧ p.yaw = 0 := by
    refine ⟨interpolateSensor (fun _ _ => (0, 0)) ⟨0, 0, 0⟩ ⟨0, 0, 0⟩ 5 (c0 20 100) (c0 0 0), ?_, ?_, ?_, ?_, ?_⟩
    · norm_num [interpolateSensorList, c0, List.dropWhile, sensorLoop, advanceSteps, List.mapM_cons,
        List.mapM_nil, pyGet, bind, Except.bind, pure, Except.pure]
      rfl
    · norm_num [interpolateSensor, c0, interpolate, bodyToInertial]
    · norm_num [interpolateSensor, c0, interpolate]
    · norm_num [interpolateSensor, c0, interpolate]
    · norm_num [interpolateSensor, c0, interpolate, interpolateYaw]
  obtain ⟨p, hp, hn, hr, hpi, hy⟩ := hrun
  obtain ⟨k, a, b, ha, hb, h1, h2, hpose⟩ := h _ _ _ _ _ _ (by norm_num [c0]) (by simp) hp 5 p (by simp)
  have hno := hpose.northings
  rw [hr, hpi, hy, hn] at hno
  have hk : k = 0 := by
    rcases k with _ | _ | _ | k
    · rfl
    · simp at ha; subst ha; norm_num [c0] at h1
    · simp at hb
    · simp at hb
  subst hk
  simp at ha hb
  subst ha; subst hb
  norm_num [OnLine, c0, rotX, rotY, rotZ, rad, sub] at hno

/-- C06: a measurement long after the last centre state can be kept and extrapolated: with centre states at
0 and 10 and measurements at 0 and 100, the one at 100 stays in the list. -/
theorem C06_outside_kept_false : ∃ (sensors : List ℝ) (centre : List Centre) (out : _),
    centre.Pairwise (fun a b => a.t < b.t) ∧ sensors.Pairwise (· ≤ ·) ∧
    interpolateSensorList (fun _ _ => (0, 0)) ⟨0, 0, 0⟩ ⟨0, 0, 0⟩ sensors centre = .ok out ∧
    (∀ c ∈ centre, c.t ≤ 10) ∧ ∃ p, ((100 : ℝ), some p) ∈ out ∧ p.northings = 1000 := by
  refine ⟨[0, 100], [c0 0 0, c0 10 100],
    [(0, some (interpolateSensor (fun _ _ => (0, 0)) ⟨0, 0, 0⟩ ⟨0, 0, 0⟩ 0 (c0 10 100) (c0 0 0))),
     (100, some (interpolateSensor (fun _ _ => (0, 0)) ⟨0, 0, 0⟩ ⟨0, 0, 0⟩ 100 (c0 0 0) (c0 10 100)))],
    by simp [c0], by simp, ?_, by simp [c0],
    _, List.mem_cons_of_mem _ (List.mem_singleton.mpr rfl), ?_⟩
  · norm_num [interpolateSensorList, c0, List.dropWhile, sensorLoop, advanceSteps, List.mapM_cons,
      List.mapM_nil, pyGet, bind, Except.bind, pure, Except.pure]
  · norm_num [interpolateSensor, c0, interpolate, bodyToInertial]

/-- An entry after the first centre time and at or before a centre time that does not exceed the last measurement is interpolated
between two consecutive states that enclose it. -/
theorem between_states (m2ll : ℝ → ℝ → ℝ × ℝ) (origin offsets : V3 ℝ)
    (sensors : List ℝ) (centre : List Centre) (out : List (ℝ × Option SensorPose))
    (hc : centre.Pairwise (fun a b => a.t < b.t)) (hs : sensors.Pairwise (· ≤ ·))
    (hrun : interpolateSensorList m2ll origin offsets sensors centre = .ok out)
    (q : ℝ) (p : SensorPose) (hmem : (q, some p) ∈ out)
    (hfirst : ∀ c, centre.head? = some c → c.t < q)
    (hnext : ∃ c ∈ centre, q ≤ c.t ∧ ∃ sl, sensors.getLast? = some sl ∧ c.t ≤ sl) :
    ∃ k a b, centre[k]? = some a ∧ centre[k + 1]? = some b ∧ a.t < q ∧ q ≤ b.t ∧
      p = interpolateSensor m2ll origin offsets q a b := by
  simp only [interpolateSensorList] at hrun
  split at hrun
  · rename_i c0 cl s0 sl hc0 hcl hs0 hsl
    split at hrun
    · simp at hrun; subst hrun; simp at hmem
    · obtain ⟨⟨s, j⟩, he, hf⟩ := mapM_mem _ _ _ hrun _ hmem
      have hsd : (sensors.dropWhile fun s => s < c0.t).Pairwise (· ≤ ·) :=
        hs.sublist (List.dropWhile_sublist _)
      obtain ⟨_, hjl, hbef, hstop⟩ := loop_inv (centre.map Centre.t) sl _ 0 hsd
        (by intro _ _ k _ hk; omega) _ he
      simp only at hjl hbef hstop
      have hsq : s = q := by
        cases hA : pyGet centre ((j : Int) - 1) <;> rw [hA] at hf <;> simp [bind, Except.bind] at hf
        cases hB : pyGet centre (j : Int) <;> rw [hB] at hf <;> simp at hf
        exact hf.1
      subst hsq
      rw [List.length_map] at hjl
      obtain ⟨c, hcm, hqc, sl', hsl', hcs⟩ := hnext
      rw [hsl] at hsl'; cases hsl'
      obtain ⟨m, hml, hmc⟩ := List.mem_iff_getElem.mp hcm
      have hmono : ∀ i k (hi : i < centre.length) (hk : k < centre.length), i ≤ k →
          (centre[i]).t ≤ (centre[k]).t := by
        intro i k hi hk hik
        rcases Nat.lt_or_ge i k with h | h
        · exact (List.pairwise_iff_getElem.mp hc i k hi hk h).le
        · have : i = k := by omega
          subst this; exact le_refl _
      have hmj : j ≤ m := by
        by_contra hlt
        have := hbef m c.t (by omega) (by simp [hml, hmc])
        linarith
      have hqj : s ≤ (centre[j]).t := by
        rcases hstop with ⟨c', hc', hle⟩ | hlast | ⟨d, hd, hsd⟩
        · simp [hjl] at hc'; rw [hc']; exact hle
        · rw [List.length_map] at hlast
          have : m = j := by omega
          subst this; rw [hmc]; exact hqc
        · rcases Nat.lt_or_ge j m with h | h
          · have hjl' : j + 1 < centre.length := by omega
            simp [hjl'] at hd
            have h3 := hmono (j + 1) m hjl' hml (by omega)
            rw [hd, hmc] at h3
            linarith
          · have : m = j := by omega
            subst this; rw [hmc]; exact hqc
      have hjpos : 0 < j := by
        rcases Nat.eq_zero_or_pos j with h | h
        · subst h
          have := hfirst centre[0] (by rw [List.head?_eq_getElem?]; simp [hjl])
          linarith
        · exact h
      have hlt := hbef (j - 1) (centre[j - 1]).t (by omega)
        (by rw [List.getElem?_map, List.getElem?_eq_getElem (by omega)]; rfl)
      refine ⟨j - 1, centre[j - 1], centre[j], List.getElem?_eq_getElem (by omega), ?_, hlt, hqj, ?_⟩
      · rw [show j - 1 + 1 = j by omega]; exact List.getElem?_eq_getElem hjl
      · have hA : pyGet centre ((j : Int) - 1) = .ok centre[j - 1] := by
          have h1 : ¬ ((j : Int) - 1 < 0) := by omega
          have h2 : ((j : Int) - 1).toNat = j - 1 := by omega
          simp only [pyGet, if_neg h1, h2, List.getElem?_eq_getElem (show j - 1 < centre.length by omega)]
        have hB : pyGet centre (j : Int) = .ok centre[j] := by
          have h1 : ¬ ((j : Int) < 0) := by omega
          simp only [pyGet, if_neg h1, Int.toNat_natCast, List.getElem?_eq_getElem hjl]
        rw [hA, hB] at hf
        simp [bind, Except.bind] at hf
        exact hf.symm
  · simp at hrun

/-- C06 (partial): if the entry is after the first centre time and some centre time lies between the entry
and the last measurement, then the entry's pose is interpolated between two consecutive states that enclose it.
Missing: entries after the last centre time that does not exceed the last measurement
(they are extrapolated from an earlier pair, or wrap to the last state). -/
theorem C06_bracketed_partial (m2ll : ℝ → ℝ → ℝ × ℝ) (origin offsets : V3 ℝ)
    (sensors : List ℝ) (centre : List Centre) (out : List (ℝ × Option SensorPose))
    (hc : centre.Pairwise (fun a b => a.t < b.t)) (hs : sensors.Pairwise (· ≤ ·))
    (hrun : interpolateSensorList m2ll origin offsets sensors centre = .ok out)
    (q : ℝ) (p : SensorPose) (hmem : (q, some p) ∈ out)
    (hfirst : ∀ c, centre.head? = some c → c.t < q)
    (hnext : ∃ c ∈ centre, q ≤ c.t ∧ ∃ sl, sensors.getLast? = some sl ∧ c.t ≤ sl) :
    ∃ k a b, centre[k]? = some a ∧ centre[k + 1]? = some b ∧ a.t < q ∧ q ≤ b.t ∧
      PoseBetween origin offsets q a b p ∧ LatLonConsistent m2ll p := by
  obtain ⟨k, a, b, ha, hb, h1, h2, hp⟩ := between_states m2ll origin offsets sensors centre out hc hs hrun q p hmem hfirst hnext
  refine ⟨k, a, b, ha, hb, h1, h2, ?_⟩
  rw [hp]
  exact sensor_pose_between m2ll origin offsets q a b h1 h2

/-- C06 (partial): with overlapping time ranges, entries before the first centre state are removed, the entries
that remain keep their order, and none between the first and the second-to-last centre time is lost.
Missing: entries inside the last centre interval, of which all but the first may be deleted. -/
theorem C06_retained_partial (m2ll : ℝ → ℝ → ℝ × ℝ) (origin offsets : V3 ℝ)
    (sensors : List ℝ) (centre : List Centre) (out : List (ℝ × Option SensorPose)) (cfirst clast : Centre)
    (hs : sensors.Pairwise (· ≤ ·)) (h0 : centre.head? = some cfirst) (h1 : centre.getLast? = some clast)
    (hov : ∃ s ∈ sensors, s ≤ clast.t) (hov' : ∃ s ∈ sensors, cfirst.t ≤ s)
    (hrun : interpolateSensorList m2ll origin offsets sensors centre = .ok out) :
    (out.map Prod.fst).Sublist sensors ∧ (∀ s ∈ out.map Prod.fst, cfirst.t ≤ s) ∧
    (∀ e ∈ out, e.2.isSome) ∧
    (∀ s ∈ sensors, ∀ c, centre[centre.length - 2]? = some c → 2 ≤ centre.length →
      cfirst.t ≤ s → s ≤ c.t → s ∈ out.map Prod.fst) := by
  simp only [interpolateSensorList] at hrun
  split at hrun
  · rename_i c0 cl s0 sl hc0 hcl hs0 hsl
    rw [h0] at hc0; cases hc0
    rw [h1] at hcl; cases hcl
    have hmin : ∀ s ∈ sensors, s0 ≤ s := by
      intro s hs'
      cases sensors with
      | nil => simp at hs0
      | cons a l =>
        simp at hs0; subst hs0
        rcases List.mem_cons.mp hs' with rfl | h
        · exact le_refl _
        · exact (List.pairwise_cons.mp hs).1 s h
    have hmax : ∀ s ∈ sensors, s ≤ sl := by
      intro s hs'
      obtain ⟨ini, rfl⟩ := List.getLast?_eq_some_iff.mp hsl
      rw [List.pairwise_append] at hs
      rcases List.mem_append.mp hs' with h | h
      · exact hs.2.2 s h sl (by simp)
      · simp at h; rw [h]
    split at hrun
    · rename_i hno
      exfalso
      obtain ⟨a, ha, ha'⟩ := hov
      obtain ⟨b, hb, hb'⟩ := hov'
      rcases hno with h | h
      · have := hmin a ha; linarith
      · have := hmax b hb; linarith
    · set kept := sensors.dropWhile fun s => decide (s < cfirst.t) with hkept
      have hsd : kept.Pairwise (· ≤ ·) := hs.sublist (List.dropWhile_sublist _)
      have hfst : out.map Prod.fst = (sensorLoop (centre.map Centre.t) sl 0 kept).map Prod.fst := by
        apply mapM_fst _ Prod.fst Prod.fst _ _ _ hrun
        rintro ⟨s, j⟩ b hf
        simp only at hf
        cases hA : pyGet centre ((j : Int) - 1) <;> rw [hA] at hf <;> simp [bind, Except.bind] at hf
        cases hB : pyGet centre (j : Int) <;> rw [hB] at hf <;> simp at hf
        rw [← hf]
      have hpre := loop_prefix (centre.map Centre.t) sl kept 0
      rw [← hfst] at hpre
      have hge : ∀ s ∈ kept, cfirst.t ≤ s := by
        intro s hsk
        cases hk : kept with
        | nil => rw [hk] at hsk; simp at hsk
        | cons a l =>
          have ha : ¬ (a < cfirst.t) := by
            have := List.head?_dropWhile_not (fun s => decide (s < cfirst.t)) sensors
            rw [← hkept, hk] at this
            simpa using this
          rw [hk] at hsk hsd
          rcases List.mem_cons.mp hsk with rfl | h
          · exact not_lt.mp ha
          · exact le_trans (not_lt.mp ha) ((List.pairwise_cons.mp hsd).1 s h)
      refine ⟨hpre.sublist.trans (List.dropWhile_sublist _), fun s h => hge s (hpre.subset h), ?_, ?_⟩
      · intro e he
        obtain ⟨⟨s, j⟩, _, hf⟩ := mapM_mem _ _ _ hrun _ he
        simp only at hf
        cases hA : pyGet centre ((j : Int) - 1) <;> rw [hA] at hf <;> simp [bind, Except.bind] at hf
        cases hB : pyGet centre (j : Int) <;> rw [hB] at hf <;> simp at hf
        rw [← hf]; rfl
      · intro s hsm c hcc hlen2 hcs hsc
        rw [hfst]
        apply loop_keeps (centre.map Centre.t) sl c.t (by simp [hcc]) (by simpa using hlen2) kept 0 hsd
          (by intro _ _ k _ hk; omega) s _ hsc
        have : s ∈ sensors.takeWhile (fun s => decide (s < cfirst.t)) ++ kept := by
          rw [hkept, List.takeWhile_append_dropWhile]; exact hsm
        rcases List.mem_append.mp this with h | h
        · have := List.all_takeWhile (l := sensors) (p := fun s => decide (s < cfirst.t))
          rw [List.all_eq_true] at this
          have := this s h
          simp at this; linarith
        · exact h
  · simp at hrun

/-- C06: when the two time ranges do not overlap nothing is changed. -/
theorem C06_no_overlap (m2ll : ℝ → ℝ → ℝ × ℝ) (origin offsets : V3 ℝ) (sensors : List ℝ)
    (centre : List Centre) (s0 sl : ℝ) (a b : Centre) (h1 : sensors.head? = some s0)
    (h2 : sensors.getLast? = some sl) (h3 : centre.head? = some a) (h4 : centre.getLast? = some b)
    (h : s0 > b.t ∨ sl < a.t) :
    interpolateSensorList m2ll origin offsets sensors centre = .ok (sensors.map fun s => (s, none)) := by
  simp only [interpolateSensorList, h1, h2, h3, h4, if_pos h]

/-- Non-vacuity for the two partial theorems: measurement at 5 with centre states 0, 10, 20 and a last
measurement at 12. -/
example : ∃ p q, interpolateSensorList (fun _ _ => (0, 0)) ⟨0, 0, 0⟩ ⟨1, 0, 0⟩ [5, 12]
    [c0 0 0, c0 10 100, c0 20 100] = .ok [(5, some p), (12, some q)] ∧ p.northings = 51 := by
  refine ⟨interpolateSensor (fun _ _ => (0, 0)) ⟨0, 0, 0⟩ ⟨1, 0, 0⟩ 5 (c0 0 0) (c0 10 100),
    interpolateSensor (fun _ _ => (0, 0)) ⟨0, 0, 0⟩ ⟨1, 0, 0⟩ 12 (c0 0 0) (c0 10 100), ?_, ?_⟩
  · norm_num [interpolateSensorList, c0, List.dropWhile, sensorLoop, advanceSteps, List.mapM_cons,
      List.mapM_nil, pyGet, bind, Except.bind, pure, Except.pure]
  · norm_num [interpolateSensor, c0, interpolate, bodyToInertial, interpolateYaw]

end Oplab.Props
