import Verif.Props.Sync
import Verif.Props.Offset
import Verif.Props.Rotation
import Verif.Props.SensorList
import Verif.Spec.DrRun

/-! C217: dead reckoning finds the path of a straight run. -/

namespace Oplab.Props
open Oplab Oplab.Spec Oplab.Seek

private theorem turned_sub (r : StraightRun) (a b : V3 ℝ) : r.turned (sub a b) = sub (r.turned a) (r.turned b) := by
  simp only [StraightRun.turned, rotX, rotY, rotZ, sub, V3.mk.injEq]
  refine ⟨?_, ?_, ?_⟩ <;> ring

private theorem turned_eq (r : StraightRun) (u : V3 ℝ) : bodyToInertial r.rpy.x r.rpy.y r.rpy.z u = r.turned u :=
  C01_is_zyx_rotation _ _ _ _

private theorem curve_linear {l : List (ℝ × ℝ)} (hs : l.Pairwise fun a b => a.1 < b.1) {A B q y : ℝ}
    (hl : ∀ p ∈ l, p.2 = A + B * p.1) (h : OnCurve l q y) : y = A + B * q := by
  obtain ⟨m, a, b, ha, hb, -, -, ho⟩ := h
  have hlt := head_lt_getElem Prod.fst hs ha hb (by omega)
  have h1 := hl a (List.mem_of_getElem? ha)
  have h2 := hl b (List.mem_of_getElem? hb)
  simp only [OnLine] at ho
  rw [h1, h2] at ho
  have hne : b.1 - a.1 ≠ 0 := sub_ne_zero.2 hlt.ne'
  refine mul_right_cancel₀ hne ?_
  linear_combination ho

private theorem rates_zero {os : List (Attitude ℝ)} {rpy : V3 ℝ} (h : ∀ o ∈ os, (⟨o.roll, o.pitch, o.yaw⟩ : V3 ℝ) = rpy)
    (h3 : 3 ≤ os.length) (hs : os.Pairwise fun a b => a.t < b.t) {i : ℕ} (hi : i < os.length) {w : V3 ℝ}
    (hw : computeAngularSpeeds os i = .ok w) : w = ⟨0, 0, 0⟩ := by
  obtain ⟨r, k, m, a, b, hr, ha, hb, -, -, -, -, hlt, -, -, e1, e2, ⟨n, e3⟩, e4⟩ := C08_rates_partial os i hi (Or.inl h3) hs
  rw [hr] at hw
  cases hw
  have ha' := h a (List.mem_of_getElem? ha)
  have hb' := h b (List.mem_of_getElem? hb)
  rw [← hb'] at ha'
  injection ha' with x1 x2 x3
  have hd : b.t - a.t ≠ 0 := sub_ne_zero.2 hlt.ne'
  rw [x1, sub_self] at e1
  rw [x2, sub_self] at e2
  rw [x3, sub_self, zero_add] at e3
  have h4 := e4 (by rw [x3, sub_self]; simp)
  rw [e3] at h4
  have hn : n = 0 := by
    have h5 : |((n : ℤ) : ℝ)| < 1 := by
      rw [abs_mul, abs_of_pos (by norm_num : (0 : ℝ) < 360)] at h4
      linarith
    have h6 : |n| < 1 := by exact_mod_cast h5
    exact Int.abs_lt_one_iff.1 h6
  rw [hn] at e3
  obtain ⟨rx, ry, rz⟩ := w
  simp only at e1 e2 e3
  have e3' : rz * (b.t - a.t) = 0 := by rw [e3]; simp
  rw [(mul_eq_zero.1 e1).resolve_right hd, (mul_eq_zero.1 e2).resolve_right hd, (mul_eq_zero.1 e3').resolve_right hd]

private theorem mount_lin (r : StraightRun) (dvl m : V3 ℝ) (t : ℝ) : r.mountAt dvl m t =
    ⟨(r.p0.x - r.t0 * (r.turned r.v).x + ((r.turned m).x - (r.turned dvl).x)) + (r.turned r.v).x * t,
     (r.p0.y - r.t0 * (r.turned r.v).y + ((r.turned m).y - (r.turned dvl).y)) + (r.turned r.v).y * t,
     (r.p0.z - r.t0 * (r.turned r.v).z + ((r.turned m).z - (r.turned dvl).z)) + (r.turned r.v).z * t⟩ := by
  rw [StraightRun.mountAt, turned_sub]
  simp only [StraightRun.dvlAt, add, smul, sub, V3.mk.injEq]
  refine ⟨?_, ?_, ?_⟩ <;> ring

private theorem dvl_mount (r : StraightRun) (dvl : V3 ℝ) (t : ℝ) : r.dvlAt t = r.mountAt dvl dvl t := by
  rw [StraightRun.mountAt, turned_sub]
  simp only [add, sub, sub_self, add_zero]

section
variable {r : StraightRun} {floor : ℝ} {dvl depth : V3 ℝ} {os : List (Attitude ℝ)} {vs : List (VelMeas ℝ)}
  {alts : List (ℝ × ℝ)} {ds : List (DepthSample ℝ)}

private theorem pair_sorted {α : Type} (t f : α → ℝ) {l : List α} (h : l.Pairwise fun a b => t a < t b) :
    (l.map fun a => (t a, f a)).Pairwise fun a b => a.1 < b.1 := List.pairwise_map.2 h

private theorem arm_zero (v dvl : V3 ℝ) : correctLeverArm v ⟨0, 0, 0⟩ dvl = v := by
  simp [correctLeverArm]

private theorem entry_true (hx : SyncRecords (vehicleSync dvl os vs alts ds)) (hd : TrueRecords r floor dvl depth os vs alts ds)
    {e : Synced ℝ} (he : EntryOk (vehicleSync dvl os vs alts ds) e) :
    (⟨e.att.roll, e.att.pitch, e.att.yaw⟩ : V3 ℝ) = r.rpy ∧ e.v = r.v ∧ e.inertial = r.turned r.v ∧
      e.alt = floor - (r.mountAt dvl dvl e.att.t).z ∧ e.depth = (r.mountAt dvl depth e.att.t).z := by
  obtain ⟨i, raw, w, hi, hvx, hvy, hvz, hw, hv, hin, -, -, -, hal, hde, -⟩ := he
  have hat := hd.attitude e.att (List.mem_of_getElem? hi)
  have hw0 := rates_zero hd.attitude hx.os3 hx.osSorted (List.getElem?_eq_some_iff.1 hi).1 hw
  have hc : ∀ (f : V3 ℝ → ℝ) (y : ℝ), OnCurve (vs.map fun m => (m.t, f m.v)) e.att.t y → y = f r.v := by
    intro f y h
    have := curve_linear (A := f r.v) (B := 0) (pair_sorted (·.t) (fun m : VelMeas ℝ => f m.v) hx.vs.2) (by
      intro p hp
      obtain ⟨m, hm, rfl⟩ := List.mem_map.1 hp
      simp [hd.velocity m hm]) h
    simpa using this
  have hraw : raw = r.v := by
    obtain ⟨a, b, c⟩ := raw
    have h1 := hc V3.x _ hvx
    have h2 := hc V3.y _ hvy
    have h3 := hc V3.z _ hvz
    simp only at h1 h2 h3
    rw [h1, h2, h3]
  have hev : e.v = r.v := by
    rw [hv, hraw, hw0]
    exact arm_zero _ _
  refine ⟨hat, hev, ?_, ?_, ?_⟩
  · rw [hin, hev]
    show bodyToInertial e.att.roll e.att.pitch e.att.yaw r.v = _
    rw [← turned_eq, ← hat]
  · rw [mount_lin]
    have := curve_linear (A := floor - (r.p0.z - r.t0 * (r.turned r.v).z + ((r.turned dvl).z - (r.turned dvl).z)))
      (B := - (r.turned r.v).z) hx.alts.2 (by
      intro p hp
      rw [hd.altitude p hp, dvl_mount r dvl, mount_lin]
      simp only
      ring) hal
    rw [this]
    ring
  · rw [mount_lin]
    exact curve_linear (pair_sorted (·.t) (fun d : DepthSample ℝ => d.depth) hx.ds.2) (by
      intro p hp
      obtain ⟨m, hm, rfl⟩ := List.mem_map.1 hp
      simp only
      rw [hd.depth m hm, mount_lin]) hde

private theorem reckoned_linear {l : List (Synced ℝ × (ℝ × ℝ))} (hr : Reckoned l) {u : V3 ℝ} (hu : ∀ e ∈ l, e.1.inertial = u) :
    ∃ c : ℝ × ℝ, ∀ e ∈ l, e.2.1 = c.1 + u.x * e.1.att.t ∧ e.2.2 = c.2 + u.y * e.1.att.t := by
  cases l with
  | nil => exact ⟨(0, 0), by simp⟩
  | cons e0 l =>
    refine ⟨(e0.2.1 - u.x * e0.1.att.t, e0.2.2 - u.y * e0.1.att.t), fun e he => ?_⟩
    obtain ⟨k, hk⟩ := List.mem_iff_getElem?.1 he
    clear he
    induction k generalizing e with
    | zero =>
      cases hk
      constructor <;> simp
    | succ k ih =>
      have hlt := (List.getElem?_eq_some_iff.1 hk).1
      obtain ⟨a, ha⟩ : ∃ a, (e0 :: l)[k]? = some a := ⟨_, List.getElem?_eq_getElem (by omega)⟩
      obtain ⟨i1, i2⟩ := ih a ha
      obtain ⟨h1, h2⟩ := hr k a e ha hk
      rw [hu a (List.mem_of_getElem? ha), hu e (List.mem_of_getElem? hk)] at h1 h2
      constructor
      · linear_combination h1 + i1
      · linear_combination h2 + i2

/-- The entries before the shift onto the fixes. -/
private theorem centres_true (hx : SyncRecords (vehicleSync dvl os vs alts ds)) (hd : TrueRecords r floor dvl depth os vs alts ds)
    (origin : V3 ℝ) : ∃ l shift, syncRun (vehicleSync dvl os vs alts ds) = .ok l ∧
      (l.map (centreOf origin dvl depth)).Pairwise (fun a b => a.t < b.t) ∧
      ∀ c ∈ l.map (centreOf origin dvl depth), CentreAt r floor dvl origin shift c := by
  obtain ⟨l, v0, vE, hrun, -, -, hatt, hent, hrec, -⟩ := C79_synchronised_partial _ hx
  have het := fun e he => entry_true hx hd (hent e he)
  obtain ⟨c, hc⟩ := reckoned_linear hrec (u := r.turned r.v) (fun e he => (het e he).2.2.1)
  refine ⟨l, ⟨c.1 - (r.p0.x - r.t0 * (r.turned r.v).x), c.2 - (r.p0.y - r.t0 * (r.turned r.v).y), 0⟩, hrun, ?_, ?_⟩
  · have : (l.map (·.1.att)).Pairwise fun a b => a.t < b.t := by
      rw [hatt]
      exact (hx.osSorted.sublist List.filter_sublist).sublist (List.drop_sublist _ _)
    have this : l.Pairwise fun a b => a.1.att.t < b.1.att.t :=
      (List.pairwise_map (f := fun x : Synced ℝ × (ℝ × ℝ) => x.1.att) (R := fun a b => a.t < b.t)).1 this
    exact List.pairwise_map.2 this
  · intro k hk
    obtain ⟨e, he, rfl⟩ := List.mem_map.1 hk
    obtain ⟨t1, t2, -, t4, t5⟩ := het e he
    obtain ⟨c1, c2⟩ := hc e he
    have hrot : ∀ u, bodyToInertial e.1.att.roll e.1.att.pitch e.1.att.yaw u = r.turned u := by
      intro u
      rw [← turned_eq, ← t1]
    have ho : ∀ a b : V3 ℝ, r.turned ⟨a.x - b.x, a.y - b.y, a.z - b.z⟩ = sub (r.turned a) (r.turned b) := turned_sub r
    constructor
    · exact t1
    · simp only [centreOf, t2]
    · simp only [centreOf, toCentre, hrot, ho, mount_lin, c1, sub]
      ring
    · simp only [centreOf, toCentre, hrot, ho, mount_lin, c2, sub]
      ring
    · simp only [centreOf, toCentre, hrot, ho, t5, mount_lin, sub]
      ring
    · simp only [centreOf, toCentre, hrot, ho, t4, mount_lin, sub]
      ring

end

/-- The shift onto true fixes. -/
private theorem shift_true {tr us out : List (TrackPt ℝ)} {A B C : V3 ℝ} (hs : tr.Pairwise fun a b => a.t < b.t) (hus : us ≠ [])
    (ht : ∀ p ∈ tr, p.n = A.x + B.x * p.t ∧ p.e = A.y + B.y * p.t) (hu : ∀ u ∈ us, u.n = C.x + B.x * u.t ∧ u.e = C.y + B.y * u.t)
    (h : alignTrack tr us = .ok out) : out = tr.map fun p => ⟨p.t, p.n + (C.x - A.x), p.e + (C.y - A.y)⟩ := by
  obtain ⟨pre, used, post, pos, hsplit, hne, hlen, hon, h1, h2⟩ := C82_agrees_on_average tr us out hs hus h
  rw [alignTrack, if_neg hus] at h
  cases ho : usblOffset tr us with
  | error e => rw [ho] at h; cases h
  | ok o =>
    rw [ho] at h
    have h := Except.ok.inj h
    subst h
    have hs' : (shiftTrack tr o).Pairwise fun a b => a.t < b.t := by
      rw [shiftTrack]
      exact List.pairwise_map.2 hs
    have hmem : ∀ p ∈ shiftTrack tr o, p.n = (A.x + o.1) + B.x * p.t ∧ p.e = (A.y + o.2) + B.y * p.t := by
      intro p hp
      obtain ⟨q, hq, rfl⟩ := List.mem_map.1 hp
      obtain ⟨e1, e2⟩ := ht q hq
      simp only
      rw [e1, e2]
      constructor <;> ring
    have hpos : ∀ (i : ℕ) u p, used[i]? = some u → pos[i]? = some p → p.1 = u.n + (A.x + o.1 - C.x) ∧ p.2 = u.e + (A.y + o.2 - C.y) := by
      intro i u p hui hpi
      obtain ⟨m, a, b, ha, hb, -, l1, l2⟩ := hon i u p hui hpi
      have hlt := head_lt_getElem (fun x : TrackPt ℝ => x.t) hs' ha hb (by omega)
      have hne : b.t - a.t ≠ 0 := sub_ne_zero.2 hlt.ne'
      obtain ⟨a1, a2⟩ := hmem a (List.mem_of_getElem? ha)
      obtain ⟨b1, b2⟩ := hmem b (List.mem_of_getElem? hb)
      obtain ⟨u1, u2⟩ := hu u (by rw [hsplit]; simp [List.mem_of_getElem? hui])
      simp only [OnLine] at l1 l2
      rw [a1, b1] at l1
      rw [a2, b2] at l2
      rw [u1, u2]
      constructor
      · refine mul_right_cancel₀ hne ?_
        linear_combination l1
      · refine mul_right_cancel₀ hne ?_
        linear_combination l2
    have sums : ∀ (pos : List (ℝ × ℝ)) (used : List (TrackPt ℝ)) (a b : ℝ), pos.length = used.length →
        (∀ (i : ℕ) u p, used[i]? = some u → pos[i]? = some p → p.1 = u.n + a ∧ p.2 = u.e + b) →
        (pos.map Prod.fst).sum = (used.map (·.n)).sum + used.length * a ∧
          (pos.map Prod.snd).sum = (used.map (·.e)).sum + used.length * b := by
      intro pos
      induction pos with
      | nil =>
        intro used a b hl _
        have : used = [] := List.length_eq_zero_iff.1 hl.symm
        subst this
        simp
      | cons p pos ih =>
        intro used a b hl hh
        cases used with
        | nil => simp at hl
        | cons u used =>
          obtain ⟨i1, i2⟩ := ih used a b (by simpa using hl) (fun i v q hv hq => hh (i + 1) v q (by simpa using hv) (by simpa using hq))
          obtain ⟨j1, j2⟩ := hh 0 u p rfl rfl
          simp only [List.map_cons, List.sum_cons, List.length_cons, i1, i2, j1, j2]
          push_cast
          constructor <;> ring
    obtain ⟨s1, s2⟩ := sums pos used _ _ hlen hpos
    have hl : (used.length : ℝ) ≠ 0 := by
      have := List.length_pos_iff.2 hne
      positivity
    have z1 : A.x + o.1 - C.x = 0 := by
      rcases mul_eq_zero.1 (show (used.length : ℝ) * (A.x + o.1 - C.x) = 0 by linarith) with h | h
      · exact absurd h hl
      · exact h
    have z2 : A.y + o.2 - C.y = 0 := by
      rcases mul_eq_zero.1 (show (used.length : ℝ) * (A.y + o.2 - C.y) = 0 by linarith) with h | h
      · exact absurd h hl
      · exact h
    rw [shiftTrack]
    refine List.map_congr_left fun p _ => ?_
    rw [show o.1 = C.x - A.x by linarith, show o.2 = C.y - A.y by linarith]

variable {r : StraightRun} {floor : ℝ} {dvl depth : V3 ℝ} {os : List (Attitude ℝ)} {vs : List (VelMeas ℝ)}
  {alts : List (ℝ × ℝ)} {ds : List (DepthSample ℝ)}

private theorem zip_map {α β : Type} (f : α → β) (g : α → β → α) : ∀ l : List α, List.zipWith g l (l.map f) = l.map fun a => g a (f a)
  | [] => rfl
  | a :: l => by simp [zip_map f g l]

/-- C217 (partial): with fixes without errors, every entry of the dead reckoned list has the attitude, velocity, depth and
altitude of the vehicle's origin at its time, and its horizontal position but for one shift: the vector from the origin to
the transponder. Missing: this shift (see `C217_usbl_false`). -/
theorem C217_track_partial (origin usbl : V3 ℝ) (us : List (TrackPt ℝ)) (cs : List Centre)
    (hx : SyncRecords (vehicleSync dvl os vs alts ds)) (hd : TrueRecords r floor dvl depth os vs alts ds)
    (hu : TrueFixes r dvl usbl us) (hus : us ≠ []) (h : drCentre origin dvl depth (vehicleSync dvl os vs alts ds) us = .ok cs) :
    cs.Pairwise (fun a b => a.t < b.t) ∧ ∀ c ∈ cs, CentreAt r floor dvl origin (r.turned (sub usbl origin)) c := by
  obtain ⟨l, shift, hrun, hsort, htrue⟩ := centres_true hx hd origin
  rw [drCentre, hrun] at h
  simp only [bind, Except.bind] at h
  generalize hcs : l.map (centreOf origin dvl depth) = pre at h hsort htrue
  cases ha : alignTrack (pre.map fun c => (⟨c.t, c.northings, c.eastings⟩ : TrackPt ℝ)) us with
  | error e => rw [ha] at h; cases h
  | ok tr =>
    rw [ha] at h
    have h := Except.ok.inj h
    have hout := shift_true (B := r.turned r.v)
      (A := ⟨(r.p0.x - r.t0 * (r.turned r.v).x + ((r.turned origin).x - (r.turned dvl).x)) + shift.x,
        (r.p0.y - r.t0 * (r.turned r.v).y + ((r.turned origin).y - (r.turned dvl).y)) + shift.y, 0⟩)
      (C := ⟨r.p0.x - r.t0 * (r.turned r.v).x + ((r.turned usbl).x - (r.turned dvl).x),
        r.p0.y - r.t0 * (r.turned r.v).y + ((r.turned usbl).y - (r.turned dvl).y), 0⟩)
      (List.pairwise_map.2 hsort) hus (by
        intro p hp
        obtain ⟨c, hc, rfl⟩ := List.mem_map.1 hp
        have hc := htrue c hc
        refine ⟨?_, ?_⟩
        · simp only [hc.north, mount_lin]
          ring
        · simp only [hc.east, mount_lin]
          ring) (by
        intro u hu'
        have := hu u hu'
        rw [mount_lin] at this
        exact this) ha
    rw [hout, List.map_map, zip_map] at h
    subst h
    refine ⟨List.pairwise_map.2 hsort, fun c hc => ?_⟩
    obtain ⟨c', hc', rfl⟩ := List.mem_map.1 hc
    have hc := htrue c' hc'
    rw [turned_sub]
    refine ⟨hc.attitude, hc.velocity, ?_, ?_, hc.depth, hc.altitude⟩
    · simp only [Function.comp, hc.north, mount_lin, sub]
      ring
    · simp only [Function.comp, hc.east, mount_lin, sub]
      ring

/-- C217 (partial): without fixes the path is found but for one horizontal shift of the whole. -/
theorem C217_no_fixes_partial (origin : V3 ℝ) (hx : SyncRecords (vehicleSync dvl os vs alts ds))
    (hd : TrueRecords r floor dvl depth os vs alts ds) :
    ∃ cs shift, drCentre origin dvl depth (vehicleSync dvl os vs alts ds) [] = .ok cs ∧
      cs.Pairwise (fun a b => a.t < b.t) ∧ ∀ c ∈ cs, CentreAt r floor dvl origin shift c := by
  obtain ⟨l, shift, hrun, hsort, htrue⟩ := centres_true hx hd origin
  refine ⟨l.map (centreOf origin dvl depth), shift, ?_, hsort, htrue⟩
  rw [drCentre, hrun]
  simp only [bind, Except.bind, alignTrack, if_pos]
  rw [zip_map]
  simp

private theorem interp_lin {q t1 t2 A B : ℝ} (h : t1 ≠ t2) : interpolate q t1 t2 (A + B * t1) (A + B * t2) = A + B * q := by
  rw [interpolate]
  split_ifs with h0
  · exact absurd h0 (by first | exact h | exact h.symm)
  · have : t2 - t1 ≠ 0 := sub_ne_zero.2 (Ne.symm h)
    field_simp
    ring

private theorem interp_const {q t1 t2 A : ℝ} (h : t1 ≠ t2) : interpolate q t1 t2 A A = A := by
  have := interp_lin (q := q) (A := A) (B := 0) h
  simpa using this

private theorem sensor_true (m2ll : ℝ → ℝ → ℝ × ℝ) (origin mount shift : V3 ℝ) {a b : Centre} (q : ℝ) (hne : a.t ≠ b.t)
    (ha : CentreAt r floor dvl origin shift a) (hb : CentreAt r floor dvl origin shift b) :
    SensorAt r floor dvl mount shift q (interpolateSensor m2ll origin mount q a b) := by
  have e1 := ha.attitude.trans hb.attitude.symm
  have e2 := ha.velocity.trans hb.velocity.symm
  injection e1 with a1 a2 a3
  injection e2 with b1 b2 b3
  have ho : ∀ a b : V3 ℝ, r.turned ⟨a.x - b.x, a.y - b.y, a.z - b.z⟩ = sub (r.turned a) (r.turned b) := turned_sub r
  have hy : interpolateYaw q a.t b.t b.yaw b.yaw = b.yaw := by
    rw [interpolateYaw, sub_self, abs_zero, if_neg (by norm_num), interp_const hne]
  have hrot : ∀ u, bodyToInertial b.roll b.pitch b.yaw u = r.turned u := by
    intro u
    rw [← turned_eq, ← hb.attitude]
  have lin : ∀ {A B : ℝ} {x y : ℝ}, x = A + B * a.t → y = A + B * b.t → interpolate q a.t b.t x y = A + B * q := by
    intro A B x y hx hy
    rw [hx, hy, interp_lin hne]
  constructor
  · simp only [interpolateSensor, a1, a2, a3, interp_const hne, hy, hb.attitude]
  · simp only [interpolateSensor, b1, b2, b3, interp_const hne, hb.velocity]
  · have := lin (A := (r.mountAt dvl origin 0).x + shift.x) (B := (r.turned r.v).x) (x := a.northings) (y := b.northings)
      (by rw [ha.north]; simp only [mount_lin]; ring) (by rw [hb.north]; simp only [mount_lin]; ring)
    simp only [interpolateSensor, a1, a2, a3, interp_const hne, hy, hrot, ho, this]
    simp only [mount_lin, sub]
    ring
  · have := lin (A := (r.mountAt dvl origin 0).y + shift.y) (B := (r.turned r.v).y) (x := a.eastings) (y := b.eastings)
      (by rw [ha.east]; simp only [mount_lin]; ring) (by rw [hb.east]; simp only [mount_lin]; ring)
    simp only [interpolateSensor, a1, a2, a3, interp_const hne, hy, hrot, ho, this]
    simp only [mount_lin, sub]
    ring
  · have := lin (A := (r.mountAt dvl origin 0).z) (B := (r.turned r.v).z) (x := a.depth) (y := b.depth)
      (by rw [ha.depth]; simp only [mount_lin]; ring) (by rw [hb.depth]; simp only [mount_lin]; ring)
    simp only [interpolateSensor, a1, a2, a3, interp_const hne, hy, hrot, ho, this]
    simp only [mount_lin, sub]
    ring
  · have := lin (A := floor - (r.mountAt dvl origin 0).z) (B := - (r.turned r.v).z) (x := a.altitude) (y := b.altitude)
      (by rw [ha.altitude]; simp only [mount_lin]; ring) (by rw [hb.altitude]; simp only [mount_lin]; ring)
    simp only [interpolateSensor, a1, a2, a3, interp_const hne, hy, hrot, ho, this]
    simp only [mount_lin, sub]
    ring

private theorem loop_lt (ct : List ℝ) (sl : ℝ) : ∀ (ss : List ℝ) (j : ℕ), ∀ e ∈ sensorLoop ct sl j ss, e.2 < ct.length ∧ 2 ≤ ct.length := by
  have adv : ∀ (q : ℝ) (l : List ℝ), l ≠ [] → advanceSteps q sl l < l.length := by
    intro q l
    induction l with
    | nil => intro h; exact absurd rfl h
    | cons c l ih =>
      intro _
      cases l with
      | nil => simp [advanceSteps]
      | cons d l =>
        have := ih (by simp)
        simp only [advanceSteps]
        split_ifs
        · simp
        · simpa using this
        · simp
  intro ss
  induction ss with
  | nil => intro j e he; simp [sensorLoop] at he
  | cons s ss ih =>
    intro j e he
    rw [sensorLoop] at he
    split_ifs at he with hj
    · cases he
    · rcases List.mem_cons.1 he with rfl | h
      · have := adv s (ct.drop j) (by
          intro h0
          have := congrArg List.length h0
          simp at this
          omega)
        rw [List.length_drop] at this
        refine ⟨?_, by omega⟩
        show j + advanceSteps s sl (ct.drop j) < ct.length
        omega
      · exact ih _ e h

private theorem mapM_mem' {α β : Type} {f : α → Res β} : ∀ {l : List α} {out : List β}, l.mapM f = .ok out → ∀ b ∈ out, ∃ a ∈ l, f a = .ok b
  | [], out, h, b, hb => by
    simp [pure, Except.pure] at h
    subst h
    cases hb
  | a :: l, out, h, b, hb => by
    rw [List.mapM_cons] at h
    cases hf : f a with
    | error e => rw [hf] at h; cases h
    | ok y =>
      rw [hf] at h
      cases hl : l.mapM f with
      | error e => rw [hl] at h; cases h
      | ok ys =>
        rw [hl] at h
        have h := Except.ok.inj h
        subst h
        rcases List.mem_cons.1 hb with rfl | hb
        · exact ⟨a, by simp, hf⟩
        · obtain ⟨c, hc, hfc⟩ := mapM_mem' hl b hb
          exact ⟨c, List.mem_cons_of_mem _ hc, hfc⟩

private theorem payload_true (m2ll : ℝ → ℝ → ℝ × ℝ) (origin mount shift : V3 ℝ) {cs : List Centre} {times : List ℝ}
    (hs : cs.Pairwise fun a b => a.t < b.t) (hc : ∀ c ∈ cs, CentreAt r floor dvl origin shift c)
    {out : List (ℝ × Option SensorPose)} (h : interpolateSensorList m2ll origin mount times cs = .ok out) :
    ∀ t p, (t, some p) ∈ out → SensorAt r floor dvl mount shift t p := by
  intro t p hp
  rw [interpolateSensorList] at h
  split at h
  · split_ifs at h with h0
    · have h := Except.ok.inj h
      subst h
      simp at hp
    · obtain ⟨⟨s, j⟩, he, hf⟩ := mapM_mem' h _ hp
      obtain ⟨hj, h2⟩ := loop_lt _ _ _ _ _ he
      simp only [List.length_map] at hj h2
      have hb : cs[j]? = some cs[j] := List.getElem?_eq_getElem hj
      have ha : ∃ a ∈ cs, pyGet cs ((j : Int) - 1) = .ok a ∧ a.t ≠ cs[j].t := by
        rcases Nat.eq_zero_or_pos j with hz | hz
        · subst hz
          obtain ⟨a, hl⟩ : ∃ a, cs.getLast? = some a := ⟨_, List.getLast?_eq_some_getLast (by
            intro hn
            rw [hn] at h2
            simp at h2)⟩
          refine ⟨a, List.mem_of_getLast? hl, pyGet_last _ _ hl, ?_⟩
          rw [List.getLast?_eq_getElem?] at hl
          exact (head_lt_getElem Centre.t hs hb hl (by omega)).ne'
        · have hk : cs[j - 1]? = some cs[j - 1] := List.getElem?_eq_getElem (by omega)
          refine ⟨cs[j - 1], List.getElem_mem _, ?_, (head_lt_getElem Centre.t hs hk hb (by omega)).ne⟩
          rw [show (j : Int) - 1 = ((j - 1 : ℕ) : Int) by omega]
          exact pyGet_nat _ _ _ hk
      obtain ⟨a, ham, hag, hne⟩ := ha
      simp only [hag, pyGet_nat _ _ _ hb, bind, Except.bind] at hf
      have hf := Except.ok.inj hf
      simp only [Prod.mk.injEq, Option.some.injEq] at hf
      obtain ⟨rfl, rfl⟩ := hf
      exact sensor_true m2ll origin mount shift _ hne (hc a ham) (hc _ (List.getElem_mem _))
  · cases h

/-- C217 (partial): so has every pose given to a sensor mounted anywhere, whatever its times. Missing: as above. -/
theorem C217_payload_partial (m2ll : ℝ → ℝ → ℝ × ℝ) (origin usbl mount : V3 ℝ) (us : List (TrackPt ℝ)) (times : List ℝ)
    (out : List (ℝ × Option SensorPose)) (hx : SyncRecords (vehicleSync dvl os vs alts ds))
    (hd : TrueRecords r floor dvl depth os vs alts ds) (hu : TrueFixes r dvl usbl us) (hus : us ≠ [])
    (h : drPayload m2ll origin dvl depth mount (vehicleSync dvl os vs alts ds) us times = .ok out) :
    ∀ t p, (t, some p) ∈ out → SensorAt r floor dvl mount (r.turned (sub usbl origin)) t p := by
  rw [drPayload] at h
  cases hcs : drCentre origin dvl depth (vehicleSync dvl os vs alts ds) us with
  | error e => rw [hcs] at h; cases h
  | ok cs =>
    rw [hcs] at h
    obtain ⟨h1, h2⟩ := C217_track_partial origin usbl us cs hx hd hu hus hcs
    exact payload_true m2ll origin mount _ h1 h2 h

/-- C217: with the transponder at the vehicle's origin the poses are exact. -/
theorem C217_transponder_at_origin (m2ll : ℝ → ℝ → ℝ × ℝ) (origin mount : V3 ℝ) (us : List (TrackPt ℝ)) (times : List ℝ)
    (out : List (ℝ × Option SensorPose)) (hx : SyncRecords (vehicleSync dvl os vs alts ds))
    (hd : TrueRecords r floor dvl depth os vs alts ds) (hu : TrueFixes r dvl origin us) (hus : us ≠ [])
    (h : drPayload m2ll origin dvl depth mount (vehicleSync dvl os vs alts ds) us times = .ok out) :
    ∀ t p, (t, some p) ∈ out → SensorAt r floor dvl mount ⟨0, 0, 0⟩ t p := by
  intro t p hp
  have h := C217_payload_partial m2ll origin origin mount us times out hx hd hu hus h t p hp
  have e : r.turned (sub origin origin) = ⟨0, 0, 0⟩ := by
    rw [turned_sub]
    simp [sub]
  rwa [e] at h

/-- The times of the entries: of the orientations measured while the DVL works, without the first of them if exactly one
orientation was measured before. -/
noncomputable def drTimes (os : List (Attitude ℝ)) (v0 vEnd : ℝ) : List ℝ :=
  ((os.filter fun o => decide (v0 ≤ o.t ∧ o.t ≤ vEnd)).drop (if (os.filter fun o => decide (o.t < v0)).length = 1 then 1 else 0)).map
    (·.t)

private theorem offset_times {tr tr' us : List (TrackPt ℝ)} {d0 dl : TrackPt ℝ} (h : OffsetRecords tr us d0 dl)
    (ht : tr'.map (·.t) = tr.map (·.t)) : ∃ d0' dl', OffsetRecords tr' us d0' dl' := by
  have hl : tr'.length = tr.length := by simpa using congrArg List.length ht
  have hlast := congrArg List.getLast? ht
  have hhead := congrArg List.head? ht
  rw [List.getLast?_map, List.getLast?_map, h.last] at hlast
  rw [List.head?_map, List.head?_map, h.first] at hhead
  obtain ⟨e0, h0, h0t⟩ := Option.map_eq_some_iff.1 hhead
  obtain ⟨el, hl', hlt⟩ := Option.map_eq_some_iff.1 hlast
  simp only at h0t hlt
  have hp : tr'.Pairwise fun a b => a.t < b.t := by
    have := List.pairwise_map (f := fun x : TrackPt ℝ => x.t) (R := fun a b => a < b) (l := tr)
    have h1 := this.2 h.drRec.2
    rw [← ht] at h1
    exact List.pairwise_map.1 h1
  refine ⟨e0, el, ⟨by rw [hl]; exact h.drRec.1, hp⟩, h0, hl', h.usSorted, h.gaps, ?_, ?_⟩
  · intro i a b ha hb h1 h2
    obtain ⟨p, hp, hp1, hp2⟩ := h.dense i a b ha hb (by rw [← h0t]; exact h1) (by rw [← hlt]; exact h2)
    have : p.t ∈ tr'.map (·.t) := by rw [ht]; exact List.mem_map_of_mem hp
    obtain ⟨p', hp', e⟩ := List.mem_map.1 this
    exact ⟨p', hp', by rw [e]; exact hp1, by rw [e]; exact hp2⟩
  · obtain ⟨f, hf, f1, f2⟩ := h.some
    exact ⟨f, hf, by rw [h0t]; exact f1, by rw [hlt]; exact f2⟩

/-- C217: dead reckoning succeeds on measurements with or without errors, if the fixes are dense enough (conditions on the
times only, see `OffsetRecords`), and has an entry for each of the times `drTimes`. -/
theorem C217_succeeds (origin : V3 ℝ) (us : List (TrackPt ℝ)) (v0 vEnd : VelMeas ℝ) (d0 dl : TrackPt ℝ)
    (hx : SyncRecords (vehicleSync dvl os vs alts ds)) (h0 : vs.head? = some v0) (hE : vs.getLast? = some vEnd)
    (ho : OffsetRecords ((drTimes os v0.t vEnd.t).map fun t => ⟨t, 0, 0⟩) us d0 dl) :
    ∃ cs, drCentre origin dvl depth (vehicleSync dvl os vs alts ds) us = .ok cs ∧ cs.map (·.t) = drTimes os v0.t vEnd.t := by
  obtain ⟨l, a, b, hrun, ha, hb, hatt, -, -, -⟩ := C79_synchronised_partial _ hx
  rw [show (vehicleSync dvl os vs alts ds).vs = vs from rfl] at ha hb
  rw [h0] at ha
  rw [hE] at hb
  cases ha
  cases hb
  rw [drCentre, hrun]
  simp only [bind, Except.bind]
  generalize hcs : l.map (centreOf origin dvl depth) = pre
  have htm : pre.map (·.t) = drTimes os v0.t vEnd.t := by
    rw [← hcs, List.map_map, drTimes]
    have := congrArg (List.map fun o : Attitude ℝ => o.t) hatt
    rw [List.map_map] at this
    exact this
  obtain ⟨d0', dl', ho'⟩ := offset_times (tr' := pre.map fun c => ⟨c.t, c.northings, c.eastings⟩) ho (by
    rw [List.map_map, List.map_map]
    simp only [Function.comp_def]
    rw [htm]
    simp)
  obtain ⟨o, pos, hoff, -⟩ := C82_used_fixes_partial _ _ _ _ ho'
  have hus : us ≠ [] := by
    obtain ⟨f, hf, -⟩ := ho.some
    intro hn
    rw [hn] at hf
    simp at hf
  have hal : alignTrack (pre.map fun c => (⟨c.t, c.northings, c.eastings⟩ : TrackPt ℝ)) us =
      .ok (shiftTrack (pre.map fun c => ⟨c.t, c.northings, c.eastings⟩) o) := by
    rw [alignTrack, if_neg hus, hoff]
    rfl
  rw [hal]
  refine ⟨_, rfl, ?_⟩
  rw [shiftTrack, List.map_map, zip_map, List.map_map, ← htm]
  rfl

/-- What C217 asks for. -/
def ReckonsStraightRuns : Prop :=
  ∀ (r : StraightRun) (floor : ℝ) (origin dvl depth usbl : V3 ℝ) (os : List (Attitude ℝ)) (vs : List (VelMeas ℝ))
    (alts : List (ℝ × ℝ)) (ds : List (DepthSample ℝ)) (us : List (TrackPt ℝ)) (cs : List Centre),
    SyncRecords (vehicleSync dvl os vs alts ds) → TrueRecords r floor dvl depth os vs alts ds → TrueFixes r dvl usbl us →
    us ≠ [] → drCentre origin dvl depth (vehicleSync dvl os vs alts ds) us = .ok cs →
    ∀ c ∈ cs, (⟨c.northings, c.eastings, c.depth⟩ : V3 ℝ) = r.mountAt dvl origin c.t

/-- A vehicle at rest, level and heading north. -/
private noncomputable def atRest : StraightRun := ⟨0, ⟨0, 0, 0⟩, ⟨0, 0, 0⟩, ⟨0, 0, 0⟩⟩

private theorem rest_mount (m : V3 ℝ) (t : ℝ) : atRest.mountAt ⟨0, 0, 0⟩ m t = m := by
  simp [atRest, StraightRun.mountAt, StraightRun.dvlAt, StraightRun.turned, rotX, rotY, rotZ, rad, add, sub, smul]

private def oRest : List (Attitude ℝ) := [⟨0, 0, 0, 0⟩, ⟨1, 0, 0, 0⟩, ⟨2, 0, 0, 0⟩]
private def vRest : List (VelMeas ℝ) := [⟨0, ⟨0, 0, 0⟩, ⟨0, 0, 0⟩⟩, ⟨2, ⟨0, 0, 0⟩, ⟨0, 0, 0⟩⟩]
private def uRest : List (TrackPt ℝ) := [⟨0, 1, 0⟩, ⟨1, 1, 0⟩]

private theorem rest_records : SyncRecords (vehicleSync ⟨0, 0, 0⟩ oRest vRest [(0, 10), (2, 10)] [⟨0, 0, 0⟩, ⟨2, 0, 0⟩]) where
  os3 := by simp [vehicleSync, oRest]
  osSorted := by simp [vehicleSync, oRest]
  vs := ⟨by simp [vehicleSync, vRest], by simp [vehicleSync, vRest]⟩
  alts := ⟨by simp [vehicleSync], by simp [vehicleSync]⟩
  ds := ⟨by simp [vehicleSync], by simp [vehicleSync]⟩
  covered := by
    intro o _ h
    simpa [Covers, vehicleSync, vRest] using h
  some := ⟨⟨1, 0, 0, 0⟩, by simp [vehicleSync, oRest], by simp [Covers, vehicleSync, vRest]⟩

private theorem rest_true : TrueRecords atRest 10 ⟨0, 0, 0⟩ ⟨0, 0, 0⟩ oRest vRest [(0, 10), (2, 10)] [⟨0, 0, 0⟩, ⟨2, 0, 0⟩] where
  attitude := by simp [oRest, atRest]
  velocity := by simp [vRest, atRest]
  altitude := by
    intro a ha
    rw [dvl_mount _ ⟨0, 0, 0⟩, rest_mount]
    simp at ha
    rcases ha with rfl | rfl <;> simp
  depth := by
    intro d hd
    rw [rest_mount]
    simp at hd
    rcases hd with rfl | rfl <;> simp

private theorem rest_fixes : TrueFixes atRest ⟨0, 0, 0⟩ ⟨1, 0, 0⟩ uRest := by
  intro u hu
  rw [rest_mount]
  simp [uRest] at hu
  rcases hu with rfl | rfl <;> simp

private theorem rest_ok : ∃ cs, drCentre ⟨0, 0, 0⟩ ⟨0, 0, 0⟩ ⟨0, 0, 0⟩
    (vehicleSync ⟨0, 0, 0⟩ oRest vRest [(0, 10), (2, 10)] [⟨0, 0, 0⟩, ⟨2, 0, 0⟩]) uRest = .ok cs ∧ cs.map (·.t) = [0, 1, 2] := by
  have ht : drTimes oRest 0 2 = [0, 1, 2] := by
    norm_num [drTimes, oRest]
  obtain ⟨cs, h1, h2⟩ := C217_succeeds (depth := ⟨0, 0, 0⟩) ⟨0, 0, 0⟩ uRest ⟨0, ⟨0, 0, 0⟩, ⟨0, 0, 0⟩⟩ ⟨2, ⟨0, 0, 0⟩, ⟨0, 0, 0⟩⟩
    ⟨0, 0, 0⟩ ⟨2, 0, 0⟩ rest_records rfl rfl (by
      rw [ht]
      exact {
        drRec := ⟨by simp, by simp⟩
        first := rfl
        last := rfl
        usSorted := by simp [uRest]
        gaps := by
          intro i a b ha hb
          match i with
          | 0 => simp [uRest] at ha hb; subst ha; subst hb; norm_num
          | 1 => simp [uRest] at hb
          | _ + 2 => simp [uRest] at hb
        dense := by
          intro i a b ha hb _ _
          match i with
          | 0 => simp [uRest] at ha hb; subst ha; subst hb; exact ⟨⟨1, 0, 0⟩, by simp, by norm_num, by norm_num⟩
          | 1 => simp [uRest] at hb
          | _ + 2 => simp [uRest] at hb
        some := ⟨⟨1, 1, 0⟩, by simp [uRest], by norm_num, by norm_num⟩ })
  exact ⟨cs, h1, by rw [h2]; exact ht⟩

/-- C217 as stated is false: the fixes of a transponder one metre ahead of the origin put the origin one metre ahead of
where it is. -/
theorem C217_usbl_false : ¬ ReckonsStraightRuns := by
  intro h
  obtain ⟨cs, hcs, ht⟩ := rest_ok
  obtain ⟨c, hc, -⟩ : ∃ c ∈ cs, c.t = 1 := by
    have : (1 : ℝ) ∈ cs.map (·.t) := by rw [ht]; simp
    simpa using this
  have h1 := h atRest 10 _ _ _ ⟨1, 0, 0⟩ _ _ _ _ _ cs rest_records rest_true rest_fixes (by simp [uRest]) hcs c hc
  have h2 := (C217_track_partial _ _ _ _ rest_records rest_true rest_fixes (by simp [uRest]) hcs).2 c hc
  have h3 := congrArg V3.x h1
  simp only at h3
  rw [h2.north, rest_mount] at h3
  simp [StraightRun.turned, rotX, rotY, rotZ, sub, atRest, rad] at h3

/-- A moving vehicle, level, heading north at 1 m/s, with the sensors in different places. -/
example : TrueRecords ⟨0, ⟨5, 6, 7⟩, ⟨0, 0, 0⟩, ⟨1, 0, 0⟩⟩ 20 ⟨1, 0, 2⟩ ⟨0, 1, 1⟩ oRest
    [⟨0, ⟨1, 0, 0⟩, ⟨0, 0, 0⟩⟩, ⟨2, ⟨1, 0, 0⟩, ⟨0, 0, 0⟩⟩] [(0, 13), (2, 13)] [⟨0, 6, 0⟩, ⟨2, 6, 0⟩] where
  attitude := by simp [oRest]
  velocity := by simp
  altitude := by
    simp [StraightRun.dvlAt, StraightRun.turned, rotX, rotY, rotZ, add, smul, rad]
    norm_num
  depth := by
    simp [StraightRun.mountAt, StraightRun.dvlAt, StraightRun.turned, rotX, rotY, rotZ, add, sub, smul, rad]
    norm_num

end Oplab.Props
