import Verif.Spec.Sensors
import Mathlib.Tactic.Ring
import Mathlib.Tactic.Linarith
import Mathlib.Tactic.NormNum
import Mathlib.Tactic.FieldSimp
import Mathlib.Tactic.Positivity
import Mathlib.Analysis.SpecialFunctions.Trigonometric.Basic

/-! # C147–C153: sensor objects filled from messages -/

namespace Oplab.Props
open Oplab Oplab.Spec Real

/-! ## C147 -/

section worker
variable {S M R Q : Type}

/-- What the worker needs of an object: `I` holds of the object between messages, and each supported message gives its own record or none. -/
structure RosOwn (o : RosObject S M R) (I : S → Prop) (sup : M → Bool) (view : R → Q) (rec : M → Option Q) : Prop where
  ok : ∀ s m, I s → (o.fromRos s m).2 = sup m
  keep : ∀ s m, I s → sup m = false → I (o.fromRos s m).1
  some_ : ∀ s m, I s → sup m = true → o.valid (o.fromRos s m).1 = true →
    rec m = some (view (o.toJson (o.fromRos s m).1)) ∧ I (o.clear (o.fromRos s m).1)
  none_ : ∀ s m, I s → sup m = true → o.valid (o.fromRos s m).1 = false → rec m = none ∧ I (o.fromRos s m).1

private theorem bag_cons (o : RosObject S M R) (s : S) (m : M) (ms : List M) : bagMessages o false s (m :: ms)
    = if (o.fromRos s m).2 = false then ((o.fromRos s m).1, [])
      else if o.valid (o.fromRos s m).1 then
        ((bagMessages o false (o.clear (o.fromRos s m).1) ms).1,
          o.toJson (o.fromRos s m).1 :: (bagMessages o false (o.clear (o.fromRos s m).1) ms).2)
      else bagMessages o false (o.fromRos s m).1 ms := rfl

private theorem bag_own {o : RosObject S M R} {I : S → Prop} {sup : M → Bool} {view : R → Q} {rec : M → Option Q} (h : RosOwn o I sup view rec)
    (s : S) (hs : I s) (ms : List M) : I (bagMessages o false s ms).1
      ∧ (bagMessages o false s ms).2.map view = (ms.takeWhile sup).filterMap rec := by
  induction ms generalizing s with
  | nil => exact ⟨hs, rfl⟩
  | cons m ms ih =>
    unfold bagMessages
    by_cases hm : sup m = true
    · have h2 : ¬ (o.fromRos s m).2 = false := by rw [h.ok s m hs, hm]; simp
      rw [List.takeWhile_cons_of_pos hm]
      simp only [if_neg h2]
      by_cases hv : o.valid (o.fromRos s m).1 = true
      · obtain ⟨a, b⟩ := h.some_ s m hs hm hv
        obtain ⟨c, d⟩ := ih _ b
        simp only [if_pos hv, List.filterMap_cons, a]
        exact ⟨c, by rw [if_neg (by simp)]; simp only [List.map_cons, d]⟩
      · have hv' : o.valid (o.fromRos s m).1 = false := by simpa using hv
        obtain ⟨a, b⟩ := h.none_ s m hs hm hv'
        obtain ⟨c, d⟩ := ih _ b
        simp only [if_neg hv, List.filterMap_cons, a]
        exact ⟨c, d⟩
    · have hm' : sup m = false := by simpa using hm
      have h2 : (o.fromRos s m).2 = false := by rw [h.ok s m hs, hm']
      rw [List.takeWhile_cons_of_neg hm]
      simp only [if_pos h2]
      exact ⟨h.keep s m hs hm', rfl⟩

/-- The records of the worker for such an object. -/
theorem worker_own {o : RosObject S M R} {I : S → Prop} {sup : M → Bool} {view : R → Q} {rec : M → Option Q}
    (h : RosOwn o I sup view rec) (s : S) (hs : I s) (bags : List (List M)) :
    (rosWorker o false s bags).map view = bags.flatMap fun b => (b.takeWhile sup).filterMap rec := by
  induction bags generalizing s with
  | nil => rfl
  | cons b bs ih =>
    obtain ⟨h1, h2⟩ := bag_own h s hs b
    unfold rosWorker
    simp only [List.map_append, List.flatMap_cons, h2, ih _ h1]

/-- C147, what the worker does in the format "acfr", for every kind of sensor: it returns nothing. -/
theorem C147_acfr_empty (o : RosObject S M R) (s : S) (bags : List (List M)) : rosWorker o true s bags = [] := by
  have hb : ∀ (ms : List M) (s : S), (bagMessages o true s ms).2 = [] := by
    intro ms
    induction ms with
    | nil => intro s; rfl
    | cons m ms ih =>
      intro s
      unfold bagMessages
      by_cases h : (o.fromRos s m).2 = false
      · simp only [if_pos h]
      · by_cases hv : o.valid (o.fromRos s m).1 = true
        · simp only [if_neg h, if_pos hv, if_pos]
        · simp only [if_neg h, if_neg hv, ih]
  induction bags generalizing s with
  | nil => rfl
  | cons b bs ih =>
    unfold rosWorker
    simp only [hb, ih, List.append_nil]

end worker

private theorem rot_yaw (yaw : ℝ) (v : V3 ℝ) : bodyToInertial 0 0 yaw v = rotZ (rad yaw) v := by
  simp [bodyToInertial, rotZ, rad, degToRad, V3.mk.injEq]
  ring

/-- Messages of types that are known. -/
def velKnown : VelMsg → Bool
  | .other => false
  | _ => true

private theorem vel_own (yaw tz : ℝ) : RosOwn (velObject yaw tz) (fun s => s.v = none) velKnown (fun r => (r.t, r.v))
    (fun m => (velMeasured m).map fun p => (p.1 - tz, rotZ (rad yaw) p.2)) where
  ok := by
    intro s m _
    cases m with
    | cola2 cov a v st =>
      simp only [velObject, velFromRos, velKnown]
      split
      · rfl
      · split <;> rfl
    | teledyne biA bi be wiA wi we st =>
      simp only [velObject, velFromRos, velKnown]
      split <;> rfl
    | hnav v q st => rfl
    | other => rfl
  keep := by
    intro s m hs hm
    cases m <;> simp_all [velKnown, velObject, velFromRos]
  some_ := by
    intro s m hs hm hv
    cases m with
    | cola2 cov a v st =>
      simp only [velObject, velFromRos] at hv ⊢
      by_cases h1 : cov.x ≤ 0
      · simp [h1, VelState.valid, hs] at hv
      · by_cases h2 : a < 0
        · simp [h1, h2, VelState.valid, hs] at hv
        · by_cases h3 : √(v.x ^ 2 + v.y ^ 2) < 2.5
          · have h1' := not_le.1 h1
            have h2' := not_lt.1 h2
            simp [h1, h2, h3, h1', h2', VelState.finish, VelState.applyOffset, VelState.valid, VelState.clear, VelState.toJson, velMeasured,
              rot_yaw]
          · simp [h1, h2, h3, VelState.finish, VelState.applyOffset, VelState.valid, hs] at hv
    | teledyne biA bi be wiA wi we st =>
      simp only [velObject, velFromRos] at hv ⊢
      by_cases h1 : biA = false ∧ wiA = false
      · simp [h1, VelState.valid, hs] at hv
      · by_cases h2 : mmValid bi ∨ mmValid wi
        · have hmm : ∀ v : V3 ℝ, mmToM v = smul 0.001 v := by
            intro v
            simp only [mmToM, smul, V3.mk.injEq]
            refine ⟨by ring, by ring, by ring⟩
          have h3 : ¬¬ (mmValid bi ∨ mmValid wi) := fun h => h h2
          rw [if_neg h1] at hv ⊢
          simp only [if_neg h3, velMeasured, VelState.finish, VelState.applyOffset, VelState.valid, VelState.clear, VelState.toJson, rot_yaw,
            hmm, Option.isSome_some, Bool.and_self, if_pos, Option.map_some, Option.getD_some]
          cases biA with
          | true => simp
          | false =>
            cases wiA with
            | true => simp
            | false => exact absurd ⟨rfl, rfl⟩ h1
        · simp [h1, h2, VelState.finish, VelState.applyOffset, VelState.valid] at hv
    | hnav v q st =>
      simp [velObject, velFromRos, VelState.finish, VelState.applyOffset, VelState.valid, VelState.clear, VelState.toJson, velMeasured, rot_yaw]
    | other => simp [velKnown] at hm
  none_ := by
    intro s m hs hm hv
    cases m with
    | cola2 cov a v st =>
      simp only [velObject, velFromRos] at hv ⊢
      by_cases h1 : cov.x ≤ 0
      · simp [h1, velMeasured, hs, not_lt.2 h1]
      · by_cases h2 : a < 0
        · simp [h1, h2, velMeasured, hs, not_le.2 h2]
        · by_cases h3 : √(v.x ^ 2 + v.y ^ 2) < 2.5
          · simp [h1, h2, h3, VelState.finish, VelState.applyOffset, VelState.valid] at hv
          · simp [h1, h2, h3, VelState.finish, VelState.applyOffset, VelState.valid, hs, velMeasured]
    | teledyne biA bi be wiA wi we st =>
      simp only [velObject, velFromRos] at hv ⊢
      by_cases h1 : biA = false ∧ wiA = false
      · simp [h1, hs, velMeasured]
      · by_cases h2 : mmValid bi ∨ mmValid wi
        · simp [h1, h2, VelState.finish, VelState.applyOffset, VelState.valid] at hv
        · simp [h1, h2, VelState.finish, VelState.applyOffset, VelState.valid, velMeasured]
    | hnav v q st =>
      simp [velObject, velFromRos, VelState.finish, VelState.applyOffset, VelState.valid] at hv
    | other => simp [velKnown] at hm

/-- C147, what the worker does for velocities in the format "oplab": every message that is a measurement gives exactly one record, with its
own time and velocity turned by the mounting angle of the sensor, in the order of the bags; messages and unreadable bags before do not
matter. Missing from the full claim: messages after one of an unknown type are lost in that bag. -/
theorem C147_velocities_partial (yaw tz : ℝ) (bags : List (List VelMsg)) :
    (rosWorker (velObject yaw tz) false VelState.init bags).map (fun r => (r.t, r.v))
      = bags.flatMap fun b => (b.takeWhile velKnown).filterMap fun m => (velMeasured m).map fun p => (p.1 - tz, rotZ (rad yaw) p.2) :=
  worker_own (vel_own yaw tz) _ rfl bags

example : ((rosWorker (velObject 0 5) false VelState.init [[.cola2 ⟨1, 1, 1⟩ (-1) ⟨1, 0, 0⟩ 6], [.hnav ⟨1, 2, 3⟩ 1 7]]).map
    fun r => (r.t, r.v)).length = 1 := by
  rw [C147_velocities_partial]
  simp [List.takeWhile, velKnown, velMeasured]

/-- Messages of types that are known. -/
def altKnown : AltMsg → Bool
  | .other => false
  | _ => true

private theorem alt_own (factor tz : ℝ) : RosOwn (altObject factor tz) (fun s => s.altitude = none) altKnown (fun r => (r.1, r.2.1))
    (fun m => (altMeasured m).map fun p => (p.1 - tz, p.2)) where
  ok := by
    intro s m _
    cases m <;> simp only [altObject, altFromRos, altKnown] <;> (try split) <;> rfl
  keep := by
    intro s m hs hm
    cases m <;> simp_all [altKnown, altObject, altFromRos]
  some_ := by
    intro s m hs hm hv
    cases m with
    | cola2 a st =>
      by_cases h : a < 0
      · simp [altObject, altFromRos, h, hs] at hv
      · simp [altObject, altFromRos, h, altFinish, altMeasured, not_lt.1 h]
    | range a st =>
      by_cases h : a < 0
      · simp [altObject, altFromRos, h, hs] at hv
      · simp [altObject, altFromRos, h, altFinish, altMeasured, not_lt.1 h]
    | teledyne b a st =>
      cases b
      · simp [altObject, altFromRos, altFinish, altMeasured]
      · simp [altObject, altFromRos, hs] at hv
    | hnav a st =>
      by_cases h : a = 0
      · simp [altObject, altFromRos, h] at hv
      · simp [altObject, altFromRos, h, altFinish, altMeasured]
    | other => simp [altKnown] at hm
  none_ := by
    intro s m hs hm hv
    cases m with
    | cola2 a st =>
      by_cases h : a < 0
      · simp [altObject, altFromRos, h, hs, altMeasured, not_le.2 h]
      · simp [altObject, altFromRos, h, altFinish] at hv
    | range a st =>
      by_cases h : a < 0
      · simp [altObject, altFromRos, h, hs, altMeasured, not_le.2 h]
      · simp [altObject, altFromRos, h, altFinish] at hv
    | teledyne b a st =>
      cases b
      · simp [altObject, altFromRos, altFinish] at hv
      · simp [altObject, altFromRos, hs, altMeasured]
    | hnav a st =>
      by_cases h : a = 0
      · simp [altObject, altFromRos, h, altMeasured]
      · simp [altObject, altFromRos, h, altFinish] at hv
    | other => simp [altKnown] at hm

/-- C147 for altitudes, as `C147_velocities_partial`. -/
theorem C147_altitudes_partial (factor tz : ℝ) (t : Option ℝ) (bags : List (List AltMsg)) :
    (rosWorker (altObject factor tz) false ⟨none, none, t, none⟩ bags).map (fun r => (r.1, r.2.1))
      = bags.flatMap fun b => (b.takeWhile altKnown).filterMap fun m => (altMeasured m).map fun p => (p.1 - tz, p.2) :=
  worker_own (alt_own factor tz) _ rfl bags

example : ((rosWorker (altObject 1 5) false ⟨none, none, none, none⟩ [[.cola2 3 6, .hnav 0 7, .other, .range 3 8], [.range 4 9]]).map
    fun r => (r.1, r.2.1)) = [(6 - 5, 3), (9 - 5, 4)] := by
  rw [C147_altitudes_partial]
  simp [List.takeWhile, altKnown, altMeasured]

/-- Messages of types that are known. -/
def depthKnown : DepthMsg → Bool
  | .other => false
  | _ => true

/-- C147 for depths, as `C147_velocities_partial`. -/
theorem C147_depths_partial (factor tz : ℝ) (s : DepthState) (bags : List (List DepthMsg)) :
    (rosWorker (depthObject factor tz) false s bags).map (fun r => (r.1, r.2.1))
      = bags.flatMap fun b => (b.takeWhile depthKnown).filterMap fun m => (depthMeasured m).map fun p => (p.1 - tz, p.2) := by
  refine worker_own (I := fun _ => True) ⟨?_, fun _ _ _ _ => trivial, ?_, ?_⟩ s trivial bags
  · intro s m _; cases m <;> rfl
  · intro s m _ hm _
    cases m <;> simp_all [depthKnown, depthObject, depthFromRos, depthFinish, depthMeasured, seaWeight]
  · intro s m _ hm hv
    cases m <;> simp_all [depthKnown, depthObject, depthFromRos, depthFinish]

example : ((rosWorker (depthObject 1 5) false ⟨none, none, none, none⟩ [[.pose 3 1 6, .other], [.hnav 4 1 9]]).map
    fun r => (r.1, r.2.1)) = [(6 - 5, 3), (9 - 5, 4)] := by
  rw [C147_depths_partial]
  simp [List.takeWhile, depthKnown, depthMeasured]

/-- Messages of types that are known. -/
def orientKnown : OrientMsg → Bool
  | .other => false
  | _ => true

/-- C147 for orientations: one record for each message, at its time. -/
theorem C147_orientations_partial (yaw tz : ℝ) (s : OrientState) (bags : List (List OrientMsg)) :
    (rosWorker (orientObject yaw tz) false s bags).map (fun r => r.1)
      = bags.flatMap fun b => (b.takeWhile orientKnown).filterMap fun m => (orientTime m).map fun t => t - tz := by
  refine worker_own (I := fun _ => True) ⟨?_, fun _ _ _ _ => trivial, ?_, ?_⟩ s trivial bags
  · intro s m _; cases m <;> rfl
  · intro s m _ hm _
    cases m <;> simp_all [orientKnown, orientObject, orientFromRos, orientTime]
  · intro s m _ hm hv
    cases m <;> simp_all [orientKnown, orientObject, orientFromRos]

example : (rosWorker (orientObject 1 5) false ⟨none, none, none⟩ [[.hnav ⟨1, 2, 3⟩ 1 6, .other], [.hnav ⟨1, 2, 3⟩ 1 9]]).map (fun r => r.1)
    = [6 - 5, 9 - 5] := by
  rw [C147_orientations_partial]
  simp [List.takeWhile, orientKnown, orientTime]

/-- The full claim: whatever the format, each measurement of a bag gives a record. -/
def RosComplete : Prop := ∀ (yaw tz : ℝ) (acfr : Bool) (bags : List (List VelMsg)),
  (rosWorker (velObject yaw tz) acfr VelState.init bags).length = (bags.flatten.filterMap velMeasured).length

/-- C147: the claim is false; in the format "acfr" there are no records. -/
theorem C147_complete_false : ¬ RosComplete := by
  intro h
  have := h 0 0 true [[.hnav ⟨1, 2, 3⟩ 1 7]]
  rw [C147_acfr_empty] at this
  simp [velMeasured] at this

/-! ## C148 -/

/-- The full claim: velocities the Teledyne DVL marks as missing (-32768) are not recorded. -/
def MissingNotRecorded : Prop := ∀ (yaw tz : ℝ) (bags : List (List VelMsg)) (r : VelRecord),
  r ∈ rosWorker (velObject yaw tz) false VelState.init bags → |r.v.z| < 32.768

/-- C148: the claim is false: a missing bottom track velocity is recorded when the water track is complete. -/
theorem C148_missing_false : ¬ MissingNotRecorded := by
  intro h
  have hv : (rosWorker (velObject 0 0) false VelState.init
      [[.teledyne true ⟨-32768, -32768, -32768⟩ 0 true ⟨0, 0, 0⟩ 0 7]]).map (fun r => (r.t, r.v)) = [(7, ⟨-32.768, -32.768, -32.768⟩)] := by
    rw [C147_velocities_partial]
    have : mmValid ⟨0, 0, 0⟩ := by simp [mmValid]
    simp [List.takeWhile, velKnown, velMeasured, this, rotZ, rad, smul]
    norm_num
  obtain ⟨r, l, hl, e, -⟩ := List.map_eq_cons_iff.1 hv
  have h1 := h 0 0 _ r (by rw [hl]; exact List.mem_cons_self)
  have h2 : r.v = ⟨-32.768, -32.768, -32.768⟩ := congrArg Prod.snd e
  rw [h2] at h1
  norm_num [abs_of_neg] at h1

/-- C148, proved part: with bottom track status "A" and all bottom track speeds present, the record is the bottom track velocity; without
it, and with water track status "A" and all its speeds present, the water track velocity; with neither status there is no record. -/
theorem C148_teledyne_partial (bi wi : V3 ℝ) (be we stamp : ℝ) :
    (mmValid bi → ∀ wiA, velMeasured (.teledyne true bi be wiA wi we stamp) = some (stamp, smul 0.001 bi))
    ∧ (mmValid wi → velMeasured (.teledyne false bi be true wi we stamp) = some (stamp, smul 0.001 wi))
    ∧ (¬ mmValid bi → ¬ mmValid wi → ∀ biA wiA, velMeasured (.teledyne biA bi be wiA wi we stamp) = none)
    ∧ velMeasured (.teledyne false bi be false wi we stamp) = none := by
  refine ⟨fun h wiA => ?_, fun h => ?_, fun h1 h2 biA wiA => ?_, ?_⟩
  · simp [velMeasured, h]
  · simp [velMeasured, h]
  · simp [velMeasured, h1, h2]
  · simp [velMeasured]

example : mmValid ⟨-32767, 5, 0⟩ := by norm_num [mmValid]

/-- C148 for the cola2 DVL: all recorded horizontal speeds are below 2.5 m/s, whatever the mounting angle. -/
theorem C148_cola2_speed (yaw tz : ℝ) (bags : List (List VelMsg)) (hb : ∀ b ∈ bags, ∀ m ∈ b, ∃ c a v t, m = VelMsg.cola2 c a v t) (r : VelRecord)
    (hr : r ∈ rosWorker (velObject yaw tz) false VelState.init bags) : √(r.v.x ^ 2 + r.v.y ^ 2) < 2.5 := by
  have h1 : (r.t, r.v) ∈ (rosWorker (velObject yaw tz) false VelState.init bags).map (fun r => (r.t, r.v)) := List.mem_map_of_mem hr
  rw [C147_velocities_partial] at h1
  simp only [List.mem_flatMap, List.mem_filterMap, Option.map_eq_some_iff, Prod.mk.injEq] at h1
  obtain ⟨b, hbm, m, hm, p, hp, -, hv⟩ := h1
  obtain ⟨c, a, v, t, rfl⟩ := hb b hbm m ((List.takeWhile_sublist _).subset hm)
  simp only [velMeasured] at hp
  by_cases hc : 0 < c.x ∧ 0 ≤ a ∧ √(v.x ^ 2 + v.y ^ 2) < 2.5
  · rw [if_pos hc] at hp
    cases hp
    rw [← hv]
    have : (rotZ (rad yaw) v).x ^ 2 + (rotZ (rad yaw) v).y ^ 2 = v.x ^ 2 + v.y ^ 2 := by
      simp only [rotZ]
      have := Real.sin_sq_add_cos_sq (rad yaw)
      linear_combination (v.x ^ 2 + v.y ^ 2) * this
    rw [this]
    exact hc.2.2
  · rw [if_neg hc] at hp
    cases hp

example : velMeasured (.cola2 ⟨1, 1, 1⟩ 2 ⟨1, 0, 0⟩ 7) = some (7, ⟨1, 0, 0⟩) := by
  have : (1 : ℝ) < 2.5 := by norm_num
  simp [velMeasured, this]

/-! ## C149 -/

/-- The full claim for orientations: a sensor turned by an angle on the vehicle gives headings turned by that angle. -/
def HeadingTurned : Prop := ∀ (yaw : ℝ) (a : V3 ℝ), 0 ≤ a.z → a.z ≤ 360 → ∃ k : ℤ, (orientOffset yaw a).z = a.z + yaw + 360 * k

/-- C149: the claim is false: headings never depend on the angle. -/
theorem C149_heading_false : ¬ HeadingTurned := by
  intro h
  obtain ⟨k, hk⟩ := h 90 ⟨0, 0, 10⟩ (by norm_num) (by norm_num)
  simp only [orientOffset, rot_yaw, rotZ, wrapHeading] at hk
  norm_num at hk
  have h1 : (360 * k : ℤ) = -90 := by
    have : ((360 * k : ℤ) : ℝ) = ((-90 : ℤ) : ℝ) := by push_cast; linarith
    exact_mod_cast this
  omega

/-- C149, proved part: the heading is the measured one up to full turns and from 0 to 360, for every mounting angle, and with an angle of
zero nothing else changes. Missing: the mounting angle. -/
theorem C149_heading_partial (yaw : ℝ) (a : V3 ℝ) (h0 : -360 ≤ a.z) (h1 : a.z ≤ 720) :
    (∃ k : ℤ, (orientOffset yaw a).z = a.z + 360 * k) ∧ 0 ≤ (orientOffset yaw a).z ∧ (orientOffset yaw a).z ≤ 360
    ∧ (0 ≤ a.z → a.z ≤ 360 → orientOffset 0 a = a) := by
  have hz : (orientOffset yaw a).z = wrapHeading a.z := by simp [orientOffset, rot_yaw, rotZ]
  rw [hz]
  refine ⟨?_, ?_, ?_, ?_⟩
  · unfold wrapHeading
    by_cases h2 : a.z > 360
    · refine ⟨-1, ?_⟩
      have h3 : ¬ a.z - 360 < 0 := by linarith
      simp only [if_pos h2, if_neg h3]
      push_cast; ring
    · by_cases h3 : a.z < 0
      · refine ⟨1, ?_⟩
        simp only [if_neg h2, if_pos h3]
        push_cast; ring
      · refine ⟨0, ?_⟩
        simp only [if_neg h2, if_neg h3]
        push_cast; ring
  · unfold wrapHeading
    simp only
    split_ifs <;> linarith
  · unfold wrapHeading
    simp only
    split_ifs <;> linarith
  · intro h2 h3
    have e : wrapHeading a.z = a.z := by
      unfold wrapHeading
      simp only
      split_ifs <;> linarith
    simp [orientOffset, rot_yaw, rotZ, rad, e]

example : (orientOffset 90 ⟨0, 0, -10⟩).z = 350 := by simp [orientOffset, rot_yaw, rotZ, wrapHeading]; norm_num

/-- The full claim for uncertainties: standard deviations of recorded velocities are not negative. -/
def VelStdNonneg : Prop := ∀ (yaw tz : ℝ) (bags : List (List VelMsg)), (∀ b ∈ bags, ∀ m ∈ b, ∃ c a v t, m = VelMsg.cola2 c a v t) →
  ∀ r ∈ rosWorker (velObject yaw tz) false VelState.init bags, 0 ≤ r.std.x ∧ 0 ≤ r.std.y ∧ 0 ≤ r.std.z

/-- C149: the claim is false: with the DVL turned by a quarter the standard deviation of the forward speed is negative. -/
theorem C149_std_false : ¬ VelStdNonneg := by
  intro h
  have h1 : (0 : ℝ) < 2.5 := by norm_num
  have e : rad 90 = π / 2 := by unfold rad; ring
  have h3 : velFromRos 90 0 VelState.init (.cola2 ⟨1, 1, 1⟩ 1 ⟨0, 0, 0⟩ 7)
      = (⟨some ⟨0, 0, 0⟩, some ⟨-1, 1, 1⟩, some 7, some 7⟩, true) := by
    have h4 : ¬ ((1 : ℝ) ≤ 0) := by norm_num
    have h5 : ¬ ((1 : ℝ) < 0) := by norm_num
    simp [velFromRos, h4, h5, VelState.finish, VelState.applyOffset, VelState.valid, VelState.init, h1, rot_yaw, rotZ, e]
  have h2 := h 90 0 [[.cola2 ⟨1, 1, 1⟩ 1 ⟨0, 0, 0⟩ 7]] (by simp) ⟨7, ⟨0, 0, 0⟩, ⟨-1, 1, 1⟩⟩ (by
    simp [rosWorker, bagMessages, velObject, h3, VelState.valid, VelState.toJson])
  norm_num at h2

/-- C149, proved part: with a mounting angle of zero the standard deviations are not negative, provided the INS reports none that is. -/
theorem C149_std_partial (tz : ℝ) (bags : List (List VelMsg)) (hq : ∀ b ∈ bags, ∀ v q t, VelMsg.hnav v q t ∈ b → 0 ≤ q) :
    ∀ r ∈ rosWorker (velObject 0 tz) false VelState.init bags, 0 ≤ r.std.x ∧ 0 ≤ r.std.y ∧ 0 ≤ r.std.z := by
  have rot0 : ∀ v : V3 ℝ, bodyToInertial 0 0 0 v = v := by
    intro v; rw [rot_yaw]; simp [rotZ, rad]
  let P : Option (V3 ℝ) → Prop := fun o => ∀ v, o = some v → 0 ≤ v.x ∧ 0 ≤ v.y ∧ 0 ≤ v.z
  have Pf : ∀ (s : VelState) (st : ℝ), P s.std → P (s.finish 0 tz st).std := by
    intro s st hs
    unfold VelState.finish VelState.applyOffset
    split
    · intro v hv
      cases hstd : s.std with
      | none => simp [hstd] at hv
      | some w =>
        simp only [hstd, Option.map_some, rot0, Option.some.injEq] at hv
        exact hs v (by rw [hstd, hv])
    · exact hs
  have step : ∀ (s : VelState) (m : VelMsg), (∀ v q t, m = .hnav v q t → 0 ≤ q) → P s.std → P (velFromRos 0 tz s m).1.std := by
    intro s m hm hs
    cases m with
    | cola2 c a v t =>
      simp only [velFromRos]
      split
      · exact hs
      · split
        · exact hs
        · apply Pf
          split
          · intro w hw; cases hw; exact ⟨sqrt_nonneg _, sqrt_nonneg _, sqrt_nonneg _⟩
          · exact hs
    | teledyne biA bi be wiA wi we t =>
      simp only [velFromRos]
      split
      · exact hs
      · apply Pf
        have hne : 0 ≤ (if biA then |be * 0.001| else |we * 0.001| : ℝ) := by
          split <;> exact abs_nonneg _
        split <;> (intro w hw; cases hw; exact ⟨hne, hne, hne⟩)
    | hnav v q t =>
      simp only [velFromRos]
      apply Pf
      intro w hw; cases hw
      have := hm v q t rfl
      exact ⟨this, this, this⟩
    | other => exact hs
  have json : ∀ s : VelState, P s.std → 0 ≤ s.toJson.std.x ∧ 0 ≤ s.toJson.std.y ∧ 0 ≤ s.toJson.std.z := by
    intro s hs
    unfold VelState.toJson
    cases h : s.std with
    | none => simp
    | some w => exact hs w h
  have bag : ∀ (ms : List VelMsg) (s : VelState), (∀ v q t, VelMsg.hnav v q t ∈ ms → 0 ≤ q) → P s.std →
      P (bagMessages (velObject 0 tz) false s ms).1.std ∧ ∀ r ∈ (bagMessages (velObject 0 tz) false s ms).2, 0 ≤ r.std.x ∧ 0 ≤ r.std.y ∧ 0 ≤ r.std.z := by
    intro ms
    induction ms with
    | nil => intro s _ hs; exact ⟨hs, by simp [bagMessages]⟩
    | cons m ms ih =>
      intro s hm hs
      have h1 := step s m (fun v q t e => hm v q t (by rw [e]; exact List.mem_cons_self)) hs
      have hm' : ∀ v q t, VelMsg.hnav v q t ∈ ms → 0 ≤ q := fun v q t e => hm v q t (List.mem_cons_of_mem _ e)
      rw [bag_cons]
      split
      · exact ⟨h1, by simp⟩
      · split
        · obtain ⟨c, d⟩ := ih (velFromRos 0 tz s m).1.clear hm' (by intro v hv; simp [VelState.clear] at hv)
          refine ⟨c, ?_⟩
          intro r hr
          rcases List.mem_cons.1 hr with rfl | hr
          · exact json _ h1
          · exact d r hr
        · exact ih _ hm' h1
  have main : ∀ (bs : List (List VelMsg)) (s : VelState), (∀ b ∈ bs, ∀ v q t, VelMsg.hnav v q t ∈ b → 0 ≤ q) → P s.std →
      ∀ r ∈ rosWorker (velObject 0 tz) false s bs, 0 ≤ r.std.x ∧ 0 ≤ r.std.y ∧ 0 ≤ r.std.z := by
    intro bs
    induction bs with
    | nil => intro s _ _ r hr; simp [rosWorker] at hr
    | cons b bs ih =>
      intro s hb hs r hr
      obtain ⟨c, d⟩ := bag b s (hb b List.mem_cons_self) hs
      unfold rosWorker at hr
      rcases List.mem_append.1 hr with hr | hr
      · exact d r hr
      · exact ih _ (fun b' h' => hb b' (List.mem_cons_of_mem _ h')) c r hr
  exact main bags _ hq (by intro v hv; simp [VelState.init] at hv)

example : (rosWorker (velObject 0 5) false VelState.init [[.hnav ⟨1, 2, 3⟩ 1 7]]).length = 1 := by
  simp [rosWorker, bagMessages, velObject, velFromRos, VelState.finish, VelState.applyOffset, VelState.valid]

/-! ## C150 -/

/-- C150 for positions given in degrees (ALR, EIVA, ROV and GGA): the position in metres has the distance and bearing of the position
in degrees, the uncertainties in degrees and metres agree, and are not negative for depths below the surface. -/
theorem C150_fill (factor offset lat lon depth dist bearing : ℝ) (hlat : cos (lat * π / 180) ≠ 0) :
    (usblFill factor offset lat lon depth dist bearing).northings = dist * cos (rad bearing)
    ∧ (usblFill factor offset lat lon depth dist bearing).eastings = dist * sin (rad bearing)
    ∧ StdAgree (usblFill factor offset lat lon depth dist bearing)
    ∧ (0 ≤ factor → 0 ≤ offset → 0 ≤ depth → 0 ≤ (usblFill factor offset lat lon depth dist bearing).northingsStd) := by
  have e : bearing * π / 180 = rad bearing := by unfold rad; ring
  refine ⟨?_, ?_, ⟨?_, ?_⟩, ?_⟩
  · simp only [usblFill, e]; ring
  · simp only [usblFill, e]; ring
  · simp only [usblFill]; field_simp
  · simp only [usblFill]; field_simp
  · intro h1 h2 h3
    simp only [usblFill]; positivity

example : cos ((60 : ℝ) * π / 180) ≠ 0 := by
  have : (60 : ℝ) * π / 180 = π / 3 := by ring
  rw [this, cos_pi_div_three]; norm_num

/-- The full claim: for every source, the uncertainties in degrees agree with those in metres. -/
def UsblStdAgree : Prop :=
  (∀ factor offset lat lon altitude dist bearing : ℝ, cos (lat * π / 180) ≠ 0 → StdAgree (usblNmea factor offset lat lon altitude dist bearing))
  ∧ (∀ (factor offset lat lon : ℝ) (p var : V3 ℝ), StdAgree (usblPose flatEarth factor offset lat lon p var))
  ∧ (∀ (factor offset lat lon dist bearing : ℝ) (cov : V3 ℝ), StdAgree (usblNavSat factor offset lat lon dist bearing cov))
  ∧ (∀ factor offset lat lon distance : ℝ, 0 ≤ factor → 0 ≤ offset → 0 ≤ distance →
      (dumpStd flatEarth factor offset lat lon distance).1 * 111.111e3 = factor * distance + offset)

/-- C150: false for NMEA positions: the depth is used instead of the uncertainty. -/
theorem C150_nmea_false : ¬ ∀ factor offset lat lon altitude dist bearing : ℝ, cos (lat * π / 180) ≠ 0 →
    StdAgree (usblNmea factor offset lat lon altitude dist bearing) := by
  intro h
  have := (h 0 1 0 0 0 0 0 (by simp)).1
  simp [usblNmea] at this

/-- C150: false for ROS poses: the uncertainty is a position. -/
theorem C150_pose_false : ¬ ∀ (factor offset lat lon : ℝ) (p var : V3 ℝ), StdAgree (usblPose flatEarth factor offset lat lon p var) := by
  intro h
  have := (h 0 0 50 0 ⟨0, 0, 0⟩ ⟨1, 1, 1⟩).1
  simp [usblPose, flatEarth] at this
  norm_num at this

/-- C150: false for satellite positions: variances are taken for standard deviations, and those in degrees are not those of the message. -/
theorem C150_navsat_false : ¬ ∀ (factor offset lat lon dist bearing : ℝ) (cov : V3 ℝ),
    StdAgree (usblNavSat factor offset lat lon dist bearing cov) := by
  intro h
  have := (h 0 0 0 0 0 0 ⟨4, 4, 4⟩).1
  simp [usblNavSat, usblFill] at this

/-- C150: false for USBL dumps: the uncertainties are negative. -/
theorem C150_dump_false (factor offset lat lon distance : ℝ) (h : 0 < factor * distance + offset) (hlat : 0 < cos (lat * π / 180)) :
    (dumpStd flatEarth factor offset lat lon distance).1 * 111.111e3 = -(factor * distance + offset)
    ∧ (dumpStd flatEarth factor offset lat lon distance).1 < 0 ∧ (dumpStd flatEarth factor offset lat lon distance).2 < 0 := by
  refine ⟨?_, ?_, ?_⟩
  · simp only [dumpStd, flatEarth]
    field_simp
    ring
  · simp only [dumpStd, flatEarth]
    have : 0 < (factor * distance + offset) / 111.111e3 := by positivity
    linarith
  · simp only [dumpStd, flatEarth]
    have : 0 < (factor * distance + offset) / (111.111e3 * cos (lat * π / 180)) := by positivity
    linarith

example : (0 : ℝ) < 0.01 * 100 + 2 := by norm_num

/-- C150: so the full claim is false. -/
theorem C150_agree_false : ¬ UsblStdAgree := fun h => C150_nmea_false h.1

/-! ## C151 -/

/-- The full claim for INS messages: the same convention is used for velocities and their uncertainties, which stay non-negative. -/
def PhinsStdNonneg : Prop := ∀ f : V3 ℝ, 0 ≤ f.x → 0 ≤ f.y → 0 ≤ f.z →
  0 ≤ (phinsVelocityStd f).x ∧ 0 ≤ (phinsVelocityStd f).y ∧ 0 ≤ (phinsVelocityStd f).z

/-- C151: the claim is false for the vertical speed. -/
theorem C151_std_false : ¬ PhinsStdNonneg := by
  intro h
  have := (h ⟨1, 1, 1⟩ (by simp) (by simp) (by simp)).2.2
  norm_num [phinsVelocityStd] at this

/-- C151, proved part: north and east uncertainties are those of the INS, and the vertical one has the right size. -/
theorem C151_std_partial (f : V3 ℝ) : (phinsVelocityStd f).x = f.y ∧ (phinsVelocityStd f).y = f.x ∧ |(phinsVelocityStd f).z| = |f.z| := by
  refine ⟨rfl, rfl, ?_⟩
  simp [phinsVelocityStd]

/-- C151: velocities relative to the sea bed keep their size whatever the mounting angle, and without one are the DVL's in
forward, right, down axes. -/
theorem C151_body (yaw : ℝ) (f : V3 ℝ) : dot (phinsBody yaw f) (phinsBody yaw f) = dot f f ∧ phinsBody 0 f = ⟨f.x, -f.y, -f.z⟩ := by
  constructor
  · simp only [phinsBody, rot_yaw, rotZ, dot]
    have := Real.sin_sq_add_cos_sq (rad yaw)
    linear_combination (f.x ^ 2 + f.y ^ 2) * this
  · simp [phinsBody, rot_yaw, rotZ, rad]

/-- C151: the uncertainty of a speed depends on its size only, and is not negative. -/
theorem C151_get_std (factor offset v : ℝ) (hf : 0 ≤ factor) (ho : 0 ≤ offset) : 0 ≤ velStd factor offset v
    ∧ velStd factor offset (-v) = velStd factor offset v ∧ offset ≤ velStd factor offset v := by
  refine ⟨by unfold velStd; positivity, by simp [velStd], ?_⟩
  unfold velStd
  have : 0 ≤ |v| * factor := by positivity
  linarith

example : velStd 0.5 1 (-2) = 2 := by norm_num [velStd]

/-- C151: a velocity of the NTNU DVL is kept exactly when every component, turned by the mounting angle, is at most 32 m/s. -/
theorem C151_ntnu_iff (yaw : ℝ) (f v : V3 ℝ) : ntnuVelocity yaw f = some v ↔ v = rotZ (rad yaw) f ∧ |v.x| ≤ 32 ∧ |v.y| ≤ 32 ∧ |v.z| ≤ 32 := by
  unfold ntnuVelocity
  rw [rot_yaw]
  by_cases h : ((rotZ (rad yaw) f).x > 32 ∨ (rotZ (rad yaw) f).x < -32) ∨ ((rotZ (rad yaw) f).y > 32 ∨ (rotZ (rad yaw) f).y < -32)
      ∨ ((rotZ (rad yaw) f).z > 32 ∨ (rotZ (rad yaw) f).z < -32)
  · simp only [if_pos h, reduceCtorEq, false_iff]
    rintro ⟨rfl, h1, h2, h3⟩
    rw [abs_le] at h1 h2 h3
    rcases h with (h | h) | (h | h) | (h | h) <;> linarith
  · simp only [if_neg h, Option.some.injEq]
    push Not at h
    constructor
    · rintro rfl
      exact ⟨rfl, abs_le.2 ⟨h.1.2, h.1.1⟩, abs_le.2 ⟨h.2.1.2, h.2.1.1⟩, abs_le.2 ⟨h.2.2.2, h.2.2.1⟩⟩
    · rintro ⟨rfl, -⟩; rfl

example : ntnuVelocity 0 ⟨1, 2, 3⟩ = some ⟨1, 2, 3⟩ := by
  rw [C151_ntnu_iff]
  norm_num [rotZ, rad, abs_of_pos]

/-- The full claim for pressure: the uncertainty of a depth is that of the pressure, divided by the weight of sea water. -/
def PressureStd : Prop := ∀ factor tz p sigma stamp : ℝ, 0 < sigma → ∀ s, (depthFromRos factor tz s (.pressure p (sigma ^ 2) stamp)).1.std
  = some (sigma / (1030 * 9.80665))

/-- C151: the claim is false: the root is taken after the division. -/
theorem C151_pressure_false : ¬ PressureStd := by
  intro h
  have hw : (0 : ℝ) < seaWeight := by unfold seaWeight; norm_num
  have hw1 : (1 : ℝ) < seaWeight := by unfold seaWeight; norm_num
  have := h 0 0 0 1 0 one_pos ⟨none, none, none, none⟩
  simp only [depthFromRos, depthFinish, Option.some.injEq, one_pow] at this
  have h0 : √(1 / seaWeight) ≠ 0 := by
    rw [Real.sqrt_ne_zero'] ; positivity
  rw [if_neg h0, show (1030 * 9.80665 : ℝ) = seaWeight from rfl] at this
  have h2 : √(1 / seaWeight) ^ 2 = (1 / seaWeight) ^ 2 := by rw [this]
  rw [Real.sq_sqrt (by positivity)] at h2
  field_simp at h2
  linarith

/-- C151, proved part: the uncertainty that is recorded for a pressure. Missing: it should be divided by the root of the weight once more. -/
theorem C151_pressure_partial (factor tz p sigma stamp : ℝ) (h : 0 < sigma) (s : DepthState) :
    (depthFromRos factor tz s (.pressure p (sigma ^ 2) stamp)).1.std = some (sigma / √(1030 * 9.80665)) := by
  have hw : (0 : ℝ) < seaWeight := by unfold seaWeight; norm_num
  have h0 : √(sigma ^ 2 / seaWeight) ≠ 0 := by
    rw [Real.sqrt_ne_zero']; positivity
  simp only [depthFromRos, depthFinish, if_neg h0]
  rw [Real.sqrt_div (by positivity), Real.sqrt_sq h.le]
  rfl

example : (0 : ℝ) < 2 := two_pos

/-! ## C152 -/

/-- The full claim: times of logs do not depend on the computer that reads them, and follow the time zone and offset of the mission. -/
def LogTimeRead : Prop := ∀ (machine tz offset : ℚ) (c : DateTime), c.ok = true → naiveEpoch machine c = logTime tz offset c

/-- C152, exactly when the time of an NTNU, EIVA or koyo21 log is right: the zone of the computer must be the one that would give the
correction of the mission. -/
theorem C152_time_iff_partial (machine tz offset : ℚ) (c : DateTime) :
    naiveEpoch machine c = logTime tz offset c ↔ machine * 3600 = tz * 3600 - offset := by
  unfold naiveEpoch logTime
  constructor <;> intro h <;> linarith

/-- C152: the claim is false. -/
theorem C152_time_false : ¬ LogTimeRead := by
  intro h
  have := (C152_time_iff_partial 9 0 0 ⟨2021, 11, 17, 19, 30, 22, 0⟩).1 (h 9 0 0 _ (by decide +kernel))
  norm_num at this

/-- C152: the difference between the times of two entries does not depend on the computer. -/
theorem C152_difference (machine machine' : ℚ) (c d : DateTime) :
    naiveEpoch machine c - naiveEpoch machine d = naiveEpoch machine' c - naiveEpoch machine' d := by
  unfold naiveEpoch; ring

/-! ## C153 -/

/-- The full claim: depths of a transponder are found whatever its label. -/
def DepthLineFound : Prop := ∀ label rest : List Char, label ≠ [] → eivaDepthLine label ("D     ".toList ++ label ++ "  19  1".toList ++ rest) = true

/-- C153, exactly when lines of a transponder are found: its label has one character. -/
theorem C153_found_iff_partial (label rest : List Char) (h : label ≠ []) :
    eivaDepthLine label ("D     ".toList ++ label ++ "  19  1".toList ++ rest) = true ↔ label.length = 1 := by
  have hl : 0 < label.length := List.length_pos_iff.2 h
  simp only [eivaDepthLine, decide_eq_true_eq]
  constructor
  · intro e
    have := congrArg List.length e
    simp at this
    omega
  · intro e
    have : ("D     ".toList ++ label ++ "  19  1".toList).length = 14 := by simp [e]
    rw [List.take_append_of_le_length (by omega), List.take_of_length_le (by omega)]

/-- C153: the claim is false for label 10. -/
theorem C153_found_false : ¬ DepthLineFound := by
  intro h
  have := (C153_found_iff_partial ['1', '0'] [] (by simp)).1 (h ['1', '0'] [] (by simp))
  simp at this

/-- C153: lines of other transponders with labels of the same length are not taken. -/
theorem C153_others (label other rest : List Char) (h : label.length = other.length) (hne : label ≠ other) :
    eivaDepthLine label ("D     ".toList ++ other ++ "  19  1".toList ++ rest) = false := by
  simp only [eivaDepthLine, decide_eq_false_iff_not]
  intro e
  have hlen := congrArg List.length e
  simp at hlen
  have hn : 0 < label.length := by
    rcases Nat.eq_zero_or_pos label.length with h0 | h0
    · exfalso
      rw [h0] at h
      exact hne (by rw [List.length_eq_zero_iff.1 h0, List.length_eq_zero_iff.1 h.symm])
    · exact h0
  have h14 : ("D     ".toList ++ other ++ "  19  1".toList).length = 14 := by simp; omega
  have e2 : ("D     ".toList ++ other ++ "  19  1".toList) = "D     ".toList ++ label ++ "  19  1".toList := by
    rw [List.take_append_of_le_length (by omega), List.take_of_length_le (by omega)] at e
    exact e
  rw [List.append_left_inj, List.append_right_inj] at e2
  exact hne e2.symm

example : eivaDepthLine ['3'] ("D     ".toList ++ ['4'] ++ "  19  1".toList ++ []) = false := C153_others _ _ _ rfl (by simp)

/-! ## C154 -/

private theorem firstMin_spec : ∀ (l : List ℚ) (d : ℚ) (k : ℕ), firstMin l = some (d, k) → l[k]? = some d ∧ ∀ x ∈ l, d ≤ x
  | [], _, _, h => by simp [firstMin] at h
  | x :: xs, d, k, h => by
    unfold firstMin at h
    cases hr : firstMin xs with
    | none =>
      rw [hr] at h
      cases h
      refine ⟨rfl, ?_⟩
      cases xs with
      | nil => simp
      | cons y ys =>
        exfalso
        unfold firstMin at hr
        cases h2 : firstMin ys with
        | none => simp [h2] at hr
        | some p =>
          simp only [h2] at hr
          split at hr <;> cases hr
    | some p =>
      obtain ⟨y, j⟩ := p
      obtain ⟨h1, h2⟩ := firstMin_spec xs y j hr
      simp only [hr] at h
      by_cases hxy : x ≤ y
      · rw [if_pos hxy] at h
        cases h
        refine ⟨rfl, ?_⟩
        intro z hz
        rcases List.mem_cons.1 hz with rfl | hz
        · exact le_rfl
        · exact le_trans hxy (h2 z hz)
      · rw [if_neg hxy] at h
        cases h
        refine ⟨by simpa using h1, ?_⟩
        intro z hz
        rcases List.mem_cons.1 hz with rfl | hz
        · exact (not_le.1 hxy).le
        · exact h2 z hz

/-- The full claim: the two images of a pair extracted from a bag are different. -/
def PairsDiffer : Prop := ∀ (time : List Char → ℚ) (names : List (List Char)), names.Nodup → ∀ p ∈ extractedPairs time names, p.1 ≠ p.2

/-- C154: what is returned: with different times, every image is paired with itself. -/
theorem C154_pairs_partial (time : List Char → ℚ) (names : List (List Char)) (ht : ∀ a ∈ names, ∀ b ∈ names, time a = time b → a = b) :
    extractedPairs time names = (names.filter fun n => ¬ (".txt".toList <:+: n) ∧ ¬ ("._".toList <:+: n)).map fun f => (f, f) := by
  unfold extractedPairs
  simp only
  generalize hf : (names.filter fun n => decide (¬ (".txt".toList <:+: n) ∧ ¬ ("._".toList <:+: n))) = files
  have hsub : ∀ a ∈ files, a ∈ names := by
    intro a ha; rw [← hf] at ha; exact (List.mem_filter.1 ha).1
  have key : ∀ f ∈ files, extractedPair time files f = some (f, f) := by
    intro f hm
    unfold extractedPair
    cases hk : firstMin (files.map fun g => |time f - time g|) with
    | none =>
      exfalso
      cases files with
      | nil => simp at hm
      | cons y ys =>
        simp only [List.map_cons] at hk
        unfold firstMin at hk
        cases h2 : firstMin (ys.map fun g => |time f - time g|) with
        | none => simp [h2] at hk
        | some p =>
          simp only [h2] at hk
          split at hk <;> cases hk
    | some p =>
      obtain ⟨d, k⟩ := p
      obtain ⟨h1, h2⟩ := firstMin_spec _ _ _ hk
      have h3 : d ≤ 0 := h2 0 (List.mem_map.2 ⟨f, hm, by simp⟩)
      rw [List.getElem?_map, Option.map_eq_some_iff] at h1
      obtain ⟨g, hg, he⟩ := h1
      have hd : |time f - time g| = 0 := le_antisymm (by rw [he]; exact h3) (abs_nonneg _)
      have hfg : time f = time g := by
        have := abs_eq_zero.1 hd; linarith
      have hgm : g ∈ files := List.mem_of_getElem? hg
      have := ht f (hsub f hm) g (hsub g hgm) hfg
      subst this
      have h4 : ¬ d > 5 / 100 := by
        intro h; linarith [h, h3, (show (0 : ℚ) < 5 / 100 by norm_num)]
      simp only [if_neg h4, List.getD_eq_getElem?_getD, hg, Option.getD_some]
  rw [List.filterMap_congr key]
  rw [List.filterMap_eq_map']

example : extractedPairs (fun l => l.length) [['a'], ['b', 'c']] = [(['a'], ['a']), (['b', 'c'], ['b', 'c'])] := by
  rw [C154_pairs_partial _ _ (by simp)]
  decide +kernel

/-- C154: the claim is false. -/
theorem C154_pairs_false : ¬ PairsDiffer := by
  intro h
  have e : extractedPairs (fun l => l.length) [['a']] = [(['a'], ['a'])] := by
    rw [C154_pairs_partial _ _ (by simp)]
    decide +kernel
  exact h (fun l => l.length) [['a']] (by simp) (['a'], ['a']) (by rw [e]; simp) rfl

end Oplab.Props
