import Verif.Spec.UsblRos
import Verif.Props.SensorFrom
import Mathlib.Tactic.NormNum

/-! # C234: positions of ROS messages -/

namespace Oplab.Props
open Oplab Oplab.Spec Real Json

/-- Messages of types that are known. -/
def usblKnown : UsblMsg → Bool
  | .other => false
  | _ => true

section
variable {S M R Q : Type}

private theorem bag_on {o : RosObject S M R} {I : S → Prop} {P : M → Prop} {view : R → Q} {rec : M → Option Q}
    (h : ∀ s m, I s → P m → (o.fromRos s m).2 = true ∧
      ((o.valid (o.fromRos s m).1 = true ∧ rec m = some (view (o.toJson (o.fromRos s m).1)) ∧ I (o.clear (o.fromRos s m).1))
        ∨ (o.valid (o.fromRos s m).1 = false ∧ rec m = none ∧ I (o.fromRos s m).1)))
    (s : S) (hs : I s) (ms : List M) (hm : ∀ m ∈ ms, P m) :
    I (bagMessages o false s ms).1 ∧ (bagMessages o false s ms).2.map view = ms.filterMap rec := by
  induction ms generalizing s with
  | nil => exact ⟨hs, rfl⟩
  | cons m ms ih =>
    obtain ⟨h2, h3⟩ := h s m hs (hm m (by simp))
    have hms : ∀ m ∈ ms, P m := fun x hx => hm x (by simp [hx])
    unfold bagMessages
    simp only [h2, Bool.true_eq_false, if_false]
    rcases h3 with ⟨hv, hr, hi⟩ | ⟨hv, hr, hi⟩
    · obtain ⟨a, b⟩ := ih _ hi hms
      simp only [hv, if_true, Bool.false_eq_true, if_false, List.filterMap_cons, hr, List.map_cons, b]
      exact ⟨a, trivial⟩
    · obtain ⟨a, b⟩ := ih _ hi hms
      simp only [hv, Bool.false_eq_true, if_false, List.filterMap_cons, hr]
      exact ⟨a, b⟩

private theorem worker_on {o : RosObject S M R} {I : S → Prop} {P : M → Prop} {view : R → Q} {rec : M → Option Q}
    (h : ∀ s m, I s → P m → (o.fromRos s m).2 = true ∧
      ((o.valid (o.fromRos s m).1 = true ∧ rec m = some (view (o.toJson (o.fromRos s m).1)) ∧ I (o.clear (o.fromRos s m).1))
        ∨ (o.valid (o.fromRos s m).1 = false ∧ rec m = none ∧ I (o.fromRos s m).1)))
    (s : S) (hs : I s) (bags : List (List M)) (hm : ∀ b ∈ bags, ∀ m ∈ b, P m) :
    (rosWorker o false s bags).map view = bags.flatMap fun b => b.filterMap rec := by
  induction bags generalizing s with
  | nil => rfl
  | cons b bs ih =>
    obtain ⟨h1, h2⟩ := bag_on h s hs b (hm b (by simp))
    unfold rosWorker
    simp only [List.map_append, List.flatMap_cons, h2, ih _ h1 fun x hx => hm x (by simp [hx])]

end

private theorem num_ofOpt (o : Option ℝ) : (ofOpt o).asNum = .ok o := by
  cases o <;> rfl

private theorem at_t (s : UsblM ℝ) : s.toJson.at1 "epoch_timestamp" = .ok s.epoch := by
  simp [UsblM.toJson, at1, Json.key, bind, Except.bind, num_ofOpt]

private theorem at_lat (s : UsblM ℝ) : s.toJson.at3 "data_target" 0 "latitude" = .ok s.lat := by
  simp [UsblM.toJson, at3, Json.key, Json.idx, bind, Except.bind, num_ofOpt]

private theorem at_lon (s : UsblM ℝ) : s.toJson.at3 "data_target" 1 "longitude" = .ok s.lon := by
  simp [UsblM.toJson, at3, Json.key, Json.idx, bind, Except.bind, num_ofOpt]

private theorem at_n (s : UsblM ℝ) : s.toJson.at3 "data_target" 2 "northings" = .ok s.north := by
  simp [UsblM.toJson, at3, Json.key, Json.idx, bind, Except.bind, num_ofOpt]

private theorem at_e (s : UsblM ℝ) : s.toJson.at3 "data_target" 3 "eastings" = .ok s.east := by
  simp [UsblM.toJson, at3, Json.key, Json.idx, bind, Except.bind, num_ofOpt]

private theorem at_d (s : UsblM ℝ) : s.toJson.at3 "data_target" 4 "depth" = .ok s.depth := by
  simp [UsblM.toJson, at3, Json.key, Json.idx, bind, Except.bind, num_ofOpt]

private theorem at_ns (s : UsblM ℝ) : s.toJson.at3 "data_target" 2 "northings_std" = .ok s.northStd := by
  simp [UsblM.toJson, at3, Json.key, Json.idx, bind, Except.bind, num_ofOpt]

private theorem at_es (s : UsblM ℝ) : s.toJson.at3 "data_target" 3 "eastings_std" = .ok s.eastStd := by
  simp [UsblM.toJson, at3, Json.key, Json.idx, bind, Except.bind, num_ofOpt]

private theorem at_ds (s : UsblM ℝ) : s.toJson.at3 "data_target" 4 "depth_std" = .ok s.depthStd := by
  simp [UsblM.toJson, at3, Json.key, Json.idx, bind, Except.bind, num_ofOpt]

private theorem at_dist (s : UsblM ℝ) : s.toJson.at3 "data_target" 5 "distance_to_ship" = .ok s.dist := by
  simp [UsblM.toJson, at3, Json.key, Json.idx, bind, Except.bind, num_ofOpt]

private theorem numberAt_ok (o : Option ℝ) : numberAt (.ok o) = o := by cases o <;> rfl

private theorem fixRead_json (s : UsblM ℝ) : fixRead s.toJson = match s.epoch, s.lat, s.lon, s.north, s.east, s.depth with
    | some t, some la, some lo, some n, some e, some d => some ⟨t, la, lo, n, e, d⟩
    | _, _, _, _, _, _ => none := by
  simp only [fixRead, at_t, at_lat, at_lon, at_n, at_e, at_d, numberAt_ok]
  cases s.epoch <;> cases s.lat <;> cases s.lon <;> cases s.north <;> cases s.east <;> cases s.depth <;> rfl

private theorem stdRead_json (s : UsblM ℝ) : fixStdRead s.toJson = ⟨s.northStd, s.eastStd, s.depthStd⟩ := by
  simp only [fixStdRead, at_ns, at_es, at_ds, numberAt_ok]

private theorem distRead_json (s : UsblM ℝ) : fixDistRead s.toJson = s.dist := by
  simp only [fixDistRead, at_dist, numberAt_ok]

private theorem cos_rad (b d : ℝ) : cos (b * π / 180) * d = d * cos (rad b) := by
  rw [show b * π / 180 = rad b by simp only [rad]; ring, mul_comm]

private theorem sin_rad (b d : ℝ) : sin (b * π / 180) * d = d * sin (rad b) := by
  rw [show b * π / 180 = rad b by simp only [rad]; ring, mul_comm]

/-- C234, proved part: in the format "oplab" the positions recorded from bags are, in order, those of the messages, each with its own time,
degrees, metres and depth, whatever the messages and bags before; a receiver's message counts if its status is 0. Missing from the full
claim: messages after one of an unknown type are lost in that bag, statuses 1 and 2 (`C234_status_false`), and uncertainties
(`C234_uncertainty_false`). -/
theorem C234_fixes_partial (c : UsblSetup) (bags : List (List UsblMsg)) :
    (usblBags c false bags).map fixRead
      = (bags.flatMap fun b => (b.takeWhile usblKnown).filterMap (fixOf (fun s => s = 0) c)).map some := by
  have h : RosOwn (usblObject c) (fun s => s.lat = none) usblKnown fixRead (fun m => (fixOf (fun s => s = 0) c m).map some) := by
    refine ⟨?_, ?_, ?_, ?_⟩
    · intro s m _
      cases m <;> rfl
    · intro s m hs hm
      cases m <;> simp_all [usblKnown, usblObject, usblFromRos]
    · intro s m hs hm hv
      cases m with
      | pose modem p v st =>
        cases modem <;>
          simp [usblObject, usblFromRos, usblPose, usblSetFill, usblFill, usblClear, fixRead_json, fixOf, fixFromMetres, fixFromDegrees, cos_rad,
            sin_rad]
      | navSat st lat lon cov t =>
        by_cases h0 : st = 0
        · simp [usblObject, usblFromRos, usblSetFill, usblFill, usblClear, fixRead_json, fixOf, fixFromDegrees, h0, cos_rad, sin_rad]
        · simp [usblObject, usblFromRos, h0, UsblM.valid, hs] at hv
      | evologics p st =>
        simp [usblObject, usblFromRos, usblClear, fixRead_json, fixOf, fixFromMetres]
      | other => simp [usblKnown] at hm
    · intro s m hs hm hv
      cases m with
      | pose modem p v st =>
        cases modem <;> simp [usblObject, usblFromRos, usblPose, usblSetFill, usblFill, UsblM.valid] at hv
      | navSat st lat lon cov t =>
        by_cases h0 : st = 0
        · simp [usblObject, usblFromRos, usblSetFill, usblFill, h0, UsblM.valid] at hv
        · simp [usblObject, usblFromRos, h0, fixOf, hs]
      | evologics p st => simp [usblObject, usblFromRos, UsblM.valid] at hv
      | other => simp [usblKnown] at hm
  have := worker_own h usblFresh rfl bags
  rw [usblBags, this]
  simp [List.map_flatMap, List.map_filterMap]

/-- C234: the uncertainties recorded from poses and receivers are those of the same message, whatever came before. (Those of receivers are
variances, in m², see C150; the first entry of a receiver's covariance is that of the east direction.) -/
theorem C234_uncertainties (c : UsblSetup) (bags : List (List UsblMsg))
    (hb : ∀ b ∈ bags, ∀ m ∈ b, (∃ f p v t, m = .pose f p v t) ∨ ∃ s la lo v t, m = .navSat s la lo v t) :
    (usblBags c false bags).map fixStdRead
      = (bags.flatMap fun b => b.filter fun m => (fixOf (fun s => s = 0) c m).isSome).map (fixStd c) := by
  have h := worker_on (o := usblObject c) (I := fun s => s.lat = none)
    (P := fun m => (∃ f p v t, m = UsblMsg.pose f p v t) ∨ ∃ s la lo v t, m = .navSat s la lo v t) (view := fixStdRead)
    (rec := fun m => if (fixOf (fun s => s = 0) c m).isSome then some (fixStd c m) else none) (by
      rintro s m hs (⟨f, p, v, t, rfl⟩ | ⟨st, la, lo, v, t, rfl⟩)
      · refine ⟨rfl, Or.inl ?_⟩
        cases f <;>
          simp [usblObject, usblFromRos, usblPose, usblSetFill, usblFill, usblClear, UsblM.valid, stdRead_json, fixOf, fixStd]
      · by_cases h0 : st = 0
        · refine ⟨rfl, Or.inl ?_⟩
          simp [usblObject, usblFromRos, usblSetFill, usblFill, usblClear, UsblM.valid, stdRead_json, fixOf, fixStd, h0]
        · refine ⟨rfl, Or.inr ?_⟩
          simp [usblObject, usblFromRos, UsblM.valid, fixOf, h0, hs]) usblFresh rfl bags hb
  rw [usblBags, h, List.map_flatMap]
  congr 1
  funext b
  induction b with
  | nil => rfl
  | cons m ms ih =>
    by_cases hm : (fixOf (fun s => s = 0) c m).isSome = true
    · simp [hm, ih]
    · simp [hm, ih]

/-- C234, Evologics modems: every record lacks all uncertainties and the distance to the ship. -/
theorem C234_evologics (c : UsblSetup) (bags : List (List UsblMsg)) (hb : ∀ b ∈ bags, ∀ m ∈ b, ∃ p t, m = .evologics p t) :
    (usblBags c false bags).length = bags.flatten.length
    ∧ ∀ j ∈ usblBags c false bags, fixStdRead j = ⟨none, none, none⟩ ∧ fixDistRead j = none := by
  have h := worker_on (o := usblObject c) (I := fun s => s.northStd = none ∧ s.eastStd = none ∧ s.depthStd = none ∧ s.dist = none)
    (P := fun m => ∃ p t, m = UsblMsg.evologics p t) (view := fun j => (fixStdRead j, fixDistRead j))
    (rec := fun _ => some (⟨none, none, none⟩, none)) (by
      rintro s m ⟨h1, h2, h3, h4⟩ ⟨p, t, rfl⟩
      refine ⟨rfl, Or.inl ?_⟩
      simp [usblObject, usblFromRos, usblClear, UsblM.valid, stdRead_json, distRead_json, h1, h2, h3, h4])
    usblFresh ⟨rfl, rfl, rfl, rfl⟩ bags hb
  constructor
  · have := congrArg List.length h
    simp only [List.length_map, List.filterMap_eq_map', List.length_flatMap] at this
    rw [usblBags, this]
    simp [List.length_flatten]
  · intro j hj
    have hm : (fixStdRead j, fixDistRead j) ∈ bags.flatMap fun b => b.filterMap fun _ => some ((⟨none, none, none⟩ : V3 (Option ℝ)), (none : Option ℝ)) := by
      rw [← h]
      exact List.mem_map_of_mem hj
    simp only [List.mem_flatMap, List.mem_filterMap, Option.some.injEq] at hm
    obtain ⟨_, _, _, _, e⟩ := hm
    rw [Prod.mk.injEq] at e
    exact ⟨e.1.symm, e.2.symm⟩

private theorem linear_read (llStd : Option ℝ → Option ℝ → Option ℝ → Option ℝ → ℝ → ℝ → Res (Option ℝ × Option ℝ)) (o f : ℝ) (s : UsblM ℝ) :
    (s.dist = none → UsblM.fromJson llStd {} s.toJson (.linear o f) = .error .typeError)
    ∧ (∀ r, s.dist = some (-1) → UsblM.fromJson llStd {} s.toJson (.linear o f) = .ok r →
      r.northStd = some (o - f) ∧ r.eastStd = some (o - f)) := by
  constructor
  · intro h
    simp only [UsblM.fromJson, at_t, at_lat, at_lon, at_n, at_e, at_d, at_ds, at_dist, h, linStd, bind, Except.bind]
  · intro r h hr
    simp only [UsblM.fromJson, at_t, at_lat, at_lon, at_n, at_e, at_d, at_ds, at_dist, h, linStd, bind, Except.bind, pure, Except.pure] at hr
    cases hl : llStd s.lat s.lon s.depth (some (-1)) o f with
    | error e => simp [hl] at hr
    | ok p =>
      simp only [hl, Except.ok.injEq] at hr
      rw [← hr]
      have key : ∀ (P : Option ℝ → Option ℝ → Prop) (st : UsblM ℝ × Bool) (q : Res (Option ℝ)) (set : UsblM ℝ → Option ℝ → UsblM ℝ),
          (∀ a v, (set a v).northStd = a.northStd ∧ (set a v).eastStd = a.eastStd) → P st.1.northStd st.1.eastStd →
          P (tryAssign st q set).1.northStd (tryAssign st q set).1.eastStd := by
        intro P st q set hset h
        unfold tryAssign
        split
        · cases q with
          | ok v => rw [(hset _ _).1, (hset _ _).2]; exact h
          | error _ => exact h
        · exact h
      have e : o + f * (-1) = o - f := by ring
      refine key (fun a b => a = some (o - f) ∧ b = some (o - f)) _ _ _ (fun _ _ => ⟨rfl, rfl⟩) ?_
      refine key (fun a b => a = some (o - f) ∧ b = some (o - f)) _ _ _ (fun _ _ => ⟨rfl, rfl⟩) ?_
      refine key (fun a b => a = some (o - f) ∧ b = some (o - f)) _ _ _ (fun _ _ => ⟨rfl, rfl⟩) ?_
      refine key (fun a b => a = some (o - f) ∧ b = some (o - f)) _ _ _ (fun _ _ => ⟨rfl, rfl⟩) ?_
      refine key (fun a b => a = some (o - f) ∧ b = some (o - f)) _ _ _ (fun _ _ => ⟨rfl, rfl⟩) ?_
      exact ⟨congrArg some e, congrArg some e⟩

private theorem bag_json (c : UsblSetup) (s : UsblM ℝ) (ms : List UsblMsg) :
    ∀ j ∈ (bagMessages (usblObject c) false s ms).2, ∃ u : UsblM ℝ, j = u.toJson := by
  induction ms generalizing s with
  | nil => intro j hj; simp [bagMessages] at hj
  | cons m ms ih =>
    intro j hj
    unfold bagMessages at hj
    simp only [Bool.false_eq_true, if_false] at hj
    split_ifs at hj with h1 h2
    · simp at hj
    · rcases List.mem_cons.1 hj with rfl | hj
      · exact ⟨_, rfl⟩
      · exact ih _ j hj
    · exact ih _ j hj

private theorem bags_json (c : UsblSetup) (s : UsblM ℝ) (bags : List (List UsblMsg)) :
    ∀ j ∈ rosWorker (usblObject c) false s bags, ∃ u : UsblM ℝ, j = u.toJson := by
  induction bags generalizing s with
  | nil => intro j hj; simp [rosWorker] at hj
  | cons b bs ih =>
    intro j hj
    unfold rosWorker at hj
    rcases List.mem_append.1 hj with hj | hj
    · exact bag_json c s b j hj
    · exact ih _ j hj

/-- C234: no record of poses and modems can be read back with the uncertainty model "linear", which needs a distance to the ship: it is an
error for every offset and factor. -/
theorem C234_linear_unreadable (llStd : Option ℝ → Option ℝ → Option ℝ → Option ℝ → ℝ → ℝ → Res (Option ℝ × Option ℝ)) (o f : ℝ)
    (c : UsblSetup) (bags : List (List UsblMsg))
    (hb : ∀ b ∈ bags, ∀ m ∈ b, (∃ p v t, m = .pose false p v t) ∨ ∃ p t, m = .evologics p t) :
    (usblBags c false bags).length = bags.flatten.length
    ∧ ∀ j ∈ usblBags c false bags, UsblM.fromJson llStd {} j (.linear o f) = .error .typeError := by
  have h := worker_on (o := usblObject c) (I := fun s => s.dist = none)
    (P := fun m => (∃ p v t, m = UsblMsg.pose false p v t) ∨ ∃ p t, m = .evologics p t) (view := fixDistRead) (rec := fun _ => some none) (by
      rintro s m hs (⟨p, v, t, rfl⟩ | ⟨p, t, rfl⟩)
      · refine ⟨rfl, Or.inl ?_⟩
        simp [usblObject, usblFromRos, usblPose, usblClear, UsblM.valid, distRead_json, hs]
      · refine ⟨rfl, Or.inl ?_⟩
        simp [usblObject, usblFromRos, usblClear, UsblM.valid, distRead_json, hs]) usblFresh rfl bags hb
  constructor
  · have := congrArg List.length h
    simp only [List.length_map, List.filterMap_eq_map', List.length_flatMap] at this
    rw [usblBags, this]
    simp [List.length_flatten]
  · intro j hj
    obtain ⟨u, rfl⟩ := bags_json c _ _ j hj
    have hm : fixDistRead u.toJson ∈ bags.flatMap fun b => b.filterMap fun _ => some (none : Option ℝ) := by
      rw [← h]
      exact List.mem_map_of_mem hj
    simp only [List.mem_flatMap, List.mem_filterMap, Option.some.injEq] at hm
    obtain ⟨_, _, _, _, e⟩ := hm
    rw [distRead_json] at e
    exact (linear_read llStd o f u).1 e.symm

/-- C234: with the uncertainty model "linear" every record of receivers and of poses in degrees is read back with the offset less the factor
as its uncertainty in metres, since its distance to the ship is -1, which stands for an unknown one. -/
theorem C234_linear_less (llStd : Option ℝ → Option ℝ → Option ℝ → Option ℝ → ℝ → ℝ → Res (Option ℝ × Option ℝ)) (o f : ℝ)
    (c : UsblSetup) (bags : List (List UsblMsg))
    (hb : ∀ b ∈ bags, ∀ m ∈ b, (∃ p v t, m = .pose true p v t) ∨ ∃ s la lo v t, m = .navSat s la lo v t) :
    ∀ j ∈ usblBags c false bags, ∀ r, UsblM.fromJson llStd {} j (.linear o f) = .ok r → r.northStd = some (o - f) ∧ r.eastStd = some (o - f) := by
  have h := worker_on (o := usblObject c) (I := fun s => s.lat = none)
    (P := fun m => (∃ p v t, m = UsblMsg.pose true p v t) ∨ ∃ s la lo v t, m = .navSat s la lo v t) (view := fixDistRead)
    (rec := fun m => if (fixOf (fun s => s = 0) c m).isSome then some (some (-1)) else none) (by
      rintro s m hs (⟨p, v, t, rfl⟩ | ⟨st, la, lo, v, t, rfl⟩)
      · refine ⟨rfl, Or.inl ?_⟩
        simp [usblObject, usblFromRos, usblSetFill, usblClear, UsblM.valid, distRead_json, fixOf]
      · by_cases h0 : st = 0
        · refine ⟨rfl, Or.inl ?_⟩
          simp [usblObject, usblFromRos, usblSetFill, usblClear, UsblM.valid, distRead_json, fixOf, h0]
        · refine ⟨rfl, Or.inr ?_⟩
          simp [usblObject, usblFromRos, UsblM.valid, fixOf, h0, hs]) usblFresh rfl bags hb
  intro j hj r hr
  obtain ⟨u, rfl⟩ := bags_json c _ _ j hj
  have hm : fixDistRead u.toJson ∈ bags.flatMap fun b => b.filterMap fun m =>
      if (fixOf (fun s => s = 0) c m).isSome then some (some (-1 : ℝ)) else none := by
    rw [← h]
    exact List.mem_map_of_mem hj
  simp only [List.mem_flatMap, List.mem_filterMap] at hm
  obtain ⟨_, _, m, _, e⟩ := hm
  rw [distRead_json] at e
  split_ifs at e
  rw [Option.some.injEq] at e
  exact (linear_read llStd o f u).2 r e.symm hr

/-- The full claim on receivers: a position is recorded for every message of a receiver with a fix. -/
def ReceiverFixesRecorded : Prop := ∀ (c : UsblSetup) (status : ℤ) (lat lon : ℝ) (cov : V3 ℝ) (t : ℝ), NavSatHasFix status →
  (usblBags c false [[.navSat status lat lon cov t]]).length = 1

/-- C234: the claim is false: a fix with satellite corrections (status 1) is dropped. -/
theorem C234_status_false : ¬ ReceiverFixesRecorded := by
  intro h
  have h1 := h ⟨0, 0, 0, 0, 0, fun _ _ _ _ => (0, 0), fun _ _ _ _ => (0, 0)⟩ 1 0 0 ⟨1, 1, 1⟩ 5 (by simp [NavSatHasFix])
  have h2 := congrArg List.length (C234_fixes_partial ⟨0, 0, 0, 0, 0, fun _ _ _ _ => (0, 0), fun _ _ _ _ => (0, 0)⟩ [[.navSat 1 0 0 ⟨1, 1, 1⟩ 5]])
  rw [List.length_map, h1] at h2
  simp [fixOf, usblKnown, List.takeWhile] at h2

/-- The full claim on uncertainties: every recorded position states its uncertainties. -/
def UncertaintiesRecorded : Prop := ∀ (c : UsblSetup) (bags : List (List UsblMsg)), ∀ j ∈ usblBags c false bags,
  (fixStdRead j).x.isSome ∧ (fixStdRead j).y.isSome

/-- C234: the claim is false for Evologics modems. -/
theorem C234_uncertainty_false : ¬ UncertaintiesRecorded := by
  intro h
  have h0 := C234_evologics ⟨0, 0, 0, 0, 0, fun _ _ _ _ => (0, 0), fun _ _ _ _ => (0, 0)⟩ [[.evologics ⟨1, 2, 3⟩ 5]]
    (by intro b hb m hm; simp at hb; subst hb; simp at hm; exact ⟨_, _, hm⟩)
  cases hl : usblBags ⟨0, 0, 0, 0, 0, fun _ _ _ _ => (0, 0), fun _ _ _ _ => (0, 0)⟩ false [[.evologics ⟨1, 2, 3⟩ 5]] with
  | nil => rw [hl] at h0; simp at h0
  | cons j js =>
    rw [hl] at h0
    have h1 := h ⟨0, 0, 0, 0, 0, fun _ _ _ _ => (0, 0), fun _ _ _ _ => (0, 0)⟩ [[.evologics ⟨1, 2, 3⟩ 5]] j (by rw [hl]; simp)
    rw [(h0.2 j (by simp)).1] at h1
    simp at h1

/-- The hypotheses are met: a receiver without a fix, with one, and a pose; a modem whose records have no uncertainty. -/
example (c : UsblSetup) : (usblBags c false [[.navSat (-1) 5 6 ⟨1, 1, 1⟩ 5, .navSat 0 50 3 ⟨4, 1, 9⟩ 6], [.pose false ⟨10, 20, 30⟩ ⟨1, 1, 1⟩ 7]]).length = 2 := by
  have h := congrArg List.length (C234_fixes_partial c [[.navSat (-1) 5 6 ⟨1, 1, 1⟩ 5, .navSat 0 50 3 ⟨4, 1, 9⟩ 6], [.pose false ⟨10, 20, 30⟩ ⟨1, 1, 1⟩ 7]])
  rw [List.length_map] at h
  rw [h]
  simp [fixOf, usblKnown, List.takeWhile]

end Oplab.Props
