import Verif.Model.SensorJson
import Mathlib.Tactic.NormNum
import Mathlib.Algebra.Order.Ring.Rat
import Mathlib.Tactic.Tauto
import Mathlib.Algebra.Order.Group.Abs

/-!
# C27 — exported measurements can be read back; C66 — sorting records into lists

A measurement that `export` accepts (`valid`) is written with `_to_json` and read into a
fresh object with `from_json` and the uncertainty model "sensor".
-/

namespace Oplab.Props

open Oplab Json

set_option linter.unusedSectionVars false

variable {K : Type} [Field K]

private theorem asNum_ofOpt (o : Option K) : (ofOpt o).asNum = .ok o := by
  cases o <;> rfl

/-- Evaluate `from_json` on a literal record. -/
local macro "rt" : tactic =>
  `(tactic| simp [at1, at3, Json.key, Json.idx, bind, Except.bind, pure, Except.pure,
      asNum_ofOpt, stdOf])

/-- C27, orientation: every number comes back; the sensor label does not. -/
theorem C27_orientation_round_trip (s : Orient K) (h : s.valid = true) :
    ∃ j, exportOplab Orient.valid Orient.toJson s = some j ∧
      Orient.fromJson {} j .sensor = .ok { s with sensor := "unknown" } := by
  refine ⟨s.toJson, by simp [exportOplab, h], ?_⟩
  simp only [Orient.fromJson, Orient.toJson]
  rt

example : (⟨some 5, some 1, some 2, some 3, some 1, some 1, some 1, "phins"⟩ : Orient ℚ).valid = true :=
  rfl

/-- C27, depth: every number comes back, including the depth sensor's own time. -/
theorem C27_depth_round_trip (s : DepthM K) (h : s.valid = true) :
    ∃ j, exportOplab DepthM.valid DepthM.toJson s = some j ∧
      DepthM.fromJson {} j .sensor = .ok { s with sensor := "unknown" } := by
  refine ⟨s.toJson, by simp [exportOplab, h], ?_⟩
  simp only [DepthM.fromJson, DepthM.toJson]
  rt

example : (⟨some 5, some 4, some 20, none, "phins"⟩ : DepthM ℚ).valid = true := rfl

/-- C27, inertial velocity. -/
theorem C27_inertial_velocity_round_trip (s : InertialVel K) (h : s.valid = true) :
    ∃ j, exportOplab InertialVel.valid InertialVel.toJson s = some j ∧
      InertialVel.fromJson {} j = .ok { s with sensor := "unknown" } := by
  refine ⟨s.toJson, by simp [exportOplab, h], ?_⟩
  simp only [InertialVel.fromJson, InertialVel.toJson]
  rt

/-- C27, USBL: every number comes back, for target and ship. -/
theorem C27_usbl_round_trip
    (llStd : Option K → Option K → Option K → Option K → K → K → Res (Option K × Option K))
    (s : UsblM K) (h : s.valid = true) :
    ∃ j, exportOplab UsblM.valid UsblM.toJson s = some j ∧
      UsblM.fromJson llStd {} j .sensor = .ok { s with sensor := "unknown" } := by
  refine ⟨s.toJson, by simp [exportOplab, h], ?_⟩
  simp only [UsblM.fromJson, UsblM.toJson, tryAssign]
  rt

example : ({ epoch := some 1, lat := some 50, lon := some 3, north := some 10, east := some 4,
             depth := some 7 } : UsblM ℚ).valid = true := rfl

/-- C27, single camera. -/
theorem C27_camera_round_trip (s : CamM K) (h : s.valid = true) :
    ∃ j, exportOplab CamM.valid CamM.toJson s = some j ∧
      CamM.fromJson {} j "camera1" = .ok { s with sensor := "unknown" } := by
  refine ⟨s.toJson, by simp [exportOplab, h], ?_⟩
  simp only [CamM.fromJson, CamM.toJson, Json.has]
  simp [at3, Json.key, Json.idx, bind, Except.bind, pure, Except.pure, asNum_ofOpt, asStr]

/-- C27, stereo camera: each image of a pair comes back under its own name, with its own
time; the two are not exchanged. -/
theorem C27_stereo_round_trip (l r : CamM K) (sensor : String) :
    CamM.fromJson {} (stereoToJson l r sensor) "camera1" = .ok { l with sensor := "unknown" } ∧
    CamM.fromJson {} (stereoToJson l r sensor) "camera2" = .ok { r with sensor := "unknown" } := by
  constructor <;> simp only [CamM.fromJson, stereoToJson, Json.has] <;>
    simp [at3, Json.key, Json.idx, bind, Except.bind, pure, Except.pure, asNum_ofOpt, asStr]

/-- C27, body velocity: velocities and standard deviations come back, but the object's
time is the DVL time of the record, and the DVL time is left unset. -/
theorem C27_body_velocity_partial (s : BodyVel K) (h : s.valid = true) :
    ∃ j, exportOplab BodyVel.valid BodyVel.toJson s = some j ∧
      BodyVel.fromJson {} j .sensor =
        .ok { s with epoch := s.epochDvl, epochDvl := none, sensor := "unknown" } := by
  refine ⟨s.toJson, by simp [exportOplab, h], ?_⟩
  simp only [BodyVel.fromJson, BodyVel.toJson]
  rt

example : (⟨some 5, some 4, some 1, some 0, none, none, none, none, "phins"⟩ : BodyVel ℚ).valid = true :=
  rfl

/-- C27 fails for body velocities: a valid measurement whose time differs from its DVL
time comes back with another time. -/
theorem C27_body_velocity_time_false :
    ∃ s : BodyVel ℚ, s.valid = true ∧ ∀ s', BodyVel.fromJson {} s.toJson .sensor = .ok s' →
      s'.epoch ≠ s.epoch := by
  refine ⟨⟨some 5, some 4, some 1, some 0, none, none, none, none, "phins"⟩, rfl, ?_⟩
  intro s' h
  have := (C27_body_velocity_partial (⟨some 5, some 4, some 1, some 0, none, none, none, none,
    "phins"⟩ : BodyVel ℚ) rfl)
  obtain ⟨j, hj, hr⟩ := this
  simp only [exportOplab, BodyVel.valid, Option.isSome_some, Bool.and_self, if_true,
    Option.some.injEq] at hj
  subst hj
  rw [hr] at h
  injection h with h
  subst h
  simp

/-- C27, altitude: time, altitude and its standard deviation come back; the time of the
range measurement and the sound velocity fields do not. -/
theorem C27_altitude_partial (s : AltM K) (h : s.valid = true) :
    ∃ j, exportOplab AltM.valid AltM.toJson s = some j ∧
      AltM.fromJson {} j = .ok { epoch := s.epoch, alt := s.alt, altStd := s.altStd } := by
  refine ⟨s.toJson, by simp [exportOplab, h], ?_⟩
  simp only [AltM.fromJson, AltM.toJson]
  rt

example : (⟨some 5, some 5, some 2, none, some 1500, none, "phins"⟩ : AltM ℚ).valid = true := rfl

/-- C27 fails for altitude: the exported sound velocity of any measurement that has one
is lost. -/
theorem C27_altitude_sound_velocity_false (s : AltM K) (h : s.soundVel ≠ none) :
    ∀ s', AltM.fromJson {} s.toJson = .ok s' → s'.soundVel ≠ s.soundVel := by
  intro s' hs
  have e : AltM.fromJson {} s.toJson =
      .ok { epoch := s.epoch, alt := s.alt, altStd := s.altStd } := by
    simp only [AltM.fromJson, AltM.toJson]
    rt
  rw [e] at hs
  injection hs with hs
  subst hs
  exact fun c => h c.symm

/-- C27 fails for tide: no exported tide record can be read back, whatever the
measurement and the uncertainty model. -/
theorem C27_tide_false (s : TideM K) (m : StdModel K) :
    TideM.fromJson {} s.toJson m = .error .keyError := by
  simp only [TideM.fromJson, TideM.toJson]
  rt

/-- C27: an invalid measurement exports nothing (so nothing wrong is read back). -/
theorem C27_invalid_not_exported {α : Type} (valid : α → Bool) (toJson : α → Json K) (s : α) :
    exportOplab valid toJson s = none ↔ valid s = false := by
  simp [exportOplab]

/-! ### C66 -/

/-- Any measurement that auv_nav exports to the dive's JSON file. -/
inductive Meas (K : Type) where
  | body (s : BodyVel K)
  | inertial (s : InertialVel K)
  | orient (s : Orient K)
  | depth (s : DepthM K)
  | alt (s : AltM K)
  | usbl (s : UsblM K)
  | cam (s : CamM K)
  | stereo (l r : CamM K) (sensor : String)

/-- The record of a measurement. -/
def Meas.json : Meas K → Json K
  | .body s => s.toJson
  | .inertial s => s.toJson
  | .orient s => s.toJson
  | .depth s => s.toJson
  | .alt s => s.toJson
  | .usbl s => s.toJson
  | .cam s => s.toJson
  | .stereo l r n => stereoToJson l r n

/-- The measurement is one that `export` accepts. -/
def Meas.Valid : Meas K → Prop
  | .body s => s.valid = true
  | .inertial s => s.valid = true
  | .orient s => s.valid = true
  | .depth s => s.valid = true
  | .alt s => s.valid = true
  | .usbl s => s.valid = true
  | .cam s => s.valid = true
  | .stereo l r _ => l.valid = true ∧ r.valid = true

/-- The time of a measurement. -/
def Meas.time : Meas K → Option K
  | .body s => s.epoch
  | .inertial s => s.epoch
  | .orient s => s.epoch
  | .depth s => s.epoch
  | .alt s => s.epoch
  | .usbl s => s.epoch
  | .cam s => s.epoch
  | .stereo l _ _ => l.epoch

variable [LinearOrder K]

/-- The measurement lies in the requested time window. -/
def InWindow (start finish : K) (m : Meas K) : Prop := ∃ t, m.time = some t ∧ start ≤ t ∧ t ≤ finish

open Classical in
/-- The measurements of one kind that lie in the window, in file order. -/
noncomputable def wanted {α : Type} (start finish : K) (pick : Meas K → Option α) (ms : List (Meas K)) :
    List α :=
  (ms.filter (fun m => decide (InWindow start finish m))).filterMap pick

/-- A body velocity as the processing sees it: stamped with the DVL's clock, and only if
that clock agrees with the vehicle's within a second. -/
def pickBody : Meas K → Option (BodyVel K)
  | .body s => match s.epoch, s.epochDvl with
    | some t, some td =>
      if |t - td| < 1 then some { s with epoch := some td, epochDvl := none, sensor := "unknown" }
      else none
    | _, _ => none
  | _ => none

def pickInertial : Meas K → Option (InertialVel K)
  | .inertial s => some { s with sensor := "unknown" } | _ => none
def pickOrient : Meas K → Option (Orient K)
  | .orient s => some { s with sensor := "unknown" } | _ => none
def pickDepth : Meas K → Option (DepthM K)
  | .depth s => some { s with sensor := "unknown" } | _ => none
def pickAlt : Meas K → Option (AltM K)
  | .alt s => some { epoch := s.epoch, alt := s.alt, altStd := s.altStd } | _ => none
def pickUsbl : Meas K → Option (UsblM K)
  | .usbl s => some { s with sensor := "unknown" } | _ => none
def pickCam1 : Meas K → Option (CamM K)
  | .cam s => some { s with sensor := "unknown" }
  | .stereo l _ _ => some { l with sensor := "unknown" }
  | _ => none
def pickCam2 (nCams : Nat) : Meas K → Option (CamM K)
  | .stereo _ r _ => if nCams > 1 then some { r with sensor := "unknown" } else none
  | _ => none

open Classical in
private theorem wanted_cons {α : Type} (start finish : K) (pick : Meas K → Option α) (m : Meas K)
    (ms : List (Meas K)) :
    wanted start finish pick (m :: ms) =
      (if InWindow start finish m then (pick m).toList else []) ++ wanted start finish pick ms := by
  unfold wanted
  by_cases h : InWindow start finish m
  · cases hp : pick m <;> simp [h, hp]
  · simp [h]

private theorem cats :
    strIn "velocity" "velocity" = true ∧
    strIn "orientation" "velocity" = false ∧
    strIn "depth" "velocity" = false ∧
    strIn "altitude" "velocity" = false ∧
    strIn "usbl" "velocity" = false ∧
    strIn "image" "velocity" = false ∧
    strIn "laser" "velocity" = false ∧
    strIn "velocity" "orientation" = false ∧
    strIn "orientation" "orientation" = true ∧
    strIn "depth" "orientation" = false ∧
    strIn "altitude" "orientation" = false ∧
    strIn "usbl" "orientation" = false ∧
    strIn "image" "orientation" = false ∧
    strIn "laser" "orientation" = false ∧
    strIn "velocity" "depth" = false ∧
    strIn "orientation" "depth" = false ∧
    strIn "depth" "depth" = true ∧
    strIn "altitude" "depth" = false ∧
    strIn "usbl" "depth" = false ∧
    strIn "image" "depth" = false ∧
    strIn "laser" "depth" = false ∧
    strIn "velocity" "altitude" = false ∧
    strIn "orientation" "altitude" = false ∧
    strIn "depth" "altitude" = false ∧
    strIn "altitude" "altitude" = true ∧
    strIn "usbl" "altitude" = false ∧
    strIn "image" "altitude" = false ∧
    strIn "laser" "altitude" = false ∧
    strIn "velocity" "usbl" = false ∧
    strIn "orientation" "usbl" = false ∧
    strIn "depth" "usbl" = false ∧
    strIn "altitude" "usbl" = false ∧
    strIn "usbl" "usbl" = true ∧
    strIn "image" "usbl" = false ∧
    strIn "laser" "usbl" = false ∧
    strIn "velocity" "image" = false ∧
    strIn "orientation" "image" = false ∧
    strIn "depth" "image" = false ∧
    strIn "altitude" "image" = false ∧
    strIn "usbl" "image" = false ∧
    strIn "image" "image" = true ∧
    strIn "laser" "image" = false ∧
    strIn "body" "body" = true ∧ strIn "body" "inertial" = false ∧
    strIn "inertial" "inertial" = true ∧ strIn "inertial" "body" = false := by
  decide +kernel

private def cfgS : StdCfg K := ⟨.sensor, .sensor, .sensor, .sensor⟩

private theorem step_out
    (llStd : Option K → Option K → Option K → Option K → K → K → Res (Option K × Option K))
    (cfg : StdCfg K) (start finish : K) (nCams : Nat) (acc : Loaded K) (j : Json K) (t : K)
    (hn : j ≠ .null) (ht : j.at1 "epoch_timestamp" = .ok (some t))
    (hw : ¬ (t ≥ start ∧ t ≤ finish)) :
    loadStep llStd cfg start finish nCams acc j = .ok acc := by
  cases j <;> first
    | exact absurd rfl hn
    | simp only [loadStep, ht, bind, Except.bind, reqNum, hw, if_false, pure, Except.pure]

private theorem step_in
    (llStd : Option K → Option K → Option K → Option K → K → K → Res (Option K × Option K))
    (cfg : StdCfg K) (start finish : K) (nCams : Nat) (acc : Loaded K) (j : Json K) (t : K)
    (cat : String)
    (hn : j ≠ .null) (ht : j.at1 "epoch_timestamp" = .ok (some t))
    (hw : t ≥ start ∧ t ≤ finish) (hcat : j.key "category" = .ok (.str cat)) :
    loadStep llStd cfg start finish nCams acc j = (do
      let acc ← if strIn "velocity" cat then do
          let f ← j.key "frame"
          let frame ← f.asStr
          loadVelocity cfg acc j t frame
        else pure acc
      let acc ← if strIn "orientation" cat then do
          let o ← Orient.fromJson {} j cfg.orientation
          pure { acc with orient := acc.orient ++ [o] }
        else pure acc
      let acc ← if strIn "depth" cat then do
          let o ← DepthM.fromJson {} j cfg.positionZ
          pure { acc with depth := acc.depth ++ [o] }
        else pure acc
      let acc ← if strIn "altitude" cat then do
          let o ← AltM.fromJson {} j
          pure { acc with alt := acc.alt ++ [o] }
        else pure acc
      let acc ← if strIn "usbl" cat then do
          let o ← UsblM.fromJson llStd {} j cfg.positionXY
          pure { acc with usbl := acc.usbl ++ [o] }
        else pure acc
      let acc ← if strIn "image" cat then do
          let o ← CamM.fromJson {} j "camera1"
          let acc : Loaded K := { acc with cam1 := acc.cam1 ++ [o] }
          if nCams > 1 ∧ j.has "camera2" then do
            let o ← CamM.fromJson {} j "camera2"
            pure { acc with cam2 := acc.cam2 ++ [o] }
          else pure acc
        else pure acc
      if strIn "laser" cat then do
        let o ← CamM.fromJson {} j "camera1"
        pure { acc with cam3 := acc.cam3 ++ [o] }
      else pure acc) := by
  cases j <;> first
    | exact absurd rfl hn
    | (unfold loadStep
       simp only [ht, hcat, bind, Except.bind, reqNum, hw, if_true, pure, Except.pure, asStr,
         and_self])

open Classical in
private theorem step_eq
    (llStd : Option K → Option K → Option K → Option K → K → K → Res (Option K × Option K))
    (start finish : K) (nCams : Nat) (acc : Loaded K) (m : Meas K) (hv : m.Valid) :
    loadStep llStd (cfgS : StdCfg K) start finish nCams acc m.json =
      .ok (if InWindow start finish m then
        { acc with
          body := acc.body ++ (pickBody m).toList
          inertial := acc.inertial ++ (pickInertial m).toList
          orient := acc.orient ++ (pickOrient m).toList
          depth := acc.depth ++ (pickDepth m).toList
          alt := acc.alt ++ (pickAlt m).toList
          usbl := acc.usbl ++ (pickUsbl m).toList
          cam1 := acc.cam1 ++ (pickCam1 m).toList
          cam2 := acc.cam2 ++ (pickCam2 nCams m).toList } else acc) := by
  have hc := cats
  have key : ∀ t, m.time = some t → (InWindow start finish m ↔ (t ≥ start ∧ t ≤ finish)) := by
    intro t ht
    simp [InWindow, ht]
  have hn : m.json ≠ .null := by cases m <;> intro h <;> cases h
  have htime : m.json.at1 "epoch_timestamp" = .ok m.time := by
    cases m <;>
      simp [Meas.json, Meas.time, BodyVel.toJson, InertialVel.toJson, Orient.toJson, DepthM.toJson,
        AltM.toJson, UsblM.toJson, CamM.toJson, stereoToJson, at1, Json.key, bind, Except.bind,
        asNum_ofOpt]
  have hsome : ∃ t, m.time = some t := by
    cases m <;> simp only [Meas.Valid, BodyVel.valid, InertialVel.valid, Orient.valid, DepthM.valid,
      AltM.valid, UsblM.valid, CamM.valid, Bool.and_eq_true, Option.isSome_iff_exists] at hv <;>
      simp only [Meas.time] <;> tauto
  obtain ⟨t, ht⟩ := hsome
  rw [ht] at htime
  rw [if_congr (key t ht) rfl rfl]
  by_cases hw : t ≥ start ∧ t ≤ finish
  swap
  · rw [if_neg hw, step_out _ _ _ _ _ _ _ t hn htime hw]
  rw [if_pos hw]
  cases m with
  | body s =>
    have hcat : (Meas.body s).json.key "category" = .ok (.str "velocity") := by
      simp [Meas.json, BodyVel.toJson, Json.key]
    have hfr : (Meas.body s).json.key "frame" = .ok (.str "body") := by
      simp [Meas.json, BodyVel.toJson, Json.key]
    have hdvl : (Meas.body s).json.has "epoch_timestamp_dvl" = true := by
      simp [Meas.json, BodyVel.toJson, Json.has]
    have hdt : (Meas.body s).json.at1 "epoch_timestamp_dvl" = .ok s.epochDvl := by
      simp [Meas.json, BodyVel.toJson, at1, Json.key, bind, Except.bind, asNum_ofOpt]
    have hr : BodyVel.fromJson {} (Meas.body s).json .sensor =
        .ok { s with epoch := s.epochDvl, epochDvl := none, sensor := "unknown" } := by
      obtain ⟨j, hj, hr⟩ := C27_body_velocity_partial s hv
      simp only [exportOplab, show s.valid = true from hv, if_true, Option.some.injEq] at hj
      rw [← hj] at hr; exact hr
    have hd : ∃ td, s.epochDvl = some td := by
      have := hv
      simp only [Meas.Valid, BodyVel.valid, Bool.and_eq_true, Option.isSome_iff_exists] at this
      tauto
    obtain ⟨td, hd⟩ := hd
    have ht' : s.epoch = some t := ht
    rw [step_in _ _ _ _ _ _ _ t "velocity" hn htime hw hcat]
    by_cases hlt : |t - td| < 1 <;>
      simp [hc, hfr, asStr, loadVelocity, hdvl, hdt, hd, reqNum, bind, Except.bind, pure, Except.pure,
        hlt, cfgS, hr, pickBody, pickInertial, pickOrient, pickDepth, pickAlt, pickUsbl, pickCam1,
        pickCam2, ht']
  | inertial s =>
    have hcat : (Meas.inertial s).json.key "category" = .ok (.str "velocity") := by
      simp [Meas.json, InertialVel.toJson, Json.key]
    have hfr : (Meas.inertial s).json.key "frame" = .ok (.str "inertial") := by
      simp [Meas.json, InertialVel.toJson, Json.key]
    have hr : InertialVel.fromJson {} (Meas.inertial s).json = .ok { s with sensor := "unknown" } := by
      obtain ⟨j, hj, hr⟩ := C27_inertial_velocity_round_trip s hv
      simp only [exportOplab, show s.valid = true from hv, if_true, Option.some.injEq] at hj
      rw [← hj] at hr; exact hr
    rw [step_in _ _ _ _ _ _ _ t "velocity" hn htime hw hcat]
    simp [hc, hfr, asStr, loadVelocity, bind, Except.bind, pure, Except.pure,
        hr, pickBody, pickInertial, pickOrient, pickDepth, pickAlt, pickUsbl, pickCam1, pickCam2]
  | orient s =>
    have hcat : (Meas.orient s).json.key "category" = .ok (.str "orientation") := by
      simp [Meas.json, Orient.toJson, Json.key]
    have hr : Orient.fromJson {} (Meas.orient s).json .sensor =
        .ok { s with sensor := "unknown" } := by
      obtain ⟨j, hj, hr⟩ := C27_orientation_round_trip s hv
      simp only [exportOplab, show s.valid = true from hv, if_true, Option.some.injEq] at hj
      rw [← hj] at hr; exact hr
    rw [step_in _ _ _ _ _ _ _ t "orientation" hn htime hw hcat]
    simp [hc, bind, Except.bind, pure, Except.pure, cfgS,
        hr, pickBody, pickInertial, pickOrient, pickDepth, pickAlt, pickUsbl, pickCam1, pickCam2]
  | depth s =>
    have hcat : (Meas.depth s).json.key "category" = .ok (.str "depth") := by
      simp [Meas.json, DepthM.toJson, Json.key]
    have hr : DepthM.fromJson {} (Meas.depth s).json .sensor =
        .ok { s with sensor := "unknown" } := by
      obtain ⟨j, hj, hr⟩ := C27_depth_round_trip s hv
      simp only [exportOplab, show s.valid = true from hv, if_true, Option.some.injEq] at hj
      rw [← hj] at hr; exact hr
    rw [step_in _ _ _ _ _ _ _ t "depth" hn htime hw hcat]
    simp [hc, bind, Except.bind, pure, Except.pure, cfgS,
        hr, pickBody, pickInertial, pickOrient, pickDepth, pickAlt, pickUsbl, pickCam1, pickCam2]
  | alt s =>
    have hcat : (Meas.alt s).json.key "category" = .ok (.str "altitude") := by
      simp [Meas.json, AltM.toJson, Json.key]
    have hr : AltM.fromJson {} (Meas.alt s).json =
        .ok { epoch := s.epoch, alt := s.alt, altStd := s.altStd } := by
      obtain ⟨j, hj, hr⟩ := C27_altitude_partial s hv
      simp only [exportOplab, show s.valid = true from hv, if_true, Option.some.injEq] at hj
      rw [← hj] at hr; exact hr
    rw [step_in _ _ _ _ _ _ _ t "altitude" hn htime hw hcat]
    simp [hc, bind, Except.bind, pure, Except.pure,
        hr, pickBody, pickInertial, pickOrient, pickDepth, pickAlt, pickUsbl, pickCam1, pickCam2]
  | usbl s =>
    have hcat : (Meas.usbl s).json.key "category" = .ok (.str "usbl") := by
      simp [Meas.json, UsblM.toJson, Json.key]
    have hr : UsblM.fromJson llStd {} (Meas.usbl s).json .sensor =
        .ok { s with sensor := "unknown" } := by
      obtain ⟨j, hj, hr⟩ := C27_usbl_round_trip llStd s hv
      simp only [exportOplab, show s.valid = true from hv, if_true, Option.some.injEq] at hj
      rw [← hj] at hr; exact hr
    rw [step_in _ _ _ _ _ _ _ t "usbl" hn htime hw hcat]
    simp [hc, bind, Except.bind, pure, Except.pure, cfgS,
        hr, pickBody, pickInertial, pickOrient, pickDepth, pickAlt, pickUsbl, pickCam1, pickCam2]
  | cam s =>
    have hcat : (Meas.cam s).json.key "category" = .ok (.str "image") := by
      simp [Meas.json, CamM.toJson, Json.key]
    have hr : CamM.fromJson {} (Meas.cam s).json "camera1" =
        .ok { s with sensor := "unknown" } := by
      obtain ⟨j, hj, hr⟩ := C27_camera_round_trip s hv
      simp only [exportOplab, show s.valid = true from hv, if_true, Option.some.injEq] at hj
      rw [← hj] at hr; exact hr
    have h2 : (Meas.cam s).json.has "camera2" = false := by
      simp [Meas.json, CamM.toJson, Json.has]
    rw [step_in _ _ _ _ _ _ _ t "image" hn htime hw hcat]
    simp [hc, bind, Except.bind, pure, Except.pure, h2,
        hr, pickBody, pickInertial, pickOrient, pickDepth, pickAlt, pickUsbl, pickCam1, pickCam2]
  | stereo l r n =>
    have hcat : (Meas.stereo l r n).json.key "category" = .ok (.str "image") := by
      simp [Meas.json, stereoToJson, Json.key]
    have h2 : (Meas.stereo l r n).json.has "camera2" = true := by
      simp [Meas.json, stereoToJson, Json.has]
    have hr := C27_stereo_round_trip l r n
    have hr1 : CamM.fromJson {} (Meas.stereo l r n).json "camera1" =
      .ok { l with sensor := "unknown" } := hr.1
    have hr2 : CamM.fromJson {} (Meas.stereo l r n).json "camera2" =
      .ok { r with sensor := "unknown" } := hr.2
    rw [step_in _ _ _ _ _ _ _ t "image" hn htime hw hcat]
    by_cases hk : nCams > 1 <;>
      simp [hc, bind, Except.bind, pure, Except.pure, h2, hr1, hr2, hk,
        pickBody, pickInertial, pickOrient, pickDepth, pickAlt, pickUsbl, pickCam1, pickCam2]

private theorem load_aux
    (llStd : Option K → Option K → Option K → Option K → K → K → Res (Option K × Option K))
    (start finish : K) (nCams : Nat) (ms : List (Meas K)) (hv : ∀ m ∈ ms, m.Valid) (acc : Loaded K) :
    (ms.map Meas.json).foldlM (loadStep llStd (cfgS : StdCfg K) start finish nCams) acc = .ok
      { acc with
        body := acc.body ++ wanted start finish pickBody ms
        inertial := acc.inertial ++ wanted start finish pickInertial ms
        orient := acc.orient ++ wanted start finish pickOrient ms
        depth := acc.depth ++ wanted start finish pickDepth ms
        alt := acc.alt ++ wanted start finish pickAlt ms
        usbl := acc.usbl ++ wanted start finish pickUsbl ms
        cam1 := acc.cam1 ++ wanted start finish pickCam1 ms
        cam2 := acc.cam2 ++ wanted start finish (pickCam2 nCams) ms } := by
  induction ms generalizing acc with
  | nil => simp [wanted, pure, Except.pure]
  | cons m ms ih =>
    rw [List.map_cons, List.foldlM_cons, step_eq _ _ _ _ _ _ (hv m (by simp))]
    simp only [bind, Except.bind]
    rw [ih (fun x hx => hv x (by simp [hx]))]
    simp only [wanted_cons]
    by_cases h : InWindow start finish m <;> simp [h]

/-- C66: loading the records of any sequence of exported measurements never fails and puts
every measurement inside the closed time window, and no other, into the list of its own
kind, in file order.  Body velocities are moreover dropped when the DVL clock differs by a
second or more, and second-camera images when the mission has one camera. -/
theorem C66_load_window
    (llStd : Option K → Option K → Option K → Option K → K → K → Res (Option K × Option K))
    (start finish : K) (nCams : Nat) (ms : List (Meas K)) (hv : ∀ m ∈ ms, m.Valid) :
    loadAll llStd ⟨.sensor, .sensor, .sensor, .sensor⟩ start finish nCams (ms.map Meas.json) =
      .ok { body := wanted start finish pickBody ms
            inertial := wanted start finish pickInertial ms
            orient := wanted start finish pickOrient ms
            depth := wanted start finish pickDepth ms
            alt := wanted start finish pickAlt ms
            usbl := wanted start finish pickUsbl ms
            cam1 := wanted start finish pickCam1 ms
            cam2 := wanted start finish (pickCam2 nCams) ms
            cam3 := [] } := by
  have := load_aux llStd start finish nCams ms hv {}
  simpa [loadAll, cfgS] using this

example : ∀ m ∈ [Meas.depth (⟨some 5, some 5, some 20, none, "phins"⟩ : DepthM ℚ),
    .stereo ⟨some 6, "a.tif", "c"⟩ ⟨some 6, "b.tif", "c"⟩ "c",
    .body ⟨some 5, some 7, some 1, some 0, none, none, none, none, "phins"⟩], m.Valid := by
  simp [Meas.Valid, DepthM.valid, CamM.valid, BodyVel.valid]

/-- C66: the time of a loaded body velocity can lie outside the requested window, because
the window is applied to the vehicle's clock and the object carries the DVL's. -/
theorem C66_body_velocity_window_false :
    ∃ (ms : List (Meas ℚ)) (start finish : ℚ), (∀ m ∈ ms, m.Valid) ∧
      ∃ v ∈ wanted start finish pickBody ms, ∃ t, v.epoch = some t ∧ finish < t := by
  refine ⟨[.body ⟨some 5, some (11/2), some 1, some 0, none, none, none, none, "phins"⟩], 0, 5,
    by simp [Meas.Valid, BodyVel.valid], ?_⟩
  have hw : InWindow (0 : ℚ) 5
      (.body ⟨some 5, some (11/2), some 1, some 0, none, none, none, none, "phins"⟩) :=
    ⟨5, rfl, by norm_num, by norm_num⟩
  refine ⟨⟨some (11/2), none, some 1, some 0, none, none, none, none, "unknown"⟩, ?_, 11/2, rfl,
    by norm_num⟩
  have habs : |(5:ℚ) - 11/2| < 1 := by norm_num [abs_lt]
  rw [wanted_cons, if_pos hw]
  simp only [pickBody, if_pos habs]
  simp

end Oplab.Props
