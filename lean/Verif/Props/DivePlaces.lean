import Verif.Spec.DivePlaces
import Mathlib.Tactic.NormNum

/-! C263: where devices sit. -/

namespace Oplab.Props
open Oplab Oplab.Spec

private theorem bind_ok {α β : Type} {x : Res α} {f : α → Res β} {c : β} (h : (x >>= f) = .ok c) :
    ∃ a, x = .ok a ∧ f a = .ok c := by
  cases x with
  | error e => exact absurd h (by intro h; cases h)
  | ok a => exact ⟨a, rfl, h⟩

private theorem req_ok {n : Node} {k : String} {v : Y} (h : n.req k = .ok v) : n.lookup k = some v := by
  unfold Node.req at h
  cases e : n.lookup k with
  | none => rw [e] at h; cases h
  | some w => rw [e] at h; cases h; rfl

private theorem offset_ok {s t : SensorOffset} {n m : Node} (hp : PresentFormat n) (h : offsetLoad s n m = .ok t) : GivenBy n t := by
  unfold offsetLoad at h
  rw [if_pos (show (List.lookup "surge_m" n).isSome = true from hp)] at h
  obtain ⟨a, ha, h⟩ := bind_ok h
  obtain ⟨b, hb, h⟩ := bind_ok h
  obtain ⟨c, hc, h⟩ := bind_ok h
  obtain ⟨d, hd, h⟩ := bind_ok h
  obtain ⟨e, he, h⟩ := bind_ok h
  obtain ⟨f, hf, h⟩ := bind_ok h
  cases h
  exact ⟨req_ok ha, req_ok hb, req_ok hc, req_ok hd, req_ok he, req_ok hf⟩

private theorem frame_ok {data p : Node} {key : String} {mission : Res Node} {o : Option SensorOffset}
    (h : frameLoad data key mission = .ok o) (hk : data.lookup key = some (.dict p)) (hp : PresentFormat p) :
    ∃ s, o = some s ∧ GivenBy p s := by
  unfold frameLoad at h
  rw [hk] at h
  obtain ⟨m, hm, h⟩ := bind_ok h
  obtain ⟨n, hn, h⟩ := bind_ok h
  obtain ⟨s, hs, h⟩ := bind_ok h
  cases h
  cases hn
  exact ⟨s, rfl, offset_ok hp hs⟩

private theorem vehicle_ok {data mission : Node} {cams : List CamEntry} {v : VehicleData} (h : vehicleLoad data mission cams = .ok v) :
    (∃ r, frameLoad data "ins" r = .ok v.ins) ∧ (∃ r, frameLoad data "dvl" r = .ok v.dvl) ∧
    (∃ r, frameLoad data "depth" r = .ok v.depth) ∧ (∃ r, frameLoad data "usbl" r = .ok v.usbl) ∧
    vehicleCamera data cams 0 = .ok v.camera1 ∧ vehicleCamera data cams 1 = .ok v.camera2 ∧ vehicleCamera data cams 2 = .ok v.camera3 := by
  unfold vehicleLoad at h
  obtain ⟨a, ha, h⟩ := bind_ok h
  obtain ⟨b, hb, h⟩ := bind_ok h
  obtain ⟨c, hc, h⟩ := bind_ok h
  obtain ⟨d, hd, h⟩ := bind_ok h
  obtain ⟨e, he, h⟩ := bind_ok h
  obtain ⟨f, hf, h⟩ := bind_ok h
  obtain ⟨g, hg, h⟩ := bind_ok h
  obtain ⟨i, hi, h⟩ := bind_ok h
  obtain ⟨j, hj, h⟩ := bind_ok h
  cases h
  exact ⟨⟨_, hb⟩, ⟨_, hc⟩, ⟨_, hd⟩, ⟨_, he⟩, hf, hg, hi⟩

private theorem dive_ok {toFloat : String → Option ℚ} {mission vehicle : Node} {m : MissionData} {v : VehicleData}
    (h : diveLoad toFloat mission vehicle = .ok (m, v)) :
    missionLoad toFloat mission vehicle = .ok m ∧ vehicleLoad vehicle mission (missionCameras m) = .ok v := by
  unfold diveLoad at h
  obtain ⟨a, ha, h⟩ := bind_ok h
  obtain ⟨b, hb, h⟩ := bind_ok h
  cases h
  exact ⟨ha, hb⟩

/-- **C263** (partial: `origin` not given, or the default): a device sits where the node of vehicle.yaml says. -/
theorem C263_device_partial (d : Device) (hd : d ∈ devices) (toFloat : String → Option ℚ) (mission vehicle : Node)
    (m : MissionData) (v : VehicleData) (n p : Node) (h : diveLoad toFloat mission vehicle = .ok (m, v))
    (_ : mission.lookup d.key = some (.dict n)) (hf : frameOf n d = .str d.frame)
    (hp : vehicle.lookup d.frame = some (.dict p)) (hpf : PresentFormat p) :
    ∃ s, d.place v = some s ∧ GivenBy p s := by
  obtain ⟨⟨_, h1⟩, ⟨_, h2⟩, ⟨_, h3⟩, ⟨_, h4⟩, _⟩ := vehicle_ok (dive_ok h).2
  simp only [devices, List.mem_cons, List.not_mem_nil, or_false] at hd
  rcases hd with rfl | rfl | rfl | rfl | rfl
  · exact frame_ok h2 hp hpf
  · exact frame_ok h1 hp hpf
  · exact frame_ok h3 hp hpf
  · exact frame_ok h2 hp hpf
  · exact frame_ok h4 hp hpf

private theorem mapM_ok {α β : Type} {f : α → Res β} {l : List α} {r : List β} (h : l.mapM f = .ok r) {k : Nat} {y : α}
    (hk : l[k]? = some y) : ∃ c, r[k]? = some c ∧ f y = .ok c := by
  induction l generalizing r k with
  | nil => simp at hk
  | cons a l ih =>
    rw [List.mapM_cons] at h
    obtain ⟨b, hb, h⟩ := bind_ok h
    obtain ⟨s, hs, h⟩ := bind_ok h
    cases h
    cases k with
    | zero =>
      simp only [List.getElem?_cons_zero, Option.some.injEq] at hk ⊢
      exact ⟨b, rfl, hk ▸ hb⟩
    | succ k =>
      simp only [List.getElem?_cons_succ] at hk ⊢
      exact ih hs hk

private theorem known_ok {vehicle : Node} {cams : List CamEntry} (h : camerasKnown vehicle cams = .ok ()) :
    ∀ c ∈ cams, ∃ o, c.origin = .str o := by
  induction cams with
  | nil => simp
  | cons c cs ih =>
    unfold camerasKnown at h
    intro d hd
    cases ho : c.origin with
    | str o =>
      rw [ho] at h
      simp only at h
      split at h
      · simp only [List.mem_cons] at hd
        rcases hd with rfl | hd
        · exact ⟨o, ho⟩
        · exact ih h d hd
      · cases h
    | null => rw [ho] at h; cases h
    | bool b => rw [ho] at h; cases h
    | num b => rw [ho] at h; cases h
    | list b => rw [ho] at h; cases h
    | dict b => rw [ho] at h; cases h

private theorem origin_ok {n : Node} {name o : Y} (h : camOrigin n name = .ok o) : o = (n.lookup "origin").getD .null := by
  unfold camOrigin at h
  cases e : n.lookup "origin" with
  | none => rw [e] at h; cases h; rfl
  | some w =>
    rw [e] at h
    obtain ⟨_, _, h⟩ := bind_ok h
    obtain ⟨_, _, h⟩ := bind_ok h
    cases h
    rfl

private theorem cam_ok {n : Node} {c : CamEntry} (h : camLoad (.dict n) = .ok c) :
    n.lookup "name" = some c.name ∧ c.origin = (n.lookup "origin").getD .null := by
  change (Y.asDict .typeError (.dict n) >>= fun n => camLoadDict n) = _ at h
  obtain ⟨n', hn, h⟩ := bind_ok h
  cases hn
  unfold camLoadDict at h
  obtain ⟨name, h1, h⟩ := bind_ok h
  obtain ⟨_, _, h⟩ := bind_ok h
  obtain ⟨_, _, h⟩ := bind_ok h
  obtain ⟨o, h2, h⟩ := bind_ok h
  cases h
  exact ⟨req_ok h1, origin_ok h2⟩

private theorem new_ok {i : Node} {l : List Node} {cams : List CamEntry} (hl : i.lookup "cameras" = some (.list (l.map .dict)))
    (h : camerasNew i = .ok cams) :
    ∃ first cs, l.head? = some first ∧ (l.map Y.dict).mapM camLoad = .ok cs ∧
      cams = if (first.lookup "origin").isSome = true then cs else cs.map fun c => { c with origin := c.name } := by
  unfold camerasNew at h
  have hr : i.req "cameras" = .ok (.list (l.map .dict)) := by unfold Node.req; rw [hl]
  rw [hr] at h
  change ((l.map Y.dict).mapM camLoad >>= _) = _ at h
  obtain ⟨cs, hcs, h⟩ := bind_ok h
  obtain ⟨b, hb, h⟩ := bind_ok h
  cases l with
  | nil => cases hb
  | cons f l =>
    refine ⟨f, cs, rfl, hcs, ?_⟩
    cases hb
    cases hf : (f.lookup "origin").isSome with
    | true => rw [hf] at h; cases h; simp
    | false => rw [hf] at h; cases h; simp

private theorem mission_cams {toFloat : String → Option ℚ} {mission vehicle : Node} {m : MissionData} {l : List Node}
    (h : missionLoad toFloat mission vehicle = .ok m) (hl : ListsCameras mission l) :
    ∃ i cams, i.lookup "cameras" = some (.list (l.map .dict)) ∧ camerasNew i = .ok cams ∧ camerasKnown vehicle cams = .ok () ∧
      missionCameras m = cams := by
  obtain ⟨⟨w, hv, hw⟩, i, hi, hc⟩ := hl
  unfold missionLoad at h
  obtain ⟨_, _, h⟩ := bind_ok h
  obtain ⟨_, _, h⟩ := bind_ok h
  obtain ⟨_, _, h⟩ := bind_ok h
  obtain ⟨_, _, h⟩ := bind_ok h
  obtain ⟨_, _, h⟩ := bind_ok h
  obtain ⟨_, _, h⟩ := bind_ok h
  obtain ⟨_, _, h⟩ := bind_ok h
  obtain ⟨_, _, h⟩ := bind_ok h
  obtain ⟨_, _, h⟩ := bind_ok h
  obtain ⟨_, _, h⟩ := bind_ok h
  obtain ⟨im, him, h⟩ := bind_ok h
  obtain ⟨_, _, h⟩ := bind_ok h
  cases h
  have hver : mission.getD "version" (.num 0) = .num w := by unfold Node.getD; rw [hv]; rfl
  unfold imageEntryLoad at him
  rw [hi, hver] at him
  obtain ⟨n, hn, him⟩ := bind_ok him
  cases hn
  obtain ⟨e, he, him⟩ := bind_ok him
  obtain ⟨u, hu, him⟩ := bind_ok him
  cases him
  unfold imageLoad at he
  obtain ⟨_, _, he⟩ := bind_ok he
  obtain ⟨_, _, he⟩ := bind_ok he
  obtain ⟨q, hq, he⟩ := bind_ok he
  cases hq
  rw [if_pos hw] at he
  obtain ⟨cams, hcams, he⟩ := bind_ok he
  cases he
  exact ⟨i, cams, hc, hcams, hu, rfl⟩

private theorem camera_ok {data p : Node} {cams : List CamEntry} {k : Nat} {c : CamEntry} {frame : String} {o : Option SensorOffset}
    (h : vehicleCamera data cams k = .ok o) (hc : cams[k]? = some c) (hf : camFrame c = .str frame)
    (hk : data.lookup frame = some (.dict p)) (hp : PresentFormat p) : ∃ s, o = some s ∧ GivenBy p s := by
  unfold vehicleCamera at h
  rw [hc] at h
  simp only [hf, hk] at h
  obtain ⟨n, hn, h⟩ := bind_ok h
  obtain ⟨s, hs, h⟩ := bind_ok h
  cases h
  cases hn
  exact ⟨s, rfl, offset_ok hp hs⟩

/-- **C263** (partial: the first camera has an `origin` if the camera has one): the first three cameras sit where the node named by
their `origin`, or else by their name, says. -/
theorem C263_cameras_partial (toFloat : String → Option ℚ) (mission vehicle : Node) (m : MissionData) (v : VehicleData)
    (l : List Node) (k : Nat) (n p : Node) (frame : String) (h : diveLoad toFloat mission vehicle = .ok (m, v))
    (hl : ListsCameras mission l) (hk : k < 3) (hn : l[k]? = some n) (hf : cameraFrame n = .str frame)
    (hp : vehicle.lookup frame = some (.dict p)) (hpf : PresentFormat p)
    (hfirst : (n.lookup "origin").isSome = true → ∀ first, l.head? = some first → (first.lookup "origin").isSome = true) :
    ∃ s, cameraPlace v k = some s ∧ GivenBy p s := by
  obtain ⟨hm, hv⟩ := dive_ok h
  obtain ⟨_, _, _, _, c1, c2, c3⟩ := vehicle_ok hv
  obtain ⟨i, cams, hi, hnew, hkn, hmc⟩ := mission_cams hm hl
  obtain ⟨first, cs, h1, h2, h3⟩ := new_ok hi hnew
  have hy : (l.map Y.dict)[k]? = some (.dict n) := by simp [hn]
  obtain ⟨c, hc, hcl⟩ := mapM_ok h2 hy
  obtain ⟨hname, horig⟩ := cam_ok hcl
  have hfr : ∃ d, cams[k]? = some d ∧ camFrame d = .str frame := by
    by_cases ho : (first.lookup "origin").isSome = true
    · rw [if_pos ho] at h3
      subst h3
      refine ⟨c, hc, ?_⟩
      obtain ⟨o, hco⟩ := known_ok hkn c (List.mem_of_getElem? hc)
      have : cameraFrame n = .str o := by
        unfold cameraFrame
        rw [hco] at horig
        cases e : n.lookup "origin" with
        | none => rw [e] at horig; cases horig
        | some w => rw [e] at horig; exact horig.symm
      rw [this] at hf
      unfold camFrame
      rw [hco]
      exact hf
    · rw [if_neg ho] at h3
      subst h3
      refine ⟨{ c with origin := c.name }, by simp [hc], ?_⟩
      have hno : n.lookup "origin" = none := by
        cases e : n.lookup "origin" with
        | none => rfl
        | some w => exact absurd (hfirst (by rw [e]; rfl) first h1) ho
      have : cameraFrame n = c.name := by
        unfold cameraFrame Node.getD
        rw [hno, hname]
        rfl
      rw [this] at hf
      unfold camFrame
      simp only [hf]
  obtain ⟨d, hd, hdf⟩ := hfr
  rw [hmc] at c1 c2 c3
  match k, hk with
  | 0, _ => exact camera_ok c1 hd hdf hp hpf
  | 1, _ => exact camera_ok c2 hd hdf hp hpf
  | 2, _ => exact camera_ok c3 hd hdf hp hpf

/-- A node of vehicle.yaml with a given surge. -/
private def nodeAt (q : ℚ) : Node :=
  [("surge_m", .num q), ("sway_m", .num 0), ("heave_m", .num 0), ("roll_deg", .num 0), ("pitch_deg", .num 0), ("yaw_deg", .num 0)]

private def originNode : Y :=
  .dict [("latitude", .num 50), ("longitude", .num (-1)), ("coordinate_reference_system", .str "wgs84"), ("date", .str "2020/01/01")]

private def offsetAt (q : ℚ) : SensorOffset := ⟨.num q, .num 0, .num 0, .num 0, .num 0, .num 0⟩

private def noFloat : String → Option ℚ := fun _ => none

private def twoMission : Node :=
  [("version", .num 2), ("origin", originNode), ("velocity", .dict [("format", .str "rdi"), ("origin", .str "dvl_aft")])]

private def twoVehicle : Node := [("dvl", .dict (nodeAt 1)), ("dvl_aft", .dict (nodeAt (-1)))]

private theorem two_load : ∃ m, diveLoad noFloat twoMission twoVehicle =
    .ok (m, ⟨none, none, some (offsetAt 1), none, none, none, none, none, []⟩) := ⟨_, rfl⟩

/-- **C263**: the `origin` of a sensor in mission.yaml is checked, but the sensor sits at the default frame all the same. -/
theorem C263_device_false : ¬ ∀ d ∈ devices, Sits d := by
  intro h
  obtain ⟨m, hm⟩ := two_load
  obtain ⟨s, h1, h2⟩ := h ⟨"velocity", "dvl", (·.dvl)⟩ (by simp [devices]) noFloat twoMission twoVehicle m _
    [("format", .str "rdi"), ("origin", .str "dvl_aft")] "dvl_aft" (nodeAt (-1)) hm rfl rfl rfl rfl
  have e : offsetAt 1 = s := Option.some.inj h1
  subst e
  have e2 : some (Y.num (-1)) = some (Y.num 1) := h2.1
  norm_num at e2

private def camMission : Node :=
  [("version", .num 2), ("origin", originNode), ("image", .dict [("format", .str "biocam"),
    ("cameras", .list ([[("name", .str "a"), ("path", .str "x")], [("name", .str "b"), ("path", .str "y"), ("origin", .str "c")]].map Y.dict))])]

private def camVehicle : Node := [("a", .dict (nodeAt 1)), ("b", .dict (nodeAt 2)), ("c", .dict (nodeAt 3))]

private theorem cam_load : ∃ m, diveLoad noFloat camMission camVehicle =
    .ok (m, ⟨none, none, none, none, none, some (offsetAt 1), some (offsetAt 2), none, []⟩) := ⟨_, rfl⟩

/-- **C263**: if the first camera has no `origin`, those of the others are replaced by their names. -/
theorem C263_cameras_false : ¬ CamerasSit := by
  intro h
  obtain ⟨m, hm⟩ := cam_load
  obtain ⟨s, h1, h2⟩ := h noFloat camMission camVehicle m _
    [[("name", .str "a"), ("path", .str "x")], [("name", .str "b"), ("path", .str "y"), ("origin", .str "c")]] 1 _ "c" (nodeAt 3) hm
    ⟨⟨2, rfl, by norm_num⟩, _, rfl, rfl⟩ (by norm_num) rfl rfl rfl rfl
  have e : offsetAt 2 = s := Option.some.inj h1
  subst e
  have e2 : some (Y.num 3) = some (Y.num 2) := h2.1
  norm_num at e2

/-- **C263**: if the first camera has an `origin`, the others need one, too: otherwise the program ends. -/
theorem C263_optional_false : ¬ OriginOptional := by
  intro h
  have hc := h [("a", .null), ("b", .null)]
    [[("name", .str "a"), ("path", .str "x"), ("origin", .str "a")], [("name", .str "b"), ("path", .str "y")]]
    [("cameras", .list ([[("name", .str "a"), ("path", .str "x"), ("origin", .str "a")], [("name", .str "b"), ("path", .str "y")]].map Y.dict))]
    (by simp) rfl (by
      intro n hn
      simp only [List.mem_cons, List.not_mem_nil, or_false] at hn
      rcases hn with rfl | rfl
      · exact ⟨_, _, _, rfl, rfl, rfl, rfl⟩
      · exact ⟨_, _, _, rfl, rfl, rfl, rfl⟩)
  obtain ⟨cams, h1, h2⟩ := hc
  have e : camerasNew [("cameras", .list ([[("name", .str "a"), ("path", .str "x"), ("origin", .str "a")],
      [("name", .str "b"), ("path", .str "y")]].map Y.dict))] =
    .ok [⟨.str "a", .bool false, .str "a", .str "x", .null, .num 0, .null⟩, ⟨.str "b", .bool false, .null, .str "y", .null, .num 0, .null⟩] := rfl
  rw [e] at h1
  cases h1
  cases h2

/-- **C263**: a mission without a date cannot be read, and the mission.yaml in the manual has none. -/
theorem C263_manual_false : ¬ ReadsManual := by
  rintro ⟨r, h⟩
  cases h

/-- **C263**: heading offsets of old files: a DVL and an INS described with `x_offset` have the `headingoffset` of the mission as yaw. -/
theorem C263_heading (vehicle mission : Node) (cams : List CamEntry) (v : VehicleData) (o d vn : Node)
    (h : vehicleLoad vehicle mission cams = .ok v) (ho : vehicle.lookup "origin" = some (.dict o))
    (hx : (o.lookup "x_offset").isSome = true) (hd : vehicle.lookup "dvl" = some (.dict d)) (hs : d.lookup "surge_m" = none)
    (hdx : (d.lookup "x_offset").isSome = true) (hm : mission.lookup "velocity" = some (.dict vn)) :
    ∃ s, v.dvl = some s ∧ s.yaw = (vn.lookup "headingoffset").getD (.num 0) ∧ d.lookup "x_offset" = some s.surge ∧
      d.lookup "y_offset" = some s.sway ∧ d.lookup "z_offset" = some s.heave := by
  unfold vehicleLoad at h
  obtain ⟨a, ha, h⟩ := bind_ok h
  obtain ⟨b, hb, h⟩ := bind_ok h
  obtain ⟨c, hc, h⟩ := bind_ok h
  obtain ⟨_, _, h⟩ := bind_ok h
  obtain ⟨_, _, h⟩ := bind_ok h
  obtain ⟨_, _, h⟩ := bind_ok h
  obtain ⟨_, _, h⟩ := bind_ok h
  obtain ⟨_, _, h⟩ := bind_ok h
  obtain ⟨_, _, h⟩ := bind_ok h
  cases h
  have hr : missionNodeFor vehicle mission "velocity" = .ok vn := by
    unfold missionNodeFor Node.req
    rw [ho]
    simp only [hx, if_true, hm]
    rfl
  unfold frameLoad at hc
  rw [hd, hr] at hc
  obtain ⟨m', hm', hc⟩ := bind_ok hc
  obtain ⟨n', hn', hc⟩ := bind_ok hc
  obtain ⟨s, hs', hc⟩ := bind_ok hc
  cases hc
  cases hm'
  cases hn'
  refine ⟨s, rfl, ?_⟩
  unfold offsetLoad at hs'
  rw [if_neg (by simp [hs]), if_pos hdx] at hs'
  obtain ⟨x, h1, hs'⟩ := bind_ok hs'
  obtain ⟨y, h2, hs'⟩ := bind_ok hs'
  obtain ⟨z, h3, hs'⟩ := bind_ok hs'
  cases hs'
  exact ⟨rfl, req_ok h1, req_ok h2, req_ok h3⟩

-- The two dives above are read, and their first devices sit as expected.
example : ∃ m v s, diveLoad noFloat camMission camVehicle = .ok (m, v) ∧ cameraPlace v 0 = some s ∧ GivenBy (nodeAt 1) s := by
  obtain ⟨m, hm⟩ := cam_load
  obtain ⟨s, h⟩ := C263_cameras_partial noFloat camMission camVehicle m _
    [[("name", .str "a"), ("path", .str "x")], [("name", .str "b"), ("path", .str "y"), ("origin", .str "c")]] 0 _ (nodeAt 1) "a" hm
    ⟨⟨2, rfl, by norm_num⟩, _, rfl, rfl⟩ (by norm_num) rfl rfl rfl rfl (by intro h; cases h)
  exact ⟨m, _, s, hm, h⟩

end Oplab.Props
