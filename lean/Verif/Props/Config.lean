import Verif.Spec.Config
import Mathlib.Tactic.Common

/-! # C43: vehicle.yaml; C44: mission.yaml -/

namespace Oplab.Props
open Oplab Oplab.Spec

private theorem lookup_filter_ne (n : Node) (k k' : String) (h : k ≠ k') :
    (n.filter (fun p => p.1 ≠ k')).lookup k = n.lookup k := by
  induction n with
  | nil => rfl
  | cons p t ih =>
    obtain ⟨a, v⟩ := p
    by_cases e : a = k'
    · have hk : (k == a) = false := by simp [e, h]
      rw [List.filter_cons_of_neg (by simp [e]), ih, List.lookup_cons, hk]
    · rw [List.filter_cons_of_pos (by simp [e]), List.lookup_cons, List.lookup_cons, ih]

private theorem lookup_copy (n : Node) (v : Y) (k : String) (h : k ≠ "metadata") :
    (copyWithMetadata n v).lookup k = n.lookup k := by
  have hk : (k == "metadata") = false := by simp [h]
  unfold copyWithMetadata Node.setKey
  rw [List.lookup_append, lookup_filter_ne n k _ h]
  simp [List.lookup, hk]

/-! ## C43 -/

/-- C43: writing an offset and loading it gives the same offset, whatever the loading object held before and
whatever mission.yaml says. -/
theorem C43_round_trip (s s0 : SensorOffset) (mission : Node) :
    offsetLoad s0 (offsetWrite s) mission = .ok s := by
  simp [offsetLoad, offsetWrite, Node.req, List.lookup, bind, Except.bind]

example : offsetLoad .zero (offsetWrite ⟨.num 1, .num 2, .num 3, .num 0, .num 0, .num 45⟩) [] =
    .ok ⟨.num 1, .num 2, .num 3, .num 0, .num 0, .num 45⟩ := rfl

/-- C43: a node in the old format and one in the new format with the same three distances load to the same
position. The old format has no roll and pitch, and takes its yaw from mission.yaml. -/
theorem C43_old_and_new (old new mission : Node) (x y z r p w : Y)
    (h0 : old.lookup "surge_m" = none)
    (h1 : old.lookup "x_offset" = some x) (h2 : old.lookup "y_offset" = some y)
    (h3 : old.lookup "z_offset" = some z)
    (n1 : new.lookup "surge_m" = some x) (n2 : new.lookup "sway_m" = some y)
    (n3 : new.lookup "heave_m" = some z) (n4 : new.lookup "roll_deg" = some r)
    (n5 : new.lookup "pitch_deg" = some p) (n6 : new.lookup "yaw_deg" = some w) :
    ∃ a b, offsetLoad .zero old mission = .ok a ∧ offsetLoad .zero new mission = .ok b ∧
      a.surge = b.surge ∧ a.sway = b.sway ∧ a.heave = b.heave ∧
      b = ⟨x, y, z, r, p, w⟩ ∧
      a = ⟨x, y, z, .num 0, .num 0, (mission.lookup "headingoffset").getD (.num 0)⟩ := by
  refine ⟨⟨x, y, z, .num 0, .num 0, (mission.lookup "headingoffset").getD (.num 0)⟩, ⟨x, y, z, r, p, w⟩,
    ?_, ?_, rfl, rfl, rfl, rfl, rfl⟩
  · simp [offsetLoad, Node.req, h0, h1, h2, h3, bind, Except.bind, Node.getD, SensorOffset.zero]
  · simp [offsetLoad, Node.req, n1, n2, n3, n4, n5, n6, bind, Except.bind]

example : offsetLoad .zero [("x_offset", .num 1), ("y_offset", .num 2), ("z_offset", .num 3)]
    [("headingoffset", .num 45)] = .ok ⟨.num 1, .num 2, .num 3, .num 0, .num 0, .num 45⟩ := rfl

/-- C43: a node in the new format that lacks one of the six entries is refused. -/
theorem C43_incomplete (n mission : Node) (k : String)
    (hk : k ∈ ["sway_m", "heave_m", "roll_deg", "pitch_deg", "yaw_deg"])
    (h0 : (n.lookup "surge_m").isSome) (h : n.lookup k = none) (s0 : SensorOffset) :
    offsetLoad s0 n mission = .error .keyError := by
  obtain ⟨v, hv⟩ := Option.isSome_iff_exists.1 h0
  simp only [List.mem_cons, List.not_mem_nil, or_false] at hk
  unfold offsetLoad
  rw [if_pos h0]
  unfold Node.req
  rw [hv]
  rcases hk with rfl | rfl | rfl | rfl | rfl <;> rw [h] <;>
    cases n.lookup "sway_m" <;> cases n.lookup "heave_m" <;> cases n.lookup "roll_deg" <;>
    cases n.lookup "pitch_deg" <;> rfl

/-- C43: a node with neither spelling is accepted silently as the zero offset. -/
theorem C43_unknown_format (n mission : Node) (h1 : n.lookup "surge_m" = none)
    (h2 : n.lookup "x_offset" = none) : offsetLoad .zero n mission = .ok .zero := by
  simp [offsetLoad, h1, h2]

/-- C43: loading a copy of vehicle.yaml with the appended metadata gives the same vehicle, unless a camera is
mounted at a frame called "metadata". -/
theorem C43_vehicle_copy (data missionData : Node) (cams : List CamEntry) (md : Y)
    (h : ∀ c ∈ cams, c.origin ≠ .str "metadata" ∧ c.name ≠ .str "metadata") :
    vehicleLoad (copyWithMetadata data md) missionData cams = vehicleLoad data missionData cams := by
  have L := lookup_copy data md
  have hc : ∀ i, vehicleCamera (copyWithMetadata data md) cams i = vehicleCamera data cams i := by
    intro i
    unfold vehicleCamera
    cases e : cams[i]? with
    | none => rfl
    | some c =>
      have hm := h c (List.mem_of_getElem? e)
      have hkey : camFrame c ≠ Y.str "metadata" := by
        unfold camFrame
        cases ho : c.origin with
        | null => exact hm.2
        | str t => simpa [ho] using hm.1
        | bool b => intro x; cases x
        | num b => intro x; cases x
        | list b => intro x; cases x
        | dict b => intro x; cases x
      simp only []
      generalize camFrame c = key at *
      cases key with
      | str k => simp only [L k (fun e => hkey (e ▸ rfl))]
      | null => rfl
      | bool b => rfl
      | num q => rfl
      | list l => rfl
      | dict d => rfl
  simp only [vehicleLoad, frameLoad, missionNodeFor, vehiclePayloadsLoad, hc,
    L "origin" (by decide), L "ins" (by decide), L "dvl" (by decide), L "depth" (by decide),
    L "usbl" (by decide), L "payloads" (by decide)]

example : ∀ c ∈ [{ camEmpty with name := .str "fore", origin := .str "camera1" }],
    c.origin ≠ .str "metadata" ∧ c.name ≠ .str "metadata" := by
  simp [camEmpty]

/-! ## C44 -/

/-- C44: writing a mission loaded from a file (a copy with appended metadata) and loading the result gives the
same settings, or the same failure. -/
theorem C44_loaded (toFloat : String → Option ℚ) (data vehicle : Node) (md : Y) :
    missionLoad toFloat (copyWithMetadata data md) vehicle = missionLoad toFloat data vehicle := by
  have L := lookup_copy data md
  simp only [missionLoad, framedLoad, plainLoad, imageEntryLoad, payloadsLoad, Node.req, Node.getD,
    L "version" (by decide), L "origin" (by decide), L "velocity" (by decide), L "orientation" (by decide),
    L "depth" (by decide), L "altitude" (by decide), L "usbl" (by decide), L "tide" (by decide),
    L "dead_reckoning" (by decide), L "image" (by decide), L "payloads" (by decide)]

example : ∃ m, missionLoad (fun _ => none)
    (copyWithMetadata [("version", .num 1), ("origin", .dict [("latitude", .num 50), ("longitude", .num 4),
      ("coordinate_reference_system", .str "wgs84"), ("date", .str "2026/11/16")]),
      ("usbl", .dict [("format", .str "gaps"), ("topic", .str "/usbl"), ("field_id", .num 4)])] .null)
    [("usbl", .dict [])] = .ok m ∧ ∃ s, m.usbl = some s ∧ s.origin = some (.str "usbl") := ⟨_, rfl, _, rfl, rfl⟩

private theorem tz_round (toFloat : String → Option ℚ) (t : TzEntry) (rest : Node) :
    tzLoad toFloat (tzWrite t ++ rest) = .ok t := by
  simp [tzLoad, tzWrite, Node.getD, List.lookup, Y.asTz, Y.asNum, missionTimezone, bind, Except.bind]

/-- C44, in memory: an entry written to a dictionary and loaded back keeps its time zone, format, path, file,
label and standard deviations, and always loses its topic, USBL field, filters and frame. -/
theorem C44_settings_dropped_false (toFloat : String → Option ℚ) (s : SensorEntry) :
    sensorLoad toFloat (sensorWrite s) =
      .ok { s with topic := .null, fieldId := .num 0, depthFilter := .bool true,
                   northEastFilter := .bool true, origin := none } := by
  unfold sensorLoad sensorWrite
  rw [tz_round]
  simp [Node.req, Node.getD, List.lookup, tzWrite, bind, Except.bind]

private theorem cam_round (vehicle : Node) (c : CamEntry) (h : PlainCamera vehicle c) :
    camLoad (.dict (camWrite c)) = .ok c := by
  obtain ⟨name, laser, origin, path, topic, off, offs⟩ := c
  obtain ⟨⟨n, rfl⟩, ⟨o, rfl, -⟩, rfl, rfl⟩ := h
  simp [camLoad, camLoadDict, camWrite, Y.asDict, Node.req, Node.getD, List.lookup, camDeprecated, camOrigin,
    Y.asText, bind, Except.bind]

private theorem cams_round (vehicle : Node) (cs : List CamEntry) (h : ∀ c ∈ cs, PlainCamera vehicle c) :
    (cs.map fun c => Y.dict (camWrite c)).mapM camLoad = .ok cs := by
  induction cs with
  | nil => rfl
  | cons c t ih =>
    rw [List.map_cons, List.mapM_cons, cam_round vehicle c (h c List.mem_cons_self),
      ih fun d hd => h d (List.mem_cons_of_mem _ hd)]
    rfl

private theorem cams_known (vehicle : Node) (cs : List CamEntry) (h : ∀ c ∈ cs, PlainCamera vehicle c) :
    camerasKnown vehicle cs = .ok () := by
  induction cs with
  | nil => rfl
  | cons c t ih =>
    obtain ⟨-, ⟨o, ho, hv⟩, -⟩ := h c List.mem_cons_self
    simp only [camerasKnown, ho, hv, if_true]
    exact ih fun d hd => h d (List.mem_cons_of_mem _ hd)

private theorem image_round (toFloat : String → Option ℚ) (vehicle : Node) (i : ImageEntry)
    (hne : i.cameras ≠ []) (h : ∀ c ∈ i.cameras, PlainCamera vehicle c) :
    imageLoad toFloat (imageWrite i) (.num 1) = .ok i := by
  obtain ⟨tz, format, cams⟩ := i
  have hf : firstHasOrigin (cams.map fun c => Y.dict (camWrite c)) = .ok true := by
    cases cams with
    | nil => exact absurd rfl hne
    | cons c t => simp [firstHasOrigin, Y.asDict, camWrite, List.lookup, bind, Except.bind]
  have hc : camerasNew (imageWrite ⟨tz, format, cams⟩) = .ok cams := by
    have hl : Node.req (imageWrite ⟨tz, format, cams⟩) "cameras" =
        .ok (.list (cams.map fun c => .dict (camWrite c))) := by
      simp [Node.req, imageWrite, tzWrite, List.lookup]
    unfold camerasNew
    rw [hl]
    simp only [bind, Except.bind, Y.asList]
    rw [cams_round vehicle cams h]
    simp only []
    rw [hf]
    rfl
  unfold imageLoad
  rw [hc]
  unfold imageWrite
  rw [tz_round]
  simp [Node.req, tzWrite, List.lookup, Y.asNum, bind, Except.bind]

private theorem lookup_opt (key k : String) (o : Option SensorEntry) :
    (optWrite key o).lookup k = if k = key then o.map (fun s => Y.dict (sensorWrite s)) else none := by
  cases o with
  | none => simp [optWrite]
  | some s =>
    by_cases e : k = key
    · simp [optWrite, e]
    · have : (k == key) = false := by simp [e]
      simp [optWrite, List.lookup, this, e]

private theorem lookup_img (k : String) (o : Option ImageEntry) :
    (optImageWrite o).lookup k = if k = "image" then o.map (fun s => Y.dict (imageWrite s)) else none := by
  cases o with
  | none => simp [optImageWrite]
  | some s =>
    by_cases e : k = "image"
    · simp [optImageWrite, e]
    · have : (k == "image") = false := by simp [e]
      simp [optImageWrite, List.lookup, this, e]

private theorem framed_round (toFloat : String → Option ℚ) (data vehicle : Node) (key frame : String)
    (o : Option SensorEntry) (hl : data.lookup key = o.map (fun s => Y.dict (sensorWrite s)))
    (h : ∀ s, o = some s → PlainSensor s frame ∧ (vehicle.lookup frame).isSome) :
    framedLoad toFloat data vehicle key frame = .ok o := by
  unfold framedLoad
  rw [hl]
  cases o with
  | none => rfl
  | some s =>
    obtain ⟨⟨h1, h2, h3, h4, h5⟩, hv⟩ := h s rfl
    obtain ⟨tz, format, fp, fn, lb, sf, so, fi, df, nf, tp, og⟩ := s
    simp only at h1 h2 h3 h4 h5
    subst h1 h2 h3 h4 h5
    simp [Y.asDict, C44_settings_dropped_false, bind, Except.bind, Y.asText, hv]

private theorem plain_round (toFloat : String → Option ℚ) (data : Node) (key : String)
    (o : Option SensorEntry) (hl : data.lookup key = o.map (fun s => Y.dict (sensorWrite s)))
    (h : ∀ s, o = some s → PlainFile s) : plainLoad toFloat data key = .ok o := by
  unfold plainLoad
  rw [hl]
  cases o with
  | none => rfl
  | some s =>
    obtain ⟨h1, h2, h3, h4, h5⟩ := h s rfl
    obtain ⟨tz, format, fp, fn, lb, sf, so, fi, df, nf, tp, og⟩ := s
    simp only at h1 h2 h3 h4 h5
    subst h1 h2 h3 h4 h5
    simp [Y.asDict, C44_settings_dropped_false, bind, Except.bind]

/-- C44, in memory: a mission built in the program, written to a dictionary and loaded, comes back unchanged if
it uses no topics, USBL field, filters, special frames or payloads. -/
theorem C44_built_partial (toFloat : String → Option ℚ) (vehicle : Node) (m : MissionData) (md : Y)
    (h : PlainMission vehicle m) :
    ∃ d, missionWrite m md = .ok d ∧ missionLoad toFloat d vehicle = .ok m := by
  refine ⟨_, by unfold missionWrite; rw [h.payloads]; rfl, ?_⟩
  generalize hd : ([("version", Y.num 1), ("metadata", md), ("origin", .dict (originWrite m.origin))] ++
    optWrite "velocity" m.velocity ++ optWrite "orientation" m.orientation ++ optWrite "depth" m.depth ++
    optWrite "altitude" m.altitude ++ optWrite "usbl" m.usbl ++ optWrite "tide" m.tide ++
    optWrite "dead_reckoning" m.deadReckoning ++ optImageWrite m.image ++ ([] : Node)) = d
  have L : ∀ k, d.lookup k = (((((((((([("version", Y.num 1), ("metadata", md),
      ("origin", .dict (originWrite m.origin))] : Node).lookup k).or
      ((optWrite "velocity" m.velocity).lookup k)).or ((optWrite "orientation" m.orientation).lookup k)).or
      ((optWrite "depth" m.depth).lookup k)).or ((optWrite "altitude" m.altitude).lookup k)).or
      ((optWrite "usbl" m.usbl).lookup k)).or ((optWrite "tide" m.tide).lookup k)).or
      ((optWrite "dead_reckoning" m.deadReckoning).lookup k)).or ((optImageWrite m.image).lookup k)) := by
    intro k
    rw [← hd]
    simp only [List.lookup_append, List.append_nil]
  simp only [lookup_opt, lookup_img] at L
  have l0 : d.lookup "version" = some (.num 1) := by rw [L]; simp [List.lookup]
  have l1 : d.lookup "origin" = some (.dict (originWrite m.origin)) := by rw [L]; simp [List.lookup]
  have l2 : d.lookup "velocity" = m.velocity.map fun s => .dict (sensorWrite s) := by rw [L]; simp [List.lookup]
  have l3 : d.lookup "orientation" = m.orientation.map fun s => .dict (sensorWrite s) := by
    rw [L]; simp [List.lookup]
  have l4 : d.lookup "depth" = m.depth.map fun s => .dict (sensorWrite s) := by rw [L]; simp [List.lookup]
  have l5 : d.lookup "altitude" = m.altitude.map fun s => .dict (sensorWrite s) := by rw [L]; simp [List.lookup]
  have l6 : d.lookup "usbl" = m.usbl.map fun s => .dict (sensorWrite s) := by rw [L]; simp [List.lookup]
  have l7 : d.lookup "tide" = m.tide.map fun s => .dict (sensorWrite s) := by rw [L]; simp [List.lookup]
  have l8 : d.lookup "dead_reckoning" = m.deadReckoning.map fun s => .dict (sensorWrite s) := by
    rw [L]; simp [List.lookup]
  have l9 : d.lookup "image" = m.image.map fun s => .dict (imageWrite s) := by rw [L]; simp [List.lookup]
  have l10 : d.lookup "payloads" = none := by rw [L]; simp [List.lookup]
  have ho : originLoad (originWrite m.origin) = .ok m.origin := by
    simp [originLoad, originWrite, Node.req, List.lookup, bind, Except.bind]
  have hi : imageEntryLoad toFloat d vehicle (.num 1) = .ok m.image := by
    unfold imageEntryLoad
    rw [l9]
    cases e : m.image with
    | none => rfl
    | some i =>
      obtain ⟨hne, hc⟩ := h.image i e
      simp [Y.asDict, bind, Except.bind, image_round toFloat vehicle i hne hc, cams_known vehicle _ hc]
  have hv : Node.getD d "version" (.num 0) = .num 1 := by simp [Node.getD, l0]
  have hor : Node.req d "origin" = .ok (.dict (originWrite m.origin)) := by simp [Node.req, l1]
  have hp : payloadsLoad toFloat d vehicle = .ok [] := by simp [payloadsLoad, l10]
  unfold missionLoad
  simp only [hv, hor, bind, Except.bind, Y.asDict, ho, hp,
    framed_round toFloat d vehicle _ _ _ l2 h.velocity, framed_round toFloat d vehicle _ _ _ l3 h.orientation,
    framed_round toFloat d vehicle _ _ _ l4 h.depth, framed_round toFloat d vehicle _ _ _ l5 h.altitude,
    framed_round toFloat d vehicle _ _ _ l6 h.usbl, plain_round toFloat d _ _ l7 h.tide,
    plain_round toFloat d _ _ l8 h.deadReckoning, hi]
  have h1 := h.version
  have h2 := h.payloads
  obtain ⟨v, o, a, b, c, e, f, g, i, j, k⟩ := m
  simp only at h1 h2
  subst h1 h2
  rfl

/-- A small mission for the examples. -/
private def demo : MissionData :=
  ⟨.num 1, ⟨.num 50, .num 4, .str "wgs84", .str "2026/11/16"⟩, none, none, none, none,
    some ⟨⟨9, 0⟩, .str "gaps", .str "nav/", .str "", .num 4, .num 0, .num 2, .num 0, .bool true, .bool true, .null,
      some (.str "usbl")⟩, none, none,
    some ⟨⟨9, 0⟩, .str "acfr_standard", [⟨.str "LC", .bool false, .str "camera1", .str "image/", .null, .num 0,
      .null⟩]⟩, []⟩

example : PlainMission [("usbl", .dict []), ("camera1", .dict [])] demo := by
  constructor <;> simp [demo, PlainCamera, List.lookup]
  constructor <;> rfl

/-- C44, in memory: a mission with exactly one payload is written without it. -/
theorem C44_one_payload_false (m : MissionData) (md : Y) (p : String × PayloadEntry) (hp : m.payloads = [p]) :
    ∃ d, missionWrite m md = .ok d ∧ missionWrite { m with payloads := [] } md = .ok d := by
  refine ⟨_, by unfold missionWrite; rw [hp]; rfl, ?_⟩
  unfold missionWrite
  rfl

/-- C44, in memory: a mission with two payloads or more cannot be written at all. -/
theorem C44_payloads_false (m : MissionData) (md : Y) (h : 2 ≤ m.payloads.length) :
    missionWrite m md = .error .attributeError := by
  unfold missionWrite payloadsWrite
  rw [if_pos (by omega)]
  rfl

/-- C44: a payload that vehicle.yaml does not list does not give the intended message but an AttributeError. -/
theorem C44_unknown_payload (toFloat : String → Option ℚ) (vehicle vp n rest : Node) (name : String)
    (p : PayloadEntry) (hv : vehicle.lookup "payloads" = some (.dict vp)) (hn : vp.lookup name = none)
    (hp : payloadLoad toFloat n = .ok p) :
    payloadsLoadLoop toFloat vehicle ((name, .dict n) :: rest) = .error .attributeError := by
  simp [payloadsLoadLoop, Y.asDict, bind, Except.bind, hp, Node.req, hv, hn]

example : payloadsLoadLoop (fun _ => none) [("payloads", .dict [("ctd", .dict [])])]
    [("eh", .dict [("path", .str "a"), ("format", .str "csv")])] = .error .attributeError := rfl

end Oplab.Props
