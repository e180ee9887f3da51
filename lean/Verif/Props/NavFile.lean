import Mathlib.Tactic.Linarith
import Verif.Model.NavFile
import Verif.Props.SensorJson
import Verif.Props.Parsers

/-! # C219: what was parsed is what is processed -/

namespace Oplab.Props
open Oplab Oplab.Spec

/-- A time is at most another, both being present. -/
def NotLater (a b : Option ℚ) : Prop := ∃ t u, a = some t ∧ b = some u ∧ t ≤ u

/-- The lists the processing works on hold, of the measurements `ms` between `start` and `finish`, those of their kind, each as
often as it was parsed, and each list is in the order of time.  (The list of body velocities is in the order of the
clock of the vehicle, but its entries carry that of the DVL: see `C219_body_order_false`.) -/
structure Processed (start finish : ℚ) (nCams : Nat) (ms : List (Meas ℚ)) (l : Loaded ℚ) : Prop where
  body : l.body.Perm (wanted start finish pickBody ms)
  inertial : l.inertial.Perm (wanted start finish pickInertial ms)
  orient : l.orient.Perm (wanted start finish pickOrient ms)
  depth : l.depth.Perm (wanted start finish pickDepth ms)
  alt : l.alt.Perm (wanted start finish pickAlt ms)
  usbl : l.usbl.Perm (wanted start finish pickUsbl ms)
  cam1 : l.cam1.Perm (wanted start finish pickCam1 ms)
  cam2 : l.cam2.Perm (wanted start finish (pickCam2 nCams) ms)
  cam3 : l.cam3 = []
  bodyOrder : l.body.Pairwise fun a b => ∃ t u, a.epoch = some t ∧ b.epoch = some u ∧ t < u + 2
  inertialOrder : l.inertial.Pairwise fun a b => NotLater a.epoch b.epoch
  orientOrder : l.orient.Pairwise fun a b => NotLater a.epoch b.epoch
  depthOrder : l.depth.Pairwise fun a b => NotLater a.epoch b.epoch
  altOrder : l.alt.Pairwise fun a b => NotLater a.epoch b.epoch
  usblOrder : l.usbl.Pairwise fun a b => NotLater a.epoch b.epoch
  cam1Order : l.cam1.Pairwise fun a b => NotLater a.epoch b.epoch

/-- A measurement with the text of its time stamp. -/
abbrev Stamped := Stamp × Meas ℚ

/-- The measurement is one that `export` accepts, its time stamp is printed with `n` digits before the point, and stands for its time. -/
def Stamped.Ok (n : Nat) (e : Stamped) : Prop := e.2.Valid ∧ Spec.Stamp.WF n e.1 ∧ e.2.time = some (stampValue e.1)

/-- What a parser returns for its measurements. -/
def returned (r : List Stamped) : List NavRecord := r.map fun e => some (e.1, e.2.json)

/-! ## Reading and sorting -/

private theorem keep_returned (rs : List (List Stamped)) :
    (keepResults (rs.map returned)).flatten = rs.flatten.map fun e => some (e.1, e.2.json) := by
  induction rs with
  | nil => rfl
  | cons r rs ih =>
    cases r with
    | nil => simpa [keepResults, returned] using ih
    | cons e r =>
      have h : keepResults ((e :: r) :: rs |>.map returned) = returned (e :: r) :: keepResults (rs.map returned) := by
        simp [keepResults, returned]
      rw [h, List.flatten_cons, ih]
      simp [returned]

private theorem readEntries_some (l : List (Stamp × Json ℚ)) : readEntries (l.map some) = .ok l := by
  induction l with
  | nil => rfl
  | cons e l ih => simp [readEntries, ih, bind, Except.bind]

/-- The record of an entry; `none` is the origin. -/
private def entryJson (o : Json ℚ) : Option (Meas ℚ) → Json ℚ
  | none => (originRecord o).2
  | some m => m.json

private def entries (ms : List Stamped) : List (Stamp × Option (Meas ℚ)) := (⟨[0], [0]⟩, none) :: ms.map fun e => (e.1, some e.2)

private theorem interlace_map {α β} (f : α → β) (data : List (Stamp × α)) (out : List (Stamp × α)) (h : interlace data = .ok out) :
    interlace (data.map fun e => (e.1, f e.2)) = .ok (out.map fun e => (e.1, f e.2)) := by
  unfold interlace at h ⊢
  by_cases hd : data = []
  · rw [if_pos hd] at h; cases h
  rw [if_neg hd] at h
  rw [if_neg (by simpa using hd)]
  simp only [Except.ok.injEq] at h
  subst h
  rw [List.map_mergeSort (s := fun a b => lexLe a.1.text b.1.text)]
  intro a _ b _; rfl

private theorem parseNav_eq (o : Json ℚ) (rs : List (List Stamped)) :
    ∃ out, interlace (entries rs.flatten) = .ok out ∧
      parseNav o (rs.map returned) = .ok (out.map fun e => entryJson o e.2) := by
  obtain ⟨out, hout⟩ := C13_defined (entries rs.flatten) (by simp [entries])
  refine ⟨out, hout, ?_⟩
  have hc : compileNav o (rs.map returned) = ((entries rs.flatten).map fun e => (e.1, entryJson o e.2)).map some := by
    simp only [compileNav, keep_returned, entries, List.map_cons, List.map_map]
    refine List.cons_eq_cons.2 ⟨?_, ?_⟩
    · simp [entryJson, originRecord]
    · rfl
  unfold parseNav
  rw [hc, readEntries_some]
  simp only [bind, Except.bind, interlace_map (entryJson o) _ _ hout, List.map_map]
  rfl

/-! ## Loading -/

private theorem origin_cats : strIn "velocity" "origin" = false ∧ strIn "orientation" "origin" = false ∧ strIn "depth" "origin" = false ∧
    strIn "altitude" "origin" = false ∧ strIn "usbl" "origin" = false ∧ strIn "image" "origin" = false ∧ strIn "laser" "origin" = false := by
  decide +kernel

private theorem origin_step (llStd : Option ℚ → Option ℚ → Option ℚ → Option ℚ → ℚ → ℚ → Res (Option ℚ × Option ℚ)) (cfg : StdCfg ℚ)
    (a b : ℚ) (nCams : Nat) (acc : Loaded ℚ) (o : Json ℚ) : loadStep llStd cfg a b nCams acc (originRecord o).2 = .ok acc := by
  have ht : Json.at1 (originRecord o).2 "epoch_timestamp" = .ok (some 0) := by
    simp [originRecord, Json.at1, Json.key, bind, Except.bind, Json.asNum]
  have hk : Json.key (originRecord o).2 "category" = .ok (.str "origin") := by
    simp [originRecord, Json.key]
  obtain ⟨h1, h2, h3, h4, h5, h6, h7⟩ := origin_cats
  have hn : ∀ j, j = (originRecord o).2 → loadStep llStd cfg a b nCams acc j = .ok acc := by
    intro j hj
    rw [← hj] at ht hk
    cases j with
    | null => rfl
    | num _ => simp [originRecord] at hj
    | str _ => simp [originRecord] at hj
    | arr _ => simp [originRecord] at hj
    | obj l =>
      unfold loadStep
      simp only [ht, hk, bind, Except.bind, reqNum, Json.asStr, h1, h2, h3, h4, h5, h6, h7, pure, Except.pure, Bool.false_eq_true, if_false]
      split_ifs <;> rfl
  exact hn _ rfl

private theorem loadAll_entries (llStd : Option ℚ → Option ℚ → Option ℚ → Option ℚ → ℚ → ℚ → Res (Option ℚ × Option ℚ)) (cfg : StdCfg ℚ)
    (a b : ℚ) (nCams : Nat) (o : Json ℚ) (l : List (Stamp × Option (Meas ℚ))) :
    loadAll llStd cfg a b nCams (l.map fun e => entryJson o e.2) = loadAll llStd cfg a b nCams ((l.filterMap Prod.snd).map Meas.json) := by
  unfold loadAll
  generalize ({} : Loaded ℚ) = acc
  induction l generalizing acc with
  | nil => rfl
  | cons e l ih =>
    obtain ⟨s, m⟩ := e
    cases m with
    | none =>
      simp only [List.map_cons, entryJson, List.foldlM_cons, origin_step, bind, Except.bind, List.filterMap_cons]
      exact ih acc
    | some m =>
      simp only [List.map_cons, entryJson, List.foldlM_cons, bind, Except.bind, List.filterMap_cons]
      cases loadStep llStd cfg a b nCams acc m.json with
      | error _ => rfl
      | ok acc' => exact ih acc'

/-! ## Order -/

private theorem wanted_perm {α : Type} (a b : ℚ) (pick : Meas ℚ → Option α) {l l' : List (Meas ℚ)} (h : l.Perm l') :
    (wanted a b pick l).Perm (wanted a b pick l') := by
  unfold wanted
  exact (h.filter _).filterMap _

private theorem wanted_order {α : Type} (a b : ℚ) (pick : Meas ℚ → Option α) (R : α → α → Prop) (l : List (Meas ℚ))
    (hl : l.Pairwise fun m m' => NotLater m.time m'.time)
    (hp : ∀ m m' x y, pick m = some x → pick m' = some y → NotLater m.time m'.time → R x y) : (wanted a b pick l).Pairwise R := by
  unfold wanted
  rw [List.pairwise_filterMap]
  refine (hl.filter _).imp ?_
  intro m m' h x hx y hy
  exact hp m m' x y hx hy h

private theorem pickBody_time {m : Meas ℚ} {x : BodyVel ℚ} (h : pickBody m = some x) :
    ∃ t td, m.time = some t ∧ x.epoch = some td ∧ |t - td| < 1 := by
  cases m with
  | body s =>
    obtain ⟨e, ed, vx, vy, vz, sx, sy, sz, n⟩ := s
    cases e with
    | none => simp [pickBody] at h
    | some t =>
      cases ed with
      | none => simp [pickBody] at h
      | some td =>
        simp only [pickBody] at h
        split_ifs at h with hd
        simp only [Option.some.injEq] at h
        exact ⟨t, td, rfl, by rw [← h], hd⟩
  | _ => simp [pickBody] at h

private theorem processed_of (a b : ℚ) (nCams : Nat) (ms ms' : List (Meas ℚ)) (hp : ms'.Perm ms)
    (ho : ms'.Pairwise fun m m' => NotLater m.time m'.time) :
    Processed a b nCams ms
      { body := wanted a b pickBody ms', inertial := wanted a b pickInertial ms', orient := wanted a b pickOrient ms'
        depth := wanted a b pickDepth ms', alt := wanted a b pickAlt ms', usbl := wanted a b pickUsbl ms'
        cam1 := wanted a b pickCam1 ms', cam2 := wanted a b (pickCam2 nCams) ms', cam3 := [] } where
  body := wanted_perm _ _ _ hp
  inertial := wanted_perm _ _ _ hp
  orient := wanted_perm _ _ _ hp
  depth := wanted_perm _ _ _ hp
  alt := wanted_perm _ _ _ hp
  usbl := wanted_perm _ _ _ hp
  cam1 := wanted_perm _ _ _ hp
  cam2 := wanted_perm _ _ _ hp
  cam3 := rfl
  bodyOrder := by
    refine wanted_order a b _ _ ms' ho ?_
    rintro m m' x y hx hy ⟨t, u, ht, hu, htu⟩
    obtain ⟨t', td, h1, h2, h3⟩ := pickBody_time hx
    obtain ⟨u', ud, g1, g2, g3⟩ := pickBody_time hy
    rw [ht, Option.some.injEq] at h1
    rw [hu, Option.some.injEq] at g1
    subst h1 g1
    refine ⟨td, ud, h2, g2, ?_⟩
    rw [abs_lt] at h3 g3
    linarith [h3.1, h3.2, g3.1, g3.2]
  inertialOrder := by
    refine wanted_order a b _ _ ms' ho ?_
    rintro (s|s|s|s|s|s|s|⟨s, _, _⟩) (s'|s'|s'|s'|s'|s'|s'|⟨s', _, _⟩) x y hx hy h <;>
      simp only [pickInertial, Option.some.injEq, reduceCtorEq] at hx hy
    subst hx hy; exact h
  orientOrder := by
    refine wanted_order a b _ _ ms' ho ?_
    rintro (s|s|s|s|s|s|s|⟨s, _, _⟩) (s'|s'|s'|s'|s'|s'|s'|⟨s', _, _⟩) x y hx hy h <;>
      simp only [pickOrient, Option.some.injEq, reduceCtorEq] at hx hy
    subst hx hy; exact h
  depthOrder := by
    refine wanted_order a b _ _ ms' ho ?_
    rintro (s|s|s|s|s|s|s|⟨s, _, _⟩) (s'|s'|s'|s'|s'|s'|s'|⟨s', _, _⟩) x y hx hy h <;>
      simp only [pickDepth, Option.some.injEq, reduceCtorEq] at hx hy
    subst hx hy; exact h
  altOrder := by
    refine wanted_order a b _ _ ms' ho ?_
    rintro (s|s|s|s|s|s|s|⟨s, _, _⟩) (s'|s'|s'|s'|s'|s'|s'|⟨s', _, _⟩) x y hx hy h <;>
      simp only [pickAlt, Option.some.injEq, reduceCtorEq] at hx hy
    subst hx hy; exact h
  usblOrder := by
    refine wanted_order a b _ _ ms' ho ?_
    rintro (s|s|s|s|s|s|s|⟨s, _, _⟩) (s'|s'|s'|s'|s'|s'|s'|⟨s', _, _⟩) x y hx hy h <;>
      simp only [pickUsbl, Option.some.injEq, reduceCtorEq] at hx hy
    subst hx hy; exact h
  cam1Order := by
    refine wanted_order a b _ _ ms' ho ?_
    rintro (s|s|s|s|s|s|s|⟨s, _, _⟩) (s'|s'|s'|s'|s'|s'|s'|⟨s', _, _⟩) x y hx hy h <;>
      simp only [pickCam1, Option.some.injEq, reduceCtorEq] at hx hy <;>
      (subst hx hy; exact h)

/-! ## The file as a whole -/

private theorem frac_nonneg : ∀ l : List Nat, 0 ≤ fracValue l
  | [] => le_refl _
  | d :: l => by
    have := frac_nonneg l
    simp only [fracValue]; positivity

private theorem value_nonneg (s : Stamp) : 0 ≤ stampValue s := by
  have := frac_nonneg s.fp
  simp only [stampValue]; positivity

private theorem origin_value : stampValue ⟨[0], [0]⟩ = 0 := by simp [stampValue, intValue, fracValue]

private theorem num_of (x : Option ℚ) : (Json.ofOpt x).asNum = .ok x := by cases x <;> rfl

private theorem time_entry (o : Json ℚ) (n : Nat) (e : Stamp × Option (Meas ℚ)) (ms : List Stamped) (hok : ∀ e ∈ ms, e.Ok n) (he : e ∈ entries ms) :
    (do let t ← (entryJson o e.2).at1 "epoch_timestamp"; reqNum t) = Except.ok (ε := Err) (stampValue e.1) := by
  simp only [entries, List.mem_cons, List.mem_map] at he
  rcases he with rfl | ⟨e', he', rfl⟩
  · simp only [entryJson, originRecord, Json.at1, Json.key, bind, Except.bind, origin_value]
    simp [Json.asNum, reqNum]
  · obtain ⟨s, m⟩ := e'
    have ht := (hok _ he').2.2
    simp only [entryJson, bind, Except.bind]
    have htime : m.json.at1 "epoch_timestamp" = .ok m.time := by
      cases m <;>
        simp [Meas.json, Meas.time, BodyVel.toJson, InertialVel.toJson, Orient.toJson, DepthM.toJson,
          AltM.toJson, UsblM.toJson, CamM.toJson, stereoToJson, Json.at1, Json.key, bind, Except.bind, num_of]
    rw [htime]
    simp only at ht ⊢
    rw [ht]; rfl

private theorem times_file (o : Json ℚ) (n : Nat) (ms : List Stamped) (hok : ∀ e ∈ ms, e.Ok n) :
    ∀ l : List (Stamp × Option (Meas ℚ)), (∀ e ∈ l, e ∈ entries ms) →
    ((l.map fun e => entryJson o e.2).mapM fun j => do
      let t ← j.at1 "epoch_timestamp"
      reqNum t) = Except.ok (ε := Err) (l.map fun e => stampValue e.1)
  | [], _ => rfl
  | e :: l, h => by
    have h1 := time_entry o n e ms hok (h e (by simp))
    have h2 := times_file o n ms hok l fun x hx => h x (by simp [hx])
    rw [List.map_cons, List.mapM_cons, h1]
    simp only [bind, Except.bind] at h2 ⊢
    rw [h2]; rfl

private theorem entries_file (n : Nat) (ms : List Stamped) (hok : ∀ e ∈ ms, e.Ok n) (out : List (Stamp × Option (Meas ℚ)))
    (h : interlace (entries ms) = .ok out) :
    (out.filterMap Prod.snd).Perm (ms.map Prod.snd) ∧ (out.filterMap Prod.snd).Pairwise (fun m m' => NotLater m.time m'.time) := by
  have hp := C13_same_entries _ _ h
  constructor
  · refine (hp.filterMap Prod.snd).trans ?_
    have : (entries ms).filterMap Prod.snd = ms.map Prod.snd := by
      simp only [entries, List.filterMap_cons, List.filterMap_map]
      rw [← List.filterMap_eq_map]
      rfl
    rw [this]
  · have hc := C13_chronological_partial n _ _ h (by
      intro e he
      simp only [entries, List.mem_cons, List.mem_map] at he
      rcases he with rfl | ⟨e', he', rfl⟩
      · simp [Spec.Stamp.WF]
      · exact (hok e' he').2.1)
    rw [List.pairwise_filterMap]
    refine hc.imp_of_mem ?_
    intro a b ha hb hab x hx y hy
    have time : ∀ e ∈ out, ∀ m, e.2 = some m → m.time = some (stampValue e.1) := by
      intro e he m hm
      have := hp.mem_iff.1 he
      simp only [entries, List.mem_cons, List.mem_map] at this
      rcases this with rfl | ⟨e', he', rfl⟩
      · cases hm
      · simp only [Option.some.injEq] at hm
        rw [← hm]; exact (hok e' he').2.2
    exact ⟨_, _, time a ha x hx, time b hb y hy, hab⟩

private def allSensor : StdCfg ℚ := ⟨.sensor, .sensor, .sensor, .sensor⟩

private theorem process_window (llStd : Option ℚ → Option ℚ → Option ℚ → Option ℚ → ℚ → ℚ → Res (Option ℚ × Option ℚ)) (o : Json ℚ)
    (n nCams : Nat) (ms : List Stamped) (hok : ∀ e ∈ ms, e.Ok n) (out : List (Stamp × Option (Meas ℚ)))
    (h : interlace (entries ms) = .ok out) (start finish : List Char) (a b : ℚ)
    (hw : timeWindow (out.map fun e => stampValue e.1) start finish = .ok (a, b)) :
    ∃ l, processNav llStd allSensor nCams start finish (out.map fun e => entryJson o e.2) = .ok l ∧
      Processed a b nCams (ms.map Prod.snd) l := by
  obtain ⟨hp, hs⟩ := entries_file n ms hok out h
  have ht := times_file o n ms hok out fun e he => (C13_same_entries _ _ h).mem_iff.1 he
  have hv : ∀ m ∈ out.filterMap Prod.snd, m.Valid := by
    intro m hm
    obtain ⟨e, he, rfl⟩ := List.mem_map.1 (hp.mem_iff.1 hm)
    exact (hok e he).1
  refine ⟨_, ?_, processed_of a b nCams _ _ hp hs⟩
  unfold processNav
  simp only [bind, Except.bind] at ht ⊢
  rw [ht]
  simp only [hw]
  rw [loadAll_entries]
  exact C66_load_window llStd a b nCams _ hv

/-- C219: with a start and a finish, exactly the measurements between them are processed, those of each sensor in the order of time. -/
theorem C219_window_partial (llStd : Option ℚ → Option ℚ → Option ℚ → Option ℚ → ℚ → ℚ → Res (Option ℚ × Option ℚ)) (origin : Json ℚ)
    (n nCams : Nat) (parsed : List (List Stamped)) (hok : ∀ r ∈ parsed, ∀ e ∈ r, e.Ok n)
    (start finish : List Char) (hs : start ≠ []) (hf : finish ≠ []) (a b : ℚ)
    (ha : stringToEpoch start = .ok a) (hb : stringToEpoch finish = .ok b) :
    ∃ file l, parseNav origin (parsed.map returned) = .ok file ∧
      processNav llStd ⟨.sensor, .sensor, .sensor, .sensor⟩ nCams start finish file = .ok l ∧
      Processed a b nCams (parsed.flatten.map Prod.snd) l := by
  obtain ⟨out, hout, hfile⟩ := parseNav_eq origin parsed
  have hok' : ∀ e ∈ parsed.flatten, e.Ok n := by
    intro e he
    obtain ⟨r, hr, her⟩ := List.mem_flatten.1 he
    exact hok r hr e her
  obtain ⟨l, hl, hp⟩ := process_window llStd origin n nCams _ hok' out hout start finish a b
    (by simp only [timeWindow, if_neg hs, if_neg hf, ha, hb, bind, Except.bind])
  exact ⟨_, l, hfile, hl, hp⟩

private theorem default_window (n : Nat) (ms : List Stamped) (hok : ∀ e ∈ ms, e.Ok n) (hne : ms ≠ []) (out : List (Stamp × Option (Meas ℚ)))
    (h : interlace (entries ms) = .ok out) :
    ∃ a b, timeWindow (out.map fun e => stampValue e.1) [] [] = .ok (a, b) ∧ ∀ e ∈ ms, a ≤ stampValue e.1 ∧ stampValue e.1 ≤ b := by
  have hp := C13_same_entries _ _ h
  have hc := C13_chronological_partial n _ _ h (by
      intro e he
      simp only [entries, List.mem_cons, List.mem_map] at he
      rcases he with rfl | ⟨e', he', rfl⟩
      · simp [Spec.Stamp.WF]
      · exact (hok e' he').2.1)
  have hlen : out.length = ms.length + 1 := by rw [hp.length_eq]; simp [entries]
  have hms : 0 < ms.length := List.length_pos_iff.2 hne
  have h1 : 1 < out.length := by omega
  have hl : out.length - 1 < out.length := by omega
  have le : ∀ i j (hi : i < out.length) (hj : j < out.length), i ≤ j → stampValue out[i].1 ≤ stampValue out[j].1 := by
    intro i j hi hj hij
    rcases Nat.lt_or_ge i j with hlt | hge
    · exact List.pairwise_iff_getElem.1 hc i j hi hj hlt
    · have : i = j := by omega
      subst this; exact le_refl _
  refine ⟨stampValue out[1].1, stampValue out[out.length - 1].1, ?_, ?_⟩
  · have e1 : pyGet (out.map fun e => stampValue e.1) 1 = .ok (stampValue out[1].1) := by
      simp [pyGet, h1]
    have e2 : pyGet (out.map fun e => stampValue e.1) (-1) = .ok (stampValue out[out.length - 1].1) := by
      have hj : ¬ ((-1 : ℤ) + (out.length : ℤ) < 0) := by omega
      have hn : ((-1 : ℤ) + (out.length : ℤ)).toNat = out.length - 1 := by omega
      simp [pyGet, hj, hn, hl]
    simp only [timeWindow, if_true, e1, e2, bind, Except.bind]
  · intro e he
    have hm : (e.1, some e.2) ∈ out := hp.mem_iff.2 (by
      simp only [entries, List.mem_cons, List.mem_map]
      exact .inr ⟨e, he, rfl⟩)
    obtain ⟨i, hi, hie⟩ := List.getElem_of_mem hm
    have hval : stampValue e.1 = stampValue out[i].1 := by rw [hie]
    refine ⟨?_, by rw [hval]; exact le i _ hi hl (by omega)⟩
    rw [hval]
    rcases Nat.eq_zero_or_pos i with h0 | h0
    · have ho : ((⟨[0], [0]⟩ : Stamp), (none : Option (Meas ℚ))) ∈ out := hp.mem_iff.2 (by simp [entries])
      obtain ⟨k, hk, hke⟩ := List.getElem_of_mem ho
      have hk0 : k ≠ 0 := by
        rintro rfl
        subst h0
        rw [hie] at hke
        have := congrArg Prod.snd hke
        cases this
      have h2 := le 1 k h1 hk (by omega)
      rw [hke, origin_value] at h2
      exact h2.trans (value_nonneg _)
    · exact le 1 i h1 hi h0

/-- C219: without a start and a finish, everything that was parsed is processed: each list holds every measurement of its sensor, in
the order of time.  Second images of a mission with one camera and velocities whose clock is a second or more off are left out. -/
theorem C219_all_partial (llStd : Option ℚ → Option ℚ → Option ℚ → Option ℚ → ℚ → ℚ → Res (Option ℚ × Option ℚ)) (origin : Json ℚ)
    (n nCams : Nat) (parsed : List (List Stamped)) (hok : ∀ r ∈ parsed, ∀ e ∈ r, e.Ok n) (hne : parsed.flatten ≠ []) :
    ∃ file l a b, parseNav origin (parsed.map returned) = .ok file ∧
      processNav llStd ⟨.sensor, .sensor, .sensor, .sensor⟩ nCams [] [] file = .ok l ∧
      Processed a b nCams (parsed.flatten.map Prod.snd) l ∧ ∀ e ∈ parsed.flatten, InWindow a b e.2 := by
  obtain ⟨out, hout, hfile⟩ := parseNav_eq origin parsed
  have hok' : ∀ e ∈ parsed.flatten, e.Ok n := by
    intro e he
    obtain ⟨r, hr, her⟩ := List.mem_flatten.1 he
    exact hok r hr e her
  obtain ⟨a, b, hw, hin⟩ := default_window n _ hok' hne out hout
  obtain ⟨l, hl, hp⟩ := process_window llStd origin n nCams _ hok' out hout [] [] a b hw
  exact ⟨_, l, a, b, hfile, hl, hp, fun e he => ⟨_, (hok' e he).2.2, hin e he⟩⟩

/-- A depth of 20 m and a position at the time 15.5, and an altitude at 15.25. -/
private def shortDive : List (List Stamped) :=
  [[(⟨[1, 5], [5]⟩, .depth ⟨some (31/2), some (31/2), some 20, none, "phins"⟩)],
   [(⟨[1, 5], [5]⟩, .cam ⟨some (31/2), "a.tif", "c"⟩), (⟨[1, 5], [2, 5]⟩, .alt ⟨some (61/4), some (61/4), some 3, none, none, none, "dvl"⟩)]]

example : (∀ r ∈ shortDive, ∀ e ∈ r, e.Ok 2) ∧ shortDive.flatten ≠ [] := by
  simp only [shortDive, List.forall_mem_cons]
  simp [Stamped.Ok, Meas.Valid, Meas.time, DepthM.valid, CamM.valid, AltM.valid, Spec.Stamp.WF, stampValue, intValue, fracValue]
  norm_num

/-! ## What does not hold -/

/-- The full statement for one list: the velocities that are processed are in the order of their times. -/
def VelocitiesOrdered : Prop :=
  ∀ (origin : Json ℚ) (n nCams : Nat) (parsed : List (List Stamped)), (∀ r ∈ parsed, ∀ e ∈ r, e.Ok n) →
    ∀ file l, parseNav origin (parsed.map returned) = .ok file →
      processNav (fun _ _ _ _ _ _ => .error .quit) ⟨.sensor, .sensor, .sensor, .sensor⟩ nCams [] [] file = .ok l →
      l.body.Pairwise fun a b => NotLater a.epoch b.epoch

private def bodyAt (t td : ℚ) : Meas ℚ := .body ⟨some t, some td, some 1, some 0, none, none, none, none, "phins"⟩

/-- C219: it is false, because the file is sorted by the clock of the vehicle and the velocities carry that of the DVL. -/
theorem C219_body_order_false : ¬ VelocitiesOrdered := by
  intro h
  let dive : List (List Stamped) := [[(⟨[1], [0]⟩, bodyAt 1 (19/10)), (⟨[2], [0]⟩, bodyAt 2 (11/10))]]
  have hok : ∀ r ∈ dive, ∀ e ∈ r, Stamped.Ok 1 e := by
    simp only [dive, List.forall_mem_cons]
    simp [Stamped.Ok, bodyAt, Meas.Valid, Meas.time, BodyVel.valid, Spec.Stamp.WF, stampValue, intValue, fracValue]
  obtain ⟨out, hout, hfile⟩ := parseNav_eq .null dive
  have ho : out = [(⟨[0], [0]⟩, none), (⟨[1], [0]⟩, some (bodyAt 1 (19/10))), (⟨[2], [0]⟩, some (bodyAt 2 (11/10)))] := by
    simp [dive, entries, interlace, List.mergeSort, List.MergeSort.Internal.splitInTwo, lexLe, Stamp.text] at hout
    exact hout.symm
  subst ho
  have hv : ∀ m ∈ [bodyAt 1 (19/10), bodyAt 2 (11/10)], m.Valid := by
    simp [bodyAt, Meas.Valid, BodyVel.valid]
  have hw : timeWindow ([((⟨[0], [0]⟩ : Stamp), (none : Option (Meas ℚ))), (⟨[1], [0]⟩, some (bodyAt 1 (19/10))), (⟨[2], [0]⟩, some (bodyAt 2 (11/10)))].map
      fun e => stampValue e.1) [] [] = .ok (1, 2) := by
    simp [timeWindow, pyGet, stampValue, intValue, fracValue, bind, Except.bind]
  have ht := times_file .null 1 dive.flatten (by
    intro e he
    obtain ⟨r, hr, her⟩ := List.mem_flatten.1 he
    exact hok r hr e her) _ fun e he => (C13_same_entries _ _ hout).mem_iff.1 he
  have hl := C66_load_window (fun _ _ _ _ _ _ => .error .quit) (1 : ℚ) 2 1 _ hv
  have := h .null 1 1 dive hok _ _ hfile (by
    unfold processNav
    simp only [bind, Except.bind] at ht ⊢
    rw [ht]
    simp only [hw]
    rw [loadAll_entries]
    exact hl)
  have hb : (wanted (1 : ℚ) 2 pickBody [bodyAt 1 (19/10), bodyAt 2 (11/10)]).map (fun v => v.epoch) = [some (19/10), some (11/10)] := by
    have h1 : |(1 : ℚ) - 19/10| < 1 := by norm_num [abs_lt]
    have h2 : |(2 : ℚ) - 11/10| < 1 := by norm_num [abs_lt]
    have w1 : InWindow (1 : ℚ) 2 (bodyAt 1 (19/10)) := ⟨1, rfl, by norm_num, by norm_num⟩
    have w2 : InWindow (1 : ℚ) 2 (bodyAt 2 (11/10)) := ⟨2, rfl, by norm_num, by norm_num⟩
    simp only [wanted, List.filter_cons, w1, w2, decide_true, if_true, List.filter_nil]
    simp only [List.filterMap_cons, List.filterMap_nil, bodyAt, pickBody, if_pos h1, if_pos h2, List.map_cons, List.map_nil]
  have h2 := (List.pairwise_map (f := fun v : BodyVel ℚ => v.epoch) (R := NotLater)).2 this
  rw [hb] at h2
  simp only [List.pairwise_cons, List.mem_cons, List.not_mem_nil, or_false, forall_eq] at h2
  obtain ⟨t, u, ht, hu, htu⟩ := h2.1
  simp only [Option.some.injEq] at ht hu
  subst ht hu
  norm_num at htu

/-- C219: if the first of the results of a parser is not valid, none of its results is kept, however many valid ones follow. -/
theorem C219_first_invalid (origin : Json ℚ) (before after : List (List NavRecord)) (rest : List NavRecord) :
    parseNav origin (before ++ (none :: rest) :: after) = parseNav origin (before ++ after) := by
  simp [parseNav, compileNav, keepResults]

/-- C219: if a later one is not valid, there is no file at all. -/
theorem C219_later_invalid (origin : Json ℚ) (before after : List (List NavRecord)) (e : Stamp × Json ℚ) (r rest : List NavRecord) :
    parseNav origin (before ++ (some e :: r ++ none :: rest) :: after) = .error .typeError := by
  have key : ∀ (p q : List NavRecord), readEntries (p ++ none :: q) = .error .typeError := by
    intro p q
    induction p with
    | nil => rfl
    | cons x p ih =>
      cases x with
      | none => rfl
      | some x => simp [readEntries, ih, bind, Except.bind]
  have hc : ∃ p q, compileNav origin (before ++ (some e :: r ++ none :: rest) :: after) = p ++ none :: q := by
    refine ⟨some (originRecord origin) :: ((keepResults before).flatten ++ (some e :: r)), rest ++ (keepResults after).flatten, ?_⟩
    simp [compileNav, keepResults]
  obtain ⟨p, q, hc⟩ := hc
  unfold parseNav
  rw [hc, key]; rfl

/-- The full statement: measurements that are not valid are left out, the others are kept. -/
def InvalidLeftOut : Prop :=
  ∀ (origin : Json ℚ) (results : List (List NavRecord)),
    parseNav origin results = parseNav origin (results.map fun r => r.filter fun e => e.isSome)

/-- C219: it is false. -/
theorem C219_invalid_false : ¬ InvalidLeftOut := by
  intro h
  have h1 := h .null [[some (⟨[1], [0]⟩, .null), none]]
  have h2 := C219_later_invalid .null [] [] (⟨[1], [0]⟩, .null) [] []
  simp only [List.nil_append, List.cons_append] at h2
  rw [h2] at h1
  obtain ⟨out, hout⟩ := C13_defined [originRecord .null, (⟨[1], [0]⟩, .null)] (by simp)
  simp only [List.map_cons, List.map_nil, List.filter_cons, Option.isSome_some, Option.isSome_none, if_true, List.filter_nil, parseNav,
    compileNav, keepResults, List.flatten_cons, List.flatten_nil, List.append_nil, readEntries, bind, Except.bind, Bool.false_eq_true,
    if_false, hout] at h1
  cases h1

/-- The full statement: what is processed does not depend on whether `parse` was stopped between writing and sorting the file. -/
def InterruptedComplete : Prop :=
  ∀ (origin : Json ℚ) (n nCams : Nat) (parsed : List (List Stamped)), (∀ r ∈ parsed, ∀ e ∈ r, e.Ok n) →
    ∀ l, processNav (fun _ _ _ _ _ _ => .error .quit) ⟨.sensor, .sensor, .sensor, .sensor⟩ nCams [] []
        (interruptedNav origin (parsed.map returned)) = .ok l →
      ∀ e ∈ parsed.flatten, ∀ d, e.2 = Meas.depth d → { d with sensor := "unknown" } ∈ l.depth

private def depthAt (t : ℚ) : Meas ℚ := .depth ⟨some t, some t, some 20, none, "phins"⟩

/-- C219: it is false: the window is then that from the second to the last entry of a file that is not sorted, here from 2 to 1, and
without a word nothing is processed. -/
theorem C219_interrupted_false : ¬ InterruptedComplete := by
  intro h
  let dive : List (List Stamped) := [[(⟨[2], [0]⟩, depthAt 2)], [(⟨[1], [0]⟩, depthAt 1)]]
  have hok : ∀ r ∈ dive, ∀ e ∈ r, Stamped.Ok 1 e := by
    simp only [dive, List.forall_mem_cons]
    simp [Stamped.Ok, depthAt, Meas.Valid, Meas.time, DepthM.valid, Spec.Stamp.WF, stampValue, intValue, fracValue]
  have hf : interruptedNav .null (dive.map returned) = (entries dive.flatten).map fun e => entryJson .null e.2 := by
    simp [interruptedNav, compileNav, keepResults, returned, dive, entries, entryJson]
  have ht := times_file .null 1 dive.flatten (by
    intro e he
    obtain ⟨r, hr, her⟩ := List.mem_flatten.1 he
    exact hok r hr e her) _ fun e (he : e ∈ entries dive.flatten) => he
  have hw : timeWindow ((entries dive.flatten).map fun e => stampValue e.1) [] [] = .ok (2, 1) := by
    simp [dive, entries, timeWindow, pyGet, stampValue, intValue, fracValue, bind, Except.bind]
  have hv : ∀ m ∈ [depthAt 2, depthAt 1], m.Valid := by
    simp [depthAt, Meas.Valid, DepthM.valid]
  have hl := C66_load_window (fun _ _ _ _ _ _ => .error .quit) (2 : ℚ) 1 1 _ hv
  have := h .null 1 1 dive hok _ (by
    rw [hf]
    unfold processNav
    simp only [bind, Except.bind] at ht ⊢
    rw [ht]
    simp only [hw]
    rw [loadAll_entries]
    exact hl) (⟨[2], [0]⟩, depthAt 2) (by simp [dive]) _ rfl
  have hempty : wanted (2 : ℚ) 1 pickDepth [depthAt 2, depthAt 1] = [] := by
    have w : ∀ m, ¬ InWindow (2 : ℚ) 1 m := by
      rintro m ⟨t, _, h1, h2⟩
      linarith
    simp [wanted, w]
  simp only [hempty, List.not_mem_nil] at this


/-- C219: the first record of the file is the origin: of class and category origin, at time 0, with the given coordinates. -/
theorem C219_origin (origin : Json ℚ) (results : List (List NavRecord)) :
    ∃ j rest, interruptedNav origin results = j :: rest ∧ Json.key j "class" = .ok (.str "origin") ∧ Json.key j "category" = .ok (.str "origin") ∧
      Json.key j "epoch_timestamp" = .ok (.num 0) ∧ Json.key j "data" = .ok origin := by
  refine ⟨(originRecord origin).2, _, rfl, ?_, ?_, ?_, ?_⟩ <;> simp [originRecord, Json.key]

end Oplab.Props
