import Verif.Spec.Ae2000
import Verif.Lemmas.Split
import Verif.Props.Rotation
import Verif.Props.ImageParsers

namespace Oplab.Props
open Oplab Oplab.Spec

/-! ## C188 -/

private theorem noSlash (w n : ℕ) : ∀ c ∈ padDigits w n, decide (c = '/') = false :=
  digits_noSep _ (by intro c h; rw [decide_eq_true_eq] at h; subst h; decide) w n
private theorem noColon (w n : ℕ) : ∀ c ∈ padDigits w n, decide (c = ':') = false :=
  digits_noSep _ (by intro c h; rw [decide_eq_true_eq] at h; subst h; decide) w n
private theorem noPoint (w n : ℕ) : ∀ c ∈ padDigits w n, decide (c = '.') = false :=
  digits_noSep _ (by intro c h; rw [decide_eq_true_eq] at h; subst h; decide) w n
private theorem noSpace (w n : ℕ) : ∀ c ∈ padDigits w n, decide (c = ' ') = false :=
  digits_noSep _ (by intro c h; rw [decide_eq_true_eq] at h; subst h; decide) w n

private theorem app_no (sep : Char) (a b : List Char) (ha : ∀ c ∈ a, decide (c = sep) = false) (hb : ∀ c ∈ b, decide (c = sep) = false) :
    ∀ c ∈ a ++ b, decide (c = sep) = false := by
  intro c hc
  rcases List.mem_append.mp hc with h | h
  · exact ha c h
  · exact hb c h

private theorem cons_no (sep d : Char) (b : List Char) (hd : decide (d = sep) = false) (hb : ∀ c ∈ b, decide (c = sep) = false) :
    ∀ c ∈ d :: b, decide (c = sep) = false := by
  intro c hc
  rcases List.mem_cons.mp hc with rfl | h
  · exact hd
  · exact hb c h

/-- C188: the time of a row is the one that was written, to the millisecond. -/
theorem C188_time (c : DateTime) (ms : ℕ) (hok : c.ok = true) (hus : c.us = 0) (hm : ms < 1000) :
    aeStamp (aeText c ms) = .ok (some ((c.seconds : ℚ) + (ms : ℚ) / 1000)) := by
  obtain ⟨y, mo, d, h, mi, s, us⟩ := c
  simp only at hus
  subst hus
  obtain ⟨f1, f2, f3, f4, f5, f6⟩ := validDate_digits _ hok
  simp only at f1 f2 f3 f4 f5 f6
  have e1 : splitAtSep (· = ' ') (aeText ⟨y, mo, d, h, mi, s, 0⟩ ms)
      = [padDigits 4 y ++ '/' :: (padDigits 2 mo ++ '/' :: padDigits 2 d),
         padDigits 2 h ++ ':' :: (padDigits 2 mi ++ ':' :: (padDigits 2 s ++ '.' :: padDigits 3 ms))] := by
    have : aeText ⟨y, mo, d, h, mi, s, 0⟩ ms = (padDigits 4 y ++ '/' :: (padDigits 2 mo ++ '/' :: padDigits 2 d)) ++ ' ' ::
        (padDigits 2 h ++ ':' :: (padDigits 2 mi ++ ':' :: (padDigits 2 s ++ '.' :: padDigits 3 ms))) := by
      simp [aeText]
    rw [this, splitSep_append _ ' ' (by decide), splitSep_none, splitSep_none]
    · rfl
    · exact app_no _ _ _ (noSpace _ _) (cons_no _ _ _ (by decide) (app_no _ _ _ (noSpace _ _) (cons_no _ _ _ (by decide)
        (app_no _ _ _ (noSpace _ _) (cons_no _ _ _ (by decide) (noSpace _ _))))))
    · exact app_no _ _ _ (noSpace _ _) (cons_no _ _ _ (by decide) (app_no _ _ _ (noSpace _ _) (cons_no _ _ _ (by decide) (noSpace _ _))))
  have e2 : splitAtSep (· = '/') (padDigits 4 y ++ '/' :: (padDigits 2 mo ++ '/' :: padDigits 2 d)) = [padDigits 4 y, padDigits 2 mo, padDigits 2 d] := by
    rw [splitSep_append _ '/' (by decide), splitSep_append _ '/' (by decide), splitSep_none _ _ (noSlash _ _), splitSep_none _ _ (noSlash _ _),
      splitSep_none _ _ (noSlash _ _)]
    rfl
  have e3 : splitAtSep (· = ':') (padDigits 2 h ++ ':' :: (padDigits 2 mi ++ ':' :: (padDigits 2 s ++ '.' :: padDigits 3 ms)))
      = [padDigits 2 h, padDigits 2 mi, padDigits 2 s ++ '.' :: padDigits 3 ms] := by
    rw [splitSep_append _ ':' (by decide), splitSep_append _ ':' (by decide), splitSep_none _ _ (noColon _ _), splitSep_none _ _ (noColon _ _),
      splitSep_none _ _ (app_no _ _ _ (noColon _ _) (cons_no _ _ _ (by decide) (noColon _ _)))]
    rfl
  have e4 : splitAtSep (· = '.') (padDigits 2 s ++ '.' :: padDigits 3 ms) = [padDigits 2 s, padDigits 3 ms] := by
    rw [splitSep_append _ '.' (by decide), splitSep_none _ _ (noPoint _ _), splitSep_none _ _ (noPoint _ _)]
    rfl
  have g (α : Type) (l : List α) (a : α) : pyGet (a :: l) 0 = .ok a := pyGet_of_getElem? _ 0 a rfl
  have g1 (α : Type) (l : List α) (a b : α) : pyGet (a :: b :: l) 1 = .ok b := pyGet_of_getElem? _ 1 b rfl
  have g2 (α : Type) (l : List α) (a b c : α) : pyGet (a :: b :: c :: l) 2 = .ok c := pyGet_of_getElem? _ 2 c rfl
  unfold aeStamp
  rw [e1]
  simp only [g, g1, bind, Except.bind]
  rw [e2, e3]
  simp only [g, g1, g2, List.length_cons, List.length_nil, pyInt_padDigits 4 y (by norm_num) f1, pyInt_padDigits 2 mo (by norm_num) f2,
    pyInt_padDigits 2 d (by norm_num) f3, pyInt_padDigits 2 h (by norm_num) f4, pyInt_padDigits 2 mi (by norm_num) f5]
  rw [if_neg (by omega), e4]
  simp only [g, g1, fractionRead, pyInt_padDigits 2 s (by norm_num) f6, pyInt_padDigits 3 ms (by norm_num) hm, bind, Except.bind,
    dateTimeToEpoch, hok, if_true]
  norm_num

/-- C188: every complete row gets its own time and the configured offset, in order. -/
theorem C188_rows (offset : ℝ) (rows : List AeRow) (ms : List (Option (DateTime × ℕ))) (h : List.Forall₂ WrittenAt rows ms) :
    aeTimed offset rows = .ok (timedRows offset rows ms) := by
  induction h with
  | nil => rfl
  | @cons row m rows ms hw hrest ih =>
    unfold aeTimed
    obtain ⟨h1, h2⟩ := hw
    cases m with
    | none =>
      simp only [Option.map_none] at h1
      simp only [h1, ih, timedRows]
    | some p =>
      simp only [Option.map_some] at h1
      obtain ⟨a, b, c⟩ := h2 p rfl
      simp only [h1, C188_time _ _ a b c, ih, timedRows, bind, Except.bind, aeSeconds]
      push_cast
      rfl

/-- The file name has the date where it is expected. -/
def DatedName (cat : AeCategory) (file : List Char) : Prop :=
  ∃ word a b c rest, word.length = (if cat = .orientation then 8 else 3) ∧ a < 100 ∧ b < 100 ∧ c < 100 ∧
    file = word ++ (padDigits 2 a ++ (padDigits 2 b ++ (padDigits 2 c ++ rest)))

private theorem aeSlice (pre mid post : List Char) (a b : Nat) (ha : pre.length = a) (hb : a + mid.length = b) :
    slice (pre ++ (mid ++ post)) a b = mid := by
  subst ha hb
  rw [slice, ← List.append_assoc, List.take_left' (by simp), List.drop_left]

private theorem aeName_ok (cat : AeCategory) (file : List Char) (h : DatedName cat file) : aeName cat file = .ok () := by
  obtain ⟨word, a, b, c, rest, hw, ha, hb, hc, rfl⟩ := h
  unfold aeName
  generalize (if cat = AeCategory.orientation then 8 else 3) = k at *
  have s1 := aeSlice word (padDigits 2 a) (padDigits 2 b ++ (padDigits 2 c ++ rest)) k (k + 2) hw (by simp [padDigits_length])
  have s2 := aeSlice (word ++ padDigits 2 a) (padDigits 2 b) (padDigits 2 c ++ rest) (k + 2) (k + 4) (by simp [padDigits_length, hw])
    (by simp [padDigits_length])
  have s3 := aeSlice (word ++ padDigits 2 a ++ padDigits 2 b) (padDigits 2 c) rest (k + 4) (k + 6) (by simp [padDigits_length, hw])
    (by simp [padDigits_length])
  simp only [List.append_assoc] at s2 s3
  simp only [s1, s2, s3, pyInt_padDigits 2 _ (by norm_num) ha, pyInt_padDigits 2 _ (by norm_num) hb, pyInt_padDigits 2 _ (by norm_num) hc,
    bind, Except.bind]

private theorem aeParse_rows (csv : List Char → List Char → Option (List AeRow)) (m : AeCategory → AeSettings) (veh : AeVehicle) (cat : AeCategory)
    (rows : List AeRow) (ms : List (Option (DateTime × ℕ))) (hn : DatedName cat (m cat).file)
    (hf : csv (m .velocity).folder (m cat).file = some rows) (hw : List.Forall₂ WrittenAt rows ms) :
    aeParse csv m veh cat = aeOplab cat (m cat) veh (timedRows (m .velocity).timeoffset rows ms) := by
  unfold aeParse
  simp only [aeName_ok _ _ hn, hf, C188_rows _ _ _ hw, bind, Except.bind]

private theorem aeAcfr_rows (csv : List Char → List Char → Option (List AeRow)) (m : AeCategory → AeSettings) (veh : AeVehicle) (cat : AeCategory)
    (rows : List AeRow) (ms : List (Option (DateTime × ℕ))) (hn : DatedName cat (m cat).file)
    (hf : csv (m .velocity).folder (m cat).file = some rows) (hw : List.Forall₂ WrittenAt rows ms) :
    aeParseAcfr csv m veh cat = aeAcfr cat (m cat) veh (timedRows (m .velocity).timeoffset rows ms) := by
  unfold aeParseAcfr
  simp only [aeName_ok _ _ hn, hf, C188_rows _ _ _ hw, bind, Except.bind]

/-- Full statement: the log of each sensor is read from the folder of this sensor, and its times are corrected by the offset of this sensor. -/
def AeOwnSettings : Prop := ∀ (csv : List Char → List Char → Option (List AeRow)) (m : AeCategory → AeSettings) (veh : AeVehicle)
  (cat : AeCategory) (rows : List AeRow) (ms : List (Option (DateTime × ℕ))), DatedName cat (m cat).file → veh.ins.x = 0 → veh.ins.y = 0 →
  csv (m cat).folder (m cat).file = some rows → List.Forall₂ WrittenAt rows ms →
  ∃ out, aeParse csv m veh cat = .ok out ∧ ∀ r ∈ out, ∃ t, some t ∈ ms ∧ aeRecordTime r = aeSeconds t + (m cat).timeoffset

private theorem timed_mem (off : ℝ) : ∀ (rows : List AeRow) (ms : List (Option (DateTime × ℕ))), ∀ r ∈ timedRows off rows ms,
    ∃ t, some t ∈ ms ∧ r.1 = aeSeconds t + off
  | [], ms, r, h => by cases ms <;> simp [timedRows] at h
  | row :: rows, [], r, h => by simp [timedRows] at h
  | row :: rows, none :: ms, r, h => by
    obtain ⟨t, h1, h2⟩ := timed_mem off rows ms r (by simpa [timedRows] using h)
    exact ⟨t, List.mem_cons_of_mem _ h1, h2⟩
  | row :: rows, some m :: ms, r, h => by
    simp only [timedRows, List.mem_cons] at h
    rcases h with rfl | h
    · exact ⟨m, by simp, rfl⟩
    · obtain ⟨t, h1, h2⟩ := timed_mem off rows ms r h
      exact ⟨t, List.mem_cons_of_mem _ h1, h2⟩

private theorem orientations_ok (s : AeSettings) (veh : AeVehicle) (hx : veh.ins.x = 0) (hy : veh.ins.y = 0) (rows : List (ℝ × AeRow)) :
    aeOrientations s veh rows = .ok (rows.map fun r => .orientation r.1 ⟨r.2.att.x, r.2.att.y, offsetHeading r.2.att.z veh.ins.z⟩
      ⟨aeStd s r.2.att.x, aeStd s r.2.att.y, aeStd s r.2.att.z⟩) := by
  induction rows with
  | nil => rfl
  | cons r rows ih =>
    unfold aeOrientations aeAngles
    rw [if_neg (by simp [hx, hy])]
    simp only [bind, Except.bind, ih, List.map_cons]

private theorem depths_mem {K : Type} [Field K] [LinearOrder K] [IsStrictOrderedRing K] : ∀ (rows : List (K × Option K)) (prev : K),
    ∀ p ∈ ae2000Depths prev rows, (p.1, some p.2) ∈ rows
  | [], prev, p, h => by simp [ae2000Depths] at h
  | (t, none) :: rows, prev, p, h => by
    simp only [ae2000Depths] at h
    exact List.mem_cons_of_mem _ (depths_mem rows prev p h)
  | (t, some d) :: rows, prev, p, h => by
    simp only [ae2000Depths] at h
    split_ifs at h with a b
    · exact List.mem_cons_of_mem _ (depths_mem rows prev p h)
    · exact List.mem_cons_of_mem _ (depths_mem rows prev p h)
    · rcases List.mem_cons.mp h with rfl | h
      · simp
      · exact List.mem_cons_of_mem _ (depths_mem rows d p h)

private theorem oplab_times (cat : AeCategory) (s : AeSettings) (veh : AeVehicle) (hx : veh.ins.x = 0) (hy : veh.ins.y = 0)
    (rows : List (ℝ × AeRow)) : ∃ out, aeOplab cat s veh rows = .ok out ∧ ∀ r ∈ out, ∃ q ∈ rows, aeRecordTime r = q.1 := by
  cases cat with
  | velocity =>
    refine ⟨_, rfl, ?_⟩
    intro r hr
    obtain ⟨q, hq, e⟩ := List.mem_filterMap.mp hr
    refine ⟨q, hq, ?_⟩
    unfold aeVelocity at e
    split at e
    · cases e
    · split at e
      · cases e
      · simp only [Option.some.injEq] at e; subst e; rfl
  | orientation =>
    refine ⟨_, orientations_ok s veh hx hy rows, ?_⟩
    intro r hr
    obtain ⟨q, hq, rfl⟩ := List.mem_map.mp hr
    exact ⟨q, hq, rfl⟩
  | depth =>
    refine ⟨_, rfl, ?_⟩
    intro r hr
    obtain ⟨p, hp, rfl⟩ := List.mem_map.mp hr
    obtain ⟨q, hq, e⟩ := List.mem_map.mp (depths_mem _ _ p hp)
    exact ⟨q, hq, (congrArg Prod.fst e).symm⟩
  | altitude =>
    refine ⟨_, rfl, ?_⟩
    intro r hr
    obtain ⟨q, hq, e⟩ := List.mem_filterMap.mp hr
    refine ⟨q, hq, ?_⟩
    unfold aeAltitude at e
    split at e
    · cases e
    · split at e
      · cases e
      · simp only [Option.some.injEq] at e; subst e; rfl

/-- C188 (partial): true if the sensor has the folder and the offset of the velocity. Missing: other folders and offsets. -/
theorem C188_settings_partial (csv : List Char → List Char → Option (List AeRow)) (m : AeCategory → AeSettings) (veh : AeVehicle)
    (cat : AeCategory) (rows : List AeRow) (ms : List (Option (DateTime × ℕ))) (hn : DatedName cat (m cat).file) (hx : veh.ins.x = 0)
    (hy : veh.ins.y = 0) (hc : csv (m cat).folder (m cat).file = some rows) (hw : List.Forall₂ WrittenAt rows ms)
    (h1 : (m cat).folder = (m .velocity).folder) (h2 : (m cat).timeoffset = (m .velocity).timeoffset) :
    ∃ out, aeParse csv m veh cat = .ok out ∧ ∀ r ∈ out, ∃ t, some t ∈ ms ∧ aeRecordTime r = aeSeconds t + (m cat).timeoffset := by
  rw [aeParse_rows csv m veh cat rows ms hn (by rw [← h1]; exact hc) hw]
  obtain ⟨out, ho, hall⟩ := oplab_times cat (m cat) veh hx hy (timedRows (m .velocity).timeoffset rows ms)
  refine ⟨out, ho, ?_⟩
  intro r hr
  obtain ⟨q, hq, e⟩ := hall r hr
  obtain ⟨t, ht, e'⟩ := timed_mem _ _ _ q hq
  exact ⟨t, ht, by rw [e, e', h2]⟩

private noncomputable def exRow : AeRow := ⟨some (aeText ⟨2018, 8, 5, 12, 35, 3, 0⟩ 250), some 1, ⟨1000, 0, 0⟩, 2, ⟨1, 2, 3⟩, some 10⟩
private theorem exRow_written : List.Forall₂ WrittenAt [exRow] [some (⟨2018, 8, 5, 12, 35, 3, 0⟩, 250)] := by
  refine List.Forall₂.cons ⟨rfl, ?_⟩ List.Forall₂.nil
  intro p hp
  simp only [Option.some.injEq] at hp
  subst hp
  exact ⟨by decide, rfl, by norm_num⟩
private def posName : List Char := ['p', 'o', 's', '1', '8', '0', '8', '0', '5', '1', '2', '3', '4', '5', '6', '.', 'c', 's', 'v']
private theorem posName_dated : DatedName .depth posName :=
  ⟨['p', 'o', 's'], 18, 8, 5, ['1', '2', '3', '4', '5', '6', '.', 'c', 's', 'v'], by decide, by norm_num, by norm_num, by norm_num, by decide⟩

/-- C188 is false: the offset of the depth sensor is ignored. -/
theorem C188_offset_false : ¬ AeOwnSettings := by
  intro h
  obtain ⟨out, ho, hall⟩ := h (fun _ _ => some [exRow]) (fun c => ⟨[], posName, if c = .depth then 1 else 0, 0, 0⟩) ⟨⟨0, 0, 0⟩, ⟨0, 0, 0⟩⟩
    .depth [exRow] _ posName_dated rfl rfl rfl exRow_written
  rw [aeParse_rows _ _ _ _ _ _ posName_dated rfl exRow_written] at ho
  have hd : ∀ t : ℝ, ae2000Depths (0 : ℝ) [(t, some (10 : ℝ))] = [(t, 10)] := by
    intro t
    simp only [ae2000Depths]
    rw [if_neg (by norm_num), if_neg (by norm_num)]
  simp only [aeOplab, timedRows, exRow, List.map_cons, List.map_nil, hd, Except.ok.injEq] at ho
  subst ho
  obtain ⟨t, ht, e⟩ := hall _ (List.mem_singleton.mpr rfl)
  simp only [List.mem_singleton, Option.some.injEq] at ht
  subst ht
  simp [aeRecordTime] at e

/-- C188 is false: the log of the depth sensor is searched for in the folder of the velocity. -/
theorem C188_folder_false : ¬ AeOwnSettings := by
  intro h
  obtain ⟨out, ho, hall⟩ := h (fun d _ => if d = ['d'] then some [exRow] else none)
    (fun c => ⟨if c = .depth then ['d'] else ['v'], posName, 0, 0, 0⟩) ⟨⟨0, 0, 0⟩, ⟨0, 0, 0⟩⟩
    .depth [exRow] _ posName_dated rfl rfl rfl exRow_written
  simp [aeParse, aeName_ok _ _ posName_dated, bind, Except.bind] at ho

/-! ## C189 -/

/-- C189: in the oplab format the rows with bottom lock, and no others, give a velocity, in order: the measured one in m/s turned by the
mounting angles of the DVL, with the standard deviations configured. -/
theorem C189_velocities (csv : List Char → List Char → Option (List AeRow)) (m : AeCategory → AeSettings) (veh : AeVehicle)
    (rows : List AeRow) (ms : List (Option (DateTime × ℕ))) (hn : DatedName .velocity (m .velocity).file)
    (hc : csv (m .velocity).folder (m .velocity).file = some rows) (hw : List.Forall₂ WrittenAt rows ms) :
    ∃ out, aeParse csv m veh .velocity = .ok out ∧
      List.Forall₂ (fun (r : ℝ × AeRow) rec => ∃ v : V3 ℝ, v = bodyToInertial veh.dvl.x veh.dvl.y veh.dvl.z
          ⟨r.2.vel.x / 1000, r.2.vel.y / 1000, r.2.vel.z / 1000⟩ ∧
        rec = .velocity r.1 v ⟨|v.x| * (m .velocity).stdFactor + (m .velocity).stdOffset, |v.y| * (m .velocity).stdFactor + (m .velocity).stdOffset,
          |v.z| * (m .velocity).stdFactor + (m .velocity).stdOffset⟩)
        ((timedRows (m .velocity).timeoffset rows ms).filter fun r => r.2.valid = some 1) out := by
  rw [aeParse_rows csv m veh .velocity rows ms hn hc hw]
  refine ⟨_, rfl, ?_⟩
  generalize timedRows (m .velocity).timeoffset rows ms = l
  induction l with
  | nil => exact List.Forall₂.nil
  | cons r l ih =>
    rw [List.filterMap_cons, List.filter_cons]
    cases hv : r.2.valid with
    | none =>
      have e : aeVelocity (m .velocity) veh r = none := by simp only [aeVelocity, hv]
      rw [e, if_neg (by simp)]
      exact ih
    | some k =>
      by_cases hk : k = 1
      · subst hk
        obtain ⟨x, e, hx⟩ : ∃ x, aeVelocity (m .velocity) veh r = some x ∧ x = .velocity r.1 (bodyToInertial veh.dvl.x veh.dvl.y veh.dvl.z
            ⟨r.2.vel.x / 1000, r.2.vel.y / 1000, r.2.vel.z / 1000⟩) _ :=
          ⟨_, by simp only [aeVelocity, hv, ne_eq, not_true_eq_false, if_false]; rfl, rfl⟩
        subst hx
        rw [e, if_pos (by simp)]
        exact List.Forall₂.cons ⟨_, rfl, rfl⟩ ih
      · have e : aeVelocity (m .velocity) veh r = none := by simp only [aeVelocity, hv, ne_eq, hk, not_false_eq_true, if_true]
        rw [e, if_neg (by simpa using hk)]
        exact ih

/-- Full statement: the acfr format holds the velocities of the oplab format. -/
def AeSameVelocities : Prop := ∀ (csv : List Char → List Char → Option (List AeRow)) (m : AeCategory → AeSettings) (veh : AeVehicle)
  (out : List AeRecord), aeParse csv m veh .velocity = .ok out → ∃ lines, aeParseAcfr csv m veh .velocity = .ok lines ∧
    List.Forall₂ (fun rec line => ∃ t v std alt angles, rec = AeRecord.velocity t v std ∧ line = AeLine.rdi t alt angles v) out lines

/-- C189 (partial): true for a DVL in line with the vehicle if every row says whether there is bottom lock. Missing: mounting angles and
rows without this field. -/
theorem C189_formats_partial (csv : List Char → List Char → Option (List AeRow)) (m : AeCategory → AeSettings) (veh : AeVehicle)
    (hz : veh.dvl = ⟨0, 0, 0⟩) (rows : List AeRow) (ms : List (Option (DateTime × ℕ))) (hn : DatedName .velocity (m .velocity).file)
    (hc : csv (m .velocity).folder (m .velocity).file = some rows) (hw : List.Forall₂ WrittenAt rows ms)
    (hv : ∀ r ∈ rows, r.valid ≠ none) :
    ∃ out lines, aeParse csv m veh .velocity = .ok out ∧ aeParseAcfr csv m veh .velocity = .ok lines ∧
      List.Forall₂ (fun rec line => ∃ t v std alt angles, rec = AeRecord.velocity t v std ∧ line = AeLine.rdi t alt angles v) out lines := by
  rw [aeParse_rows csv m veh .velocity rows ms hn hc hw, aeAcfr_rows csv m veh .velocity rows ms hn hc hw]
  have hv' : ∀ r ∈ timedRows (m .velocity).timeoffset rows ms, r.2.valid ≠ none := by
    have : ∀ (rows : List AeRow) (ms : List (Option (DateTime × ℕ))), (∀ r ∈ rows, r.valid ≠ none) →
        ∀ r ∈ timedRows (m .velocity).timeoffset rows ms, r.2.valid ≠ none := by
      intro rows
      induction rows with
      | nil => intro ms _ r hr; cases ms <;> simp [timedRows] at hr
      | cons row rows ih =>
        intro ms h r hr
        have h' : ∀ r ∈ rows, r.valid ≠ none := fun r hr => h r (List.mem_cons_of_mem _ hr)
        rcases ms with _ | ⟨_ | t, ms⟩
        · simp [timedRows] at hr
        · exact ih ms h' r (by simpa [timedRows] using hr)
        · simp only [timedRows, List.mem_cons] at hr
          rcases hr with rfl | hr
          · exact h row (by simp)
          · exact ih ms h' r hr
    exact this rows ms hv
  generalize timedRows (m .velocity).timeoffset rows ms = l at *
  refine ⟨l.filterMap (aeVelocity (m .velocity) veh), ?_⟩
  simp only [aeOplab, true_and]
  induction l with
  | nil => exact ⟨[], rfl, List.Forall₂.nil⟩
  | cons r l ih =>
    obtain ⟨lines, e, hf⟩ := ih fun q hq => hv' q (List.mem_cons_of_mem _ hq)
    have hr := hv' r (by simp)
    cases hk : r.2.valid with
    | none => exact absurd hk hr
    | some k =>
      by_cases h1 : k = 1
      · subst h1
        refine ⟨_, by simp only [aeAcfr, hk, ne_eq, not_true_eq_false, if_false, e, bind, Except.bind]; rfl, ?_⟩
        rw [List.filterMap_cons]
        simp only [aeVelocity, hk, ne_eq, not_true_eq_false, if_false, hz]
        refine List.Forall₂.cons ⟨_, _, _, r.2.range, r.2.att, rfl, ?_⟩ hf
        simp [bodyToInertial]
      · refine ⟨lines, by simp only [aeAcfr, hk, ne_eq, h1, not_false_eq_true, if_true, e], ?_⟩
        rw [List.filterMap_cons]
        simp only [aeVelocity, hk, ne_eq, h1, not_false_eq_true, if_true]
        exact hf

private def dvlName : List Char := ['d', 'v', 'l', '1', '8', '0', '8', '0', '5', '1', '2', '3', '4', '5', '6', '.', 'c', 's', 'v']
private theorem dvlName_dated : DatedName .velocity dvlName :=
  ⟨['d', 'v', 'l'], 18, 8, 5, ['1', '2', '3', '4', '5', '6', '.', 'c', 's', 'v'], by decide, by norm_num, by norm_num, by norm_num, by decide⟩

/-- C189 is false: in the acfr format the velocities are not turned by the mounting angles. -/
theorem C189_rotation_false : ¬ AeSameVelocities := by
  intro h
  have hp := aeParse_rows (fun _ _ => some [exRow]) (fun _ => ⟨[], dvlName, 0, 0, 0⟩) ⟨⟨0, 0, 180⟩, ⟨0, 0, 0⟩⟩ .velocity [exRow] _ dvlName_dated rfl exRow_written
  obtain ⟨lines, hl, hf⟩ := h (fun _ _ => some [exRow]) (fun _ => ⟨[], dvlName, 0, 0, 0⟩) ⟨⟨0, 0, 180⟩, ⟨0, 0, 0⟩⟩ _ (by rw [hp]; rfl)
  rw [aeAcfr_rows _ _ _ _ _ _ dvlName_dated rfl exRow_written] at hl
  simp only [aeAcfr, timedRows, exRow, bind, Except.bind, ne_eq, not_true_eq_false, if_false, Except.ok.injEq] at hl
  subst hl
  simp only [timedRows, exRow, List.filterMap_cons, aeVelocity, ne_eq, not_true_eq_false, if_false, List.filterMap_nil] at hf
  rcases hf with _ | ⟨⟨t, v, std, alt, angles, e1, e2⟩, -⟩
  simp only [AeRecord.velocity.injEq, AeLine.rdi.injEq] at e1 e2
  have h3 := e1.2.1.trans e2.2.2.2.symm
  have h4 := congrArg V3.x h3
  simp only [bodyToInertial, degToRad] at h4
  have e : (180 : ℝ) * (Real.pi / 180) = Real.pi := by ring
  rw [e] at h4
  norm_num at h4

/-- C189 is false: a row without bottom lock field stops the acfr format. -/
theorem C189_missing_false : ¬ AeSameVelocities := by
  intro h
  have hw : List.Forall₂ WrittenAt [{ exRow with valid := none }] [some (⟨2018, 8, 5, 12, 35, 3, 0⟩, 250)] := by
    refine List.Forall₂.cons ⟨rfl, ?_⟩ List.Forall₂.nil
    intro p hp
    simp only [Option.some.injEq] at hp
    subst hp
    exact ⟨by decide, rfl, by norm_num⟩
  have hp := aeParse_rows (fun _ _ => some [{ exRow with valid := none }]) (fun _ => ⟨[], dvlName, 0, 0, 0⟩) ⟨⟨0, 0, 0⟩, ⟨0, 0, 0⟩⟩ .velocity _ _ dvlName_dated rfl hw
  obtain ⟨lines, hl, hf⟩ := h (fun _ _ => some [{ exRow with valid := none }]) (fun _ => ⟨[], dvlName, 0, 0, 0⟩) ⟨⟨0, 0, 0⟩, ⟨0, 0, 0⟩⟩ _ (by rw [hp]; rfl)
  rw [aeAcfr_rows _ _ _ _ _ _ dvlName_dated rfl hw] at hl
  simp only [aeAcfr, timedRows, exRow] at hl
  cases hl

/-! ## C190 -/

/-- C190: every complete row of an orientation log gives one record, in order, with its angles and the mounting angle added to the
heading, if the INS has no other mounting angle. -/
theorem C190_orientations (csv : List Char → List Char → Option (List AeRow)) (m : AeCategory → AeSettings) (veh : AeVehicle)
    (rows : List AeRow) (ms : List (Option (DateTime × ℕ))) (hn : DatedName .orientation (m .orientation).file)
    (hc : csv (m .velocity).folder (m .orientation).file = some rows) (hw : List.Forall₂ WrittenAt rows ms)
    (hx : veh.ins.x = 0) (hy : veh.ins.y = 0) :
    aeParse csv m veh .orientation = .ok ((timedRows (m .velocity).timeoffset rows ms).map fun r =>
      .orientation r.1 ⟨r.2.att.x, r.2.att.y, offsetHeading r.2.att.z veh.ins.z⟩
        ⟨|r.2.att.x| * (m .orientation).stdFactor + (m .orientation).stdOffset, |r.2.att.y| * (m .orientation).stdFactor + (m .orientation).stdOffset,
          |r.2.att.z| * (m .orientation).stdFactor + (m .orientation).stdOffset⟩) := by
  rw [aeParse_rows csv m veh .orientation rows ms hn hc hw]
  exact orientations_ok _ veh hx hy _

/-- C190: with another mounting angle nothing is converted unless the log is empty. -/
theorem C190_mounting (csv : List Char → List Char → Option (List AeRow)) (m : AeCategory → AeSettings) (veh : AeVehicle)
    (rows : List AeRow) (ms : List (Option (DateTime × ℕ))) (hn : DatedName .orientation (m .orientation).file)
    (hc : csv (m .velocity).folder (m .orientation).file = some rows) (hw : List.Forall₂ WrittenAt rows ms)
    (hx : veh.ins.x ≠ 0 ∨ veh.ins.y ≠ 0) (hne : timedRows (m .velocity).timeoffset rows ms ≠ []) :
    aeParse csv m veh .orientation = .error .quit := by
  rw [aeParse_rows csv m veh .orientation rows ms hn hc hw]
  obtain ⟨r, l, e⟩ := List.exists_cons_of_ne_nil hne
  rw [e]
  simp only [aeOplab, aeOrientations, aeAngles]
  rw [if_pos hx]
  rfl

/-- C190: the acfr format holds the same orientations, for every log and every vehicle. -/
theorem C190_orientation_formats (csv : List Char → List Char → Option (List AeRow)) (m : AeCategory → AeSettings) (veh : AeVehicle) :
    aeParseAcfr csv m veh .orientation = (aeParse csv m veh .orientation).map fun out => out.map fun
      | .orientation t angles std => .compass t angles std
      | .velocity t v _ => .rdi t 0 v v
      | .depth t d _ => .parosci t (some d)
      | .altitude t a _ => .parosci t (some a) := by
  have key : ∀ l : List (ℝ × AeRow), aeAcfr .orientation (m .orientation) veh l = (aeOrientations (m .orientation) veh l).map fun out => out.map fun
      | .orientation t angles std => .compass t angles std
      | .velocity t v _ => .rdi t 0 v v
      | .depth t d _ => .parosci t (some d)
      | .altitude t a _ => .parosci t (some a) := by
    intro l
    induction l with
    | nil => rfl
    | cons r l ih =>
      simp only [aeAcfr, aeOrientations, bind, Except.bind]
      cases aeAngles (m .orientation) veh r with
      | error e => rfl
      | ok a =>
        simp only [ih]
        cases aeOrientations (m .orientation) veh l with
        | error e => rfl
        | ok o => rfl
  unfold aeParseAcfr aeParse
  cases aeName .orientation (m .orientation).file with
  | error e => rfl
  | ok u =>
    simp only [bind, Except.bind]
    cases csv (m .velocity).folder (m .orientation).file with
    | none => rfl
    | some rows =>
      simp only
      cases aeTimed (m .velocity).timeoffset rows with
      | error e => rfl
      | ok timed => exact key timed

/-- C190: the rows with bottom lock, and no others, give an altitude, in order. -/
theorem C190_altitudes (csv : List Char → List Char → Option (List AeRow)) (m : AeCategory → AeSettings) (veh : AeVehicle)
    (rows : List AeRow) (ms : List (Option (DateTime × ℕ))) (hn : DatedName .altitude (m .altitude).file)
    (hc : csv (m .velocity).folder (m .altitude).file = some rows) (hw : List.Forall₂ WrittenAt rows ms) :
    aeParse csv m veh .altitude = .ok (((timedRows (m .velocity).timeoffset rows ms).filter fun r => r.2.valid = some 1).map fun r =>
      .altitude r.1 r.2.range (r.2.range * (m .altitude).stdFactor + (m .altitude).stdOffset)) := by
  rw [aeParse_rows csv m veh .altitude rows ms hn hc hw]
  simp only [aeOplab, Except.ok.injEq]
  generalize timedRows (m .velocity).timeoffset rows ms = l
  induction l with
  | nil => rfl
  | cons r l ih =>
    rw [List.filterMap_cons, List.filter_cons]
    cases hv : r.2.valid with
    | none =>
      have e : aeAltitude (m .altitude) r = none := by simp only [aeAltitude, hv]
      rw [e, if_neg (by simp)]
      exact ih
    | some k =>
      by_cases hk : k = 1
      · subst hk
        have e : aeAltitude (m .altitude) r = some (.altitude r.1 r.2.range (r.2.range * (m .altitude).stdFactor + (m .altitude).stdOffset)) := by
          simp only [aeAltitude, hv, ne_eq, not_true_eq_false, if_false]
        rw [e, if_pos (by simp), List.map_cons]
        exact congrArg _ ih
      · have e : aeAltitude (m .altitude) r = none := by simp only [aeAltitude, hv, ne_eq, hk, not_false_eq_true, if_true]
        rw [e, if_neg (by simpa using hk)]
        exact ih

/-- Full statement: an acfr file holds no depth that the oplab format leaves out, and holds the altitudes. -/
def AeSameDepths : Prop := ∀ (csv : List Char → List Char → Option (List AeRow)) (m : AeCategory → AeSettings) (veh : AeVehicle)
  (out : List AeRecord) (lines : List AeLine), aeParse csv m veh .depth = .ok out → aeParseAcfr csv m veh .depth = .ok lines →
  ∀ t d, AeLine.parosci t d ∈ lines → ∃ std x, d = some x ∧ AeRecord.depth t x std ∈ out

/-- C190 is false: depths above the surface, which the oplab format leaves out, are in the acfr format. -/
theorem C190_depth_false : ¬ AeSameDepths := by
  intro h
  have hw : List.Forall₂ WrittenAt [{ exRow with depth := some (-5) }] [some (⟨2018, 8, 5, 12, 35, 3, 0⟩, 250)] := by
    refine List.Forall₂.cons ⟨rfl, ?_⟩ List.Forall₂.nil
    intro p hp
    simp only [Option.some.injEq] at hp
    subst hp
    exact ⟨by decide, rfl, by norm_num⟩
  have hp := aeParse_rows (fun _ _ => some [{ exRow with depth := some (-5) }]) (fun _ => ⟨[], posName, 0, 0, 0⟩) ⟨⟨0, 0, 0⟩, ⟨0, 0, 0⟩⟩ .depth _ _ posName_dated rfl hw
  have hl := aeAcfr_rows (fun _ _ => some [{ exRow with depth := some (-5) }]) (fun _ => ⟨[], posName, 0, 0, 0⟩) ⟨⟨0, 0, 0⟩, ⟨0, 0, 0⟩⟩ .depth _ _ posName_dated rfl hw
  simp only [aeOplab, timedRows, exRow, List.map_cons, List.map_nil, ae2000Depths] at hp
  rw [if_pos (by norm_num)] at hp
  simp only [aeAcfr, timedRows, exRow, bind, Except.bind] at hl
  obtain ⟨std, x, -, hm⟩ := h _ _ _ _ _ hp hl _ _ (List.mem_singleton.mpr rfl)
  simp at hm

/-- C190: the depths of the oplab format are depths of rows of the log below the surface, in order, with the deviation of the settings. -/
theorem C190_depths (csv : List Char → List Char → Option (List AeRow)) (m : AeCategory → AeSettings) (veh : AeVehicle)
    (rows : List AeRow) (ms : List (Option (DateTime × ℕ))) (hn : DatedName .depth (m .depth).file)
    (hc : csv (m .velocity).folder (m .depth).file = some rows) (hw : List.Forall₂ WrittenAt rows ms) :
    ∃ kept : List (ℝ × ℝ), aeParse csv m veh .depth = .ok (kept.map fun p => .depth p.1 p.2 (p.2 * (m .depth).stdFactor + (m .depth).stdOffset)) ∧
      (kept.map fun p => (p.1, some p.2)).Sublist ((timedRows (m .velocity).timeoffset rows ms).map fun r => (r.1, r.2.depth)) ∧
      (∀ p ∈ kept, 0 < p.2) ∧ kept.IsChain fun p q => p.2 ≠ q.2 := by
  rw [aeParse_rows csv m veh .depth rows ms hn hc hw]
  have hd := C141_depths_kept ((timedRows (m .velocity).timeoffset rows ms).map fun r => (r.1, r.2.depth))
  refine ⟨_, ?_, hd⟩
  simp only [aeOplab, Except.ok.injEq]
  refine List.map_congr_left fun p hp => ?_
  rw [aeStd, abs_of_pos (hd.2.1 p hp)]

example : ∃ rows ms, List.Forall₂ WrittenAt rows ms ∧ rows ≠ [] ∧ DatedName .depth posName :=
  ⟨[exRow], _, exRow_written, by simp, posName_dated⟩

/-- C190: no altitude is ever written in the acfr format. -/
theorem C190_altitude_acfr_empty (s : AeSettings) (veh : AeVehicle) (rows : List (ℝ × AeRow)) : aeAcfr .altitude s veh rows = .ok [] := by
  induction rows with
  | nil => rfl
  | cons r l ih => simpa [aeAcfr] using ih

/-- The hypotheses hold for a log of one row. -/
example : ∃ out, aeParse (fun _ _ => some [exRow]) (fun _ => ⟨[], dvlName, 0, 0, 0⟩) ⟨⟨0, 0, 90⟩, ⟨0, 0, 0⟩⟩ .velocity = .ok out ∧ out.length = 1 := by
  obtain ⟨out, h, hf⟩ := C189_velocities (fun _ _ => some [exRow]) (fun _ => ⟨[], dvlName, 0, 0, 0⟩) ⟨⟨0, 0, 90⟩, ⟨0, 0, 0⟩⟩ [exRow] _ dvlName_dated rfl exRow_written
  refine ⟨out, h, ?_⟩
  rw [← hf.length_eq]
  simp [timedRows, exRow]

end Oplab.Props
