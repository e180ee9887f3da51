import Mathlib.Algebra.Order.Field.Rat
import Mathlib.Tactic.NormNum
import Verif.Model.Acfr

/-! Properties C25 (ACFR pose files) and C26 (combined RAW file). -/

set_option linter.unusedSectionVars false

namespace Oplab.Props
open Oplab

/-! ## C25 -/

section
variable {K : Type} [Field K]

private theorem skip_header {E} (a b : Nat) (entry : List (Tok K) → Res E) (x : List (Tok K)) (ls : List (List (Tok K)))
    (f : PoseFile K E) (hab : a ≤ b) : ∀ (n i : Nat), i + n ≤ a →
    readPoseLines a b entry i f (List.replicate n x ++ ls) = readPoseLines a b entry (i + n) f ls
  | 0, i, _ => by simp
  | n + 1, i, h => by
    have h1 : ¬ i = a := by omega
    have h2 : ¬ i = b := by omega
    have h3 : ¬ i > b := by omega
    rw [List.replicate_succ, List.cons_append, readPoseLines]
    simp only [h1, h2, h3, if_false, bind, Except.bind]
    rw [skip_header a b entry x ls f hab n (i + 1) (by omega), show i + 1 + n = i + (n + 1) by omega]

private theorem read_entries {E} (a b : Nat) (entry : List (Tok K) → Res E) (hab : a ≤ b) : ∀ (ls : List (List (Tok K)))
    (es : List E) (i : Nat) (f : PoseFile K E), b < i → ls.map entry = es.map .ok →
    readPoseLines a b entry i f ls = .ok { f with entries := f.entries ++ es }
  | [], es, i, f, _, h => by
    have : es = [] := by simpa using h.symm
    subst this; simp [readPoseLines]
  | l :: ls, [], i, f, _, h => by simp at h
  | l :: ls, e :: es, i, f, hi, h => by
    simp only [List.map_cons, List.cons.injEq] at h
    have h1 : ¬ i = a := by omega
    have h2 : ¬ i = b := by omega
    have h3 : i > b := hi
    rw [readPoseLines]
    simp only [h1, h2, h3, if_false, if_true, bind, Except.bind, h.1]
    rw [read_entries a b entry hab ls es (i + 1) _ (by omega) h.2]
    simp

/-- How angles are mangled on the way through a pose file. -/
def swappedAngles (deg yaw0 : K) (p : Pose K) : Pose K :=
  { p with roll := p.pitch * deg, pitch := -(p.roll * deg), yaw := p.yaw * deg + yaw0 }

/-- C25 is false for vehicle pose files: for every origin and every track with a first pose `p`, what is read back has the longitude
as latitude, the time of the first pose as longitude, and lacks the first pose (and its angles are mangled). -/
theorem C25_vehicle_shifted_false (deg lat lon : K) (p : Pose K) (track : List (Pose K)) :
    readVehiclePose deg (writeVehiclePose lat lon (p :: track))
      = .ok ⟨some lon, some p.stamp, track.map (swappedAngles deg 0)⟩ := by
  rw [readVehiclePose, writeVehiclePose, List.append_assoc, skip_header 44 45 _ _ _ _ (by omega) 43 0 (by omega)]
  simp only [List.cons_append, List.nil_append, List.mapIdx_cons]
  rw [readPoseLines]
  simp only [Nat.zero_add, show ¬ (43 = 44) by omega, show ¬ (43 = 45) by omega, show ¬ (43 > 45) by omega, if_false,
    bind, Except.bind]
  rw [readPoseLines]
  simp only [Nat.reduceAdd, if_true, show ¬ (44 = 45) by omega, show ¬ (44 > 45) by omega, if_false,
    bind, Except.bind, tokFloat, List.getElem?_cons_succ, List.getElem?_cons_zero]
  rw [readPoseLines]
  simp only [Nat.reduceAdd, if_true, show ¬ (45 = 44) by omega, show ¬ (45 > 45) by omega, if_false,
    bind, Except.bind, tokFloat, poseTokens, List.getElem?_cons_succ, List.getElem?_cons_zero]
  rw [read_entries 44 45 _ (by omega) _ (track.map (swappedAngles deg 0)) 46 _ (by omega) ?_]
  · simp
  · apply List.ext_getElem (by simp)
    intro n h1 h2
    simp [readVehicleEntry, tokFloat, poseTokens, swappedAngles, bind, Except.bind]

/-- C25 in the property's words, for vehicle pose files, is false. -/
theorem C25_vehicle_roundtrip_false : ¬ ∀ (lat lon : ℚ) (track : List (Pose ℚ)),
    readVehiclePose 57 (writeVehiclePose lat lon track) = .ok ⟨some lat, some lon, track⟩ := by
  intro h
  have := h 1 2 [⟨3, 0, 0, 0, 0, 0, 0, 0, 0, 0⟩]
  rw [C25_vehicle_shifted_false] at this
  simp at this

/-- C25 (partial): stereo pose files keep the origin, every pose in order, its time, position, depth, altitude and image
names. Missing: the angles (roll and pitch are exchanged, all are scaled by 180/π, yaw is shifted by 90). -/
theorem C25_stereo_positions_partial (deg lat lon : K) (track : List (StereoPose K)) :
    readStereoPose deg (writeStereoPose lat lon track)
      = .ok ⟨some lat, some lon, track.map fun s => { s with pose := swappedAngles deg 90 s.pose }⟩ := by
  rw [readStereoPose, writeStereoPose, List.append_assoc, skip_header 55 56 _ _ _ _ (by omega) 55 0 (by omega)]
  simp only [List.cons_append, List.nil_append]
  rw [readPoseLines]
  simp only [Nat.zero_add, if_true, show ¬ (55 = 56) by omega, show ¬ (55 > 56) by omega, if_false,
    bind, Except.bind, tokFloat, List.getElem?_cons_succ, List.getElem?_cons_zero]
  rw [readPoseLines]
  simp only [Nat.reduceAdd, if_true, show ¬ (56 = 55) by omega, show ¬ (56 > 56) by omega, if_false,
    bind, Except.bind, tokFloat, List.getElem?_cons_succ, List.getElem?_cons_zero]
  rw [read_entries 55 56 _ (by omega) _ (track.map fun s => { s with pose := swappedAngles deg 90 s.pose }) 57 _
    (by omega) ?_]
  · simp
  · apply List.ext_getElem (by simp)
    intro n h1 h2
    simp [readStereoEntry, tokFloat, tokWord, swappedAngles, bind, Except.bind]

/-- C25 is false for the angles of stereo pose files, whatever the degrees-per-radian factor. -/
theorem C25_stereo_angles_false (deg : ℚ) : ¬ ∀ (lat lon : ℚ) (track : List (StereoPose ℚ)),
    readStereoPose deg (writeStereoPose lat lon track) = .ok ⟨some lat, some lon, track⟩ := by
  intro hall
  have h1 := hall 0 0 [⟨⟨0, 0, 0, 0, 0, 0, 1, 1, 0, 0⟩, "l", "r"⟩]
  rw [C25_stereo_positions_partial] at h1
  simp [swappedAngles] at h1

/-- A line of comment: it begins with `%`. -/
def IsComment (l : List (Tok K)) : Prop := l.head? = some (.word "%")

/-- C25 (header): apart from lines of comment, the files begin with the latitude and the longitude of the origin, under their
names, and what follows are the poses. -/
theorem C25_header (lat lon : K) (track : List (Pose K)) (stereo : List (StereoPose K)) :
    (∃ c rest, writeVehiclePose lat lon track = c ++ [[.word "ORIGIN_LATITUDE", .num lat], [.word "ORIGIN_LONGITUDE", .num lon]] ++ rest ∧
      (∀ l ∈ c, IsComment l) ∧ rest.length = track.length) ∧
    ∃ c rest, writeStereoPose lat lon stereo = c ++ [[.word "ORIGIN_LATITUDE", .num lat], [.word "ORIGIN_LONGITUDE", .num lon]] ++ rest ∧
      (∀ l ∈ c, IsComment l) ∧ rest.length = stereo.length := by
  refine ⟨⟨_, _, rfl, fun l hl => ?_, by simp⟩, ⟨_, _, rfl, fun l hl => ?_, by simp⟩⟩
  · rw [List.eq_of_mem_replicate hl]; rfl
  · rw [List.eq_of_mem_replicate hl]; rfl


end

/-! ## C26 -/

section
variable {α : Type}

/-- An RDI record was written by the call for measurement number `k`. -/
def RdiAt (outs : List (Option (RawOut α))) (k : Nat) : Prop := ∃ v a o, outs[k]? = some (some (.rdi v a o))

/-- The latest measurement of a kind before call `i`, since the previous RDI record. -/
def LatestSince (ms : List (RawMeas α)) (outs : List (Option (RawOut α))) (i : Nat) (mk : α → RawMeas α) (a : α) : Prop :=
  ∃ j, j < i ∧ ms[j]? = some (mk a) ∧ (∀ k b, j < k → k < i → ms[k]? ≠ some (mk b)) ∧
    ∀ k, j < k → k < i → ¬ RdiAt outs k

private theorem run_length (s : RawState α) (ms : List (RawMeas α)) : (rawRun s ms).length = ms.length := by
  induction ms generalizing s with
  | nil => rfl
  | cons m ms ih => simp [rawRun, ih]

/-- State before call number `i`. -/
private def stateAt (s : RawState α) (ms : List (RawMeas α)) (i : Nat) : RawState α :=
  (ms.take i).foldl (fun s m => (rawAdd s m).1) s

private theorem out_at (s : RawState α) (ms : List (RawMeas α)) (i : Nat) :
    (rawRun s ms)[i]? = ms[i]?.map fun m => (rawAdd (stateAt s ms i) m).2 := by
  induction ms generalizing s i with
  | nil => simp [rawRun]
  | cons m ms ih =>
    cases i with
    | zero => simp [rawRun, stateAt]
    | succ i => simp only [rawRun, List.getElem?_cons_succ, ih]; rfl

private theorem state_succ (ms : List (RawMeas α)) (i : Nat) (m : RawMeas α) (h : ms[i]? = some m) (s : RawState α) :
    stateAt s ms (i + 1) = (rawAdd (stateAt s ms i) m).1 := by
  have hlt : i < ms.length := (List.getElem?_eq_some_iff.mp h).1
  have hm : ms[i] = m := (List.getElem?_eq_some_iff.mp h).2
  simp only [stateAt]
  rw [List.take_add_one, h]
  simp [List.foldl_append]

/-- The held altitude (orientation) before call `i` is exactly the latest one since the previous RDI record. -/
private theorem held (ms : List (RawMeas α)) : ∀ i, i ≤ ms.length →
    (∀ a, (stateAt {} ms i).alt = some a ↔ LatestSince ms (rawRun {} ms) i .altitude a) ∧
    (∀ o, (stateAt {} ms i).ori = some o ↔ LatestSince ms (rawRun {} ms) i .orientation o)
  | 0, _ => by
    constructor <;> intro a <;> simp [stateAt, LatestSince]
  | i + 1, hi => by
    obtain ⟨iha, iho⟩ := held ms i (by omega)
    have hlt : i < ms.length := by omega
    obtain ⟨m, hm⟩ : ∃ m, ms[i]? = some m := ⟨ms[i], List.getElem?_eq_getElem hlt⟩
    have hs := state_succ ms i m hm {}
    have ho := out_at {} ms i
    rw [hm] at ho
    simp only [Option.map_some] at ho
    rw [hs]
    set st := stateAt {} ms i with hst
    -- extending the window by a call that is not of the kind and writes no RDI record
    have ext : ∀ (mk : α → RawMeas α) a, (∀ b, m ≠ mk b) → ¬ RdiAt (rawRun {} ms) i →
        (LatestSince ms (rawRun {} ms) (i + 1) mk a ↔ LatestSince ms (rawRun {} ms) i mk a) := by
      intro mk a hne hr
      constructor
      · rintro ⟨j, j1, j2, j3, j4⟩
        have hji : j ≠ i := by rintro rfl; rw [hm] at j2; exact hne a (Option.some.inj j2)
        exact ⟨j, by omega, j2, fun k b k1 k2 => j3 k b k1 (by omega), fun k k1 k2 => j4 k k1 (by omega)⟩
      · rintro ⟨j, j1, j2, j3, j4⟩
        refine ⟨j, by omega, j2, fun k b k1 k2 => ?_, fun k k1 k2 => ?_⟩
        · rcases Nat.lt_or_ge k i with h | h
          · exact j3 k b k1 h
          · have : k = i := by omega
            subst this; rw [hm]; intro hc; exact hne b (Option.some.inj hc)
        · rcases Nat.lt_or_ge k i with h | h
          · exact j4 k k1 h
          · have : k = i := by omega
            subst this; exact hr
    have fresh : ∀ (mk : α → RawMeas α) a b, m = mk b → (∀ x y, mk x = mk y → x = y) →
        (some b = some a ↔ LatestSince ms (rawRun {} ms) (i + 1) mk a) := by
      intro mk a b hb hinj
      constructor
      · rintro h
        have hba : b = a := by simpa using h
        refine ⟨i, by omega, by rw [hm, hb, hba], ?_, ?_⟩
        · intro k c k1 k2; omega
        · intro k k1 k2; omega
      · rintro ⟨j, j1, j2, j3, j4⟩
        rcases Nat.lt_or_ge j i with h | h
        · exact absurd (by rw [hm, hb]) (j3 i b h (by omega))
        · have : j = i := by omega
          subst this
          rw [hm, hb] at j2
          exact congrArg some (hinj _ _ (Option.some.inj j2))
    have norec : (∀ v a o, (rawAdd st m).2 ≠ some (.rdi v a o)) → ¬ RdiAt (rawRun {} ms) i := by
      rintro h ⟨v, a, o, hv⟩
      rw [ho] at hv
      exact h v a o (by simpa using hv)
    cases m with
    | velocity v =>
      simp only [rawAdd] at ho norec ⊢
      cases ha : st.alt with
      | none =>
        simp only [ha] at norec
        refine ⟨fun a => ?_, fun o => ?_⟩
        · rw [ha, ext _ a (by simp) (norec (by simp)), ← iha a, ha]
        · rw [ext _ o (by simp) (norec (by simp)), ← iho o]
      | some a0 =>
        cases hb : st.ori with
        | none =>
          simp only [ha, hb] at norec
          refine ⟨fun a => ?_, fun o => ?_⟩
          · rw [ha, ext _ a (by simp) (norec (by simp)), ← iha a, ha]
          · rw [hb, ext _ o (by simp) (norec (by simp)), ← iho o, hb]
        | some o0 =>
          simp only [ha, hb] at ho
          have hrec : RdiAt (rawRun {} ms) i := ⟨v, a0, o0, ho⟩
          refine ⟨fun a => ?_, fun o => ?_⟩ <;>
          · simp only [reduceCtorEq, false_iff]
            rintro ⟨j, j1, j2, j3, j4⟩
            rcases Nat.lt_or_ge j i with h | h
            · exact j4 i h (by omega) hrec
            · have : j = i := by omega
              subst this; rw [hm] at j2; simp at j2
    | altitude a0 =>
      refine ⟨fun a => ?_, fun o => ?_⟩
      · exact fresh .altitude a a0 rfl (by simp)
      · rw [ext _ o (by simp) (norec (by simp [rawAdd]))]; exact iho o
    | orientation o0 =>
      refine ⟨fun a => ?_, fun o => ?_⟩
      · rw [ext _ a (by simp) (norec (by simp [rawAdd]))]; exact iha a
      · exact fresh .orientation o o0 rfl (by simp)
    | depth d =>
      refine ⟨fun a => ?_, fun o => ?_⟩
      · rw [ext _ a (by simp) (norec (by simp [rawAdd]))]; exact iha a
      · rw [ext _ o (by simp) (norec (by simp [rawAdd]))]; exact iho o
    | usbl d =>
      refine ⟨fun a => ?_, fun o => ?_⟩
      · rw [ext _ a (by simp) (norec (by simp [rawAdd]))]; exact iha a
      · rw [ext _ o (by simp) (norec (by simp [rawAdd]))]; exact iho o
    | camera l d =>
      refine ⟨fun a => ?_, fun o => ?_⟩
      · rw [ext _ a (by simp) (norec (by cases l <;> simp [rawAdd]))]; exact iha a
      · rw [ext _ o (by simp) (norec (by cases l <;> simp [rawAdd]))]; exact iho o
    | ignored =>
      refine ⟨fun a => ?_, fun o => ?_⟩
      · rw [ext _ a (by simp) (norec (by simp [rawAdd]))]; exact iha a
      · rw [ext _ o (by simp) (norec (by simp [rawAdd]))]; exact iho o

/-- C26: call `i` writes the RDI record (v, a, o) if and only if it was given velocity `v`, and `a`, `o` are the latest altitude and
orientation received since the previous RDI record. In particular none is written while either is missing. -/
theorem C26_rdi_iff (ms : List (RawMeas α)) (i : Nat) (v a o : α) :
    (rawRun {} ms)[i]? = some (some (.rdi v a o)) ↔
      ms[i]? = some (.velocity v) ∧ LatestSince ms (rawRun {} ms) i .altitude a ∧
        LatestSince ms (rawRun {} ms) i .orientation o := by
  rw [out_at]
  constructor
  · intro h
    cases hm : ms[i]? with
    | none => rw [hm] at h; simp at h
    | some m =>
      have hlt : i < ms.length := (List.getElem?_eq_some_iff.mp hm).1
      obtain ⟨ha, ho⟩ := held ms i hlt.le
      rw [hm] at h
      cases m with
      | velocity w =>
        simp only [Option.map_some, Option.some.injEq, rawAdd] at h
        split at h
        · rename_i a0 o0 e1 e2
          simp only [Option.some.injEq, RawOut.rdi.injEq] at h
          obtain ⟨rfl, rfl, rfl⟩ := h
          exact ⟨rfl, (ha a0).mp e1, (ho o0).mp e2⟩
        · simp at h
      | camera l c => cases l <;> simp [rawAdd] at h
      | _ => simp [rawAdd] at h
  · rintro ⟨hm, ha', ho'⟩
    have hlt : i < ms.length := (List.getElem?_eq_some_iff.mp hm).1
    obtain ⟨ha, ho⟩ := held ms i hlt.le
    rw [hm]
    simp [rawAdd, (ha a).mpr ha', (ho o).mpr ho']

/-- The record a measurement other than a velocity stands for. -/
def plainRecord : RawMeas α → Option (RawOut α)
  | .orientation o => some (.compass o)
  | .depth d => some (.parosci d)
  | .usbl u => some (.ssbl u)
  | .camera false c => some (.vis c)
  | _ => none

/-- C26: apart from RDI records, the file holds the other measurements one-to-one and in order (laser images left out). -/
theorem C26_others_in_order (ms : List (RawMeas α)) :
    (rawFile ms).filter (fun r => match r with | .rdi _ _ _ => false | _ => true) = ms.filterMap plainRecord := by
  have : ∀ (ms : List (RawMeas α)) (s : RawState α), ((rawRun s ms).filterMap id).filter
      (fun r => match r with | .rdi _ _ _ => false | _ => true) = ms.filterMap plainRecord := by
    intro ms
    induction ms with
    | nil => intro s; rfl
    | cons m ms ih =>
      intro s
      simp only [rawRun, List.filterMap_cons, id]
      cases m with
      | velocity v =>
        simp only [rawAdd, plainRecord]
        split
        · exact ih _
        · rename_i h
          split at h
          · simp only [Option.some.injEq] at h; subst h
            rw [List.filter_cons]; simp only [Bool.false_eq_true, if_false]; exact ih _
          · simp at h
      | camera l c => cases l <;> simp [rawAdd, plainRecord, ih]
      | _ => simp [rawAdd, plainRecord, ih]
  exact this ms {}

example : rawFile [.velocity 1, .altitude 2, .orientation 3, .velocity 4, .velocity 5, .depth 6]
    = [.compass 3, .rdi 4 2 3, .parosci 6] := by decide

example : LatestSince [.altitude 2, .altitude 7, .orientation 3, .velocity 4] (rawRun {} [.altitude 2, .altitude 7, .orientation 3, .velocity 4])
    3 .altitude 7 := by
  have := (C26_rdi_iff [.altitude 2, .altitude 7, .orientation 3, .velocity 4] 3 4 7 3).mp (by decide)
  exact this.2.1

end

end Oplab.Props
