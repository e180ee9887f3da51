import Mathlib.Tactic.Linarith
import Mathlib.Tactic.NormNum
import Mathlib.Tactic.FieldSimp
import Verif.Spec.Convert

namespace Oplab.Props
open Oplab Oplab.Spec

/-! ## C61: conversion does not overwrite -/

/-- Writing does not touch other files. -/
private theorem write_file (d : Disk) (p q : RelPath) (t : String) :
    (d.write p t).file q = if q = p then some t else d.file q := rfl

private theorem mkdir_file (d : Disk) (p q : RelPath) : (d.mkdir p).file q = d.file q := rfl

/-- Files written by the steps. -/
private def written : List ConvStep → List RelPath
  | [] => []
  | .write p _ :: r => p :: written r
  | _ :: r => written r

private theorem other_files (force : Bool) (steps : List ConvStep) : ∀ (d : Disk) (q : RelPath), q ∉ written steps →
    (runConv force d steps).1.file q = d.file q := by
  induction steps with
  | nil => intro d q _; rfl
  | cons s r ih =>
    intro d q hq
    cases s with
    | guardFiles ps =>
      simp only [runConv]
      split
      · rfl
      · exact ih d q hq
    | guardDir p =>
      simp only [runConv]
      split
      · rfl
      · exact ih d q hq
    | mkdir p => simp only [runConv]; rw [ih _ q hq]; rfl
    | write p t =>
      simp only [written, List.mem_cons, not_or] at hq
      simp only [runConv]; rw [ih _ q hq.2, write_file, if_neg hq.1]

private theorem unchanged_of_absent (force : Bool) (steps : List ConvStep) (d : Disk)
    (h : ∀ p ∈ written steps, d.file p = none) : Unchanged d (runConv force d steps).1 := by
  intro p t hp
  rw [other_files force steps d p, hp]
  intro hm
  rw [h p hm] at hp
  exact absurd hp (by simp)

/-- C61: whatever the steps and the force flag, a conversion removes no file and no folder. -/
theorem C61_nothing_removed (force : Bool) (steps : List ConvStep) : ∀ (d : Disk) (q : RelPath),
    ((d.file q).isSome → ((runConv force d steps).1.file q).isSome) ∧
    (d.dir q = true → (runConv force d steps).1.dir q = true) := by
  induction steps with
  | nil => intro d q; exact ⟨id, id⟩
  | cons s r ih =>
    intro d q
    cases s with
    | guardFiles ps =>
      simp only [runConv]
      split
      · exact ⟨id, id⟩
      · exact ih d q
    | guardDir p =>
      simp only [runConv]
      split
      · exact ⟨id, id⟩
      · exact ih d q
    | mkdir p =>
      simp only [runConv]
      exact ⟨fun h => (ih _ q).1 h, fun h => (ih _ q).2 (by simp [Disk.mkdir, h])⟩
    | write p t =>
      simp only [runConv]
      refine ⟨fun h => (ih _ q).1 ?_, fun h => (ih _ q).2 h⟩
      rw [write_file]
      split
      · rfl
      · exact h

/-- C61: making a folder makes it and the folders it lies in, and no other. -/
theorem C61_mkdir (d : Disk) (p q : RelPath) :
    ((d.mkdir p).dir q = true ↔ d.dir q = true ∨ q <+: p) ∧ (d.mkdir p).file = d.file := by
  refine ⟨?_, rfl⟩
  simp [Disk.mkdir, List.isPrefixOf_iff_prefix]

/-- C61: the hybis conversion overwrites nothing. -/
theorem C61_hybis (renav text : String) : NoOverwrite (hybisToOplab renav text) := by
  intro d hd
  by_cases h : d.dir [renav] = true
  · simp [hybisToOplab, runConv, h, Unchanged]
  · have : runConv false d (hybisToOplab renav text) = runConv false d (hybisToOplab renav text).tail := by
      simp [hybisToOplab, runConv, h]
    rw [this]
    apply unchanged_of_absent
    intro p hp
    simp only [hybisToOplab, List.tail_cons, written, List.mem_cons, List.not_mem_nil, or_false, or_self] at hp
    subst hp
    by_contra hne
    obtain ⟨t, ht⟩ := Option.ne_none_iff_exists'.mp hne
    exact h (hd _ t ht [renav] ⟨_, rfl⟩ (by simp))

/-- C61: the koyo20rov conversion overwrites nothing. -/
theorem C61_koyo20rov (renav camA camB a b l : String) : NoOverwrite (koyo20rovToOplab renav camA camB a b l) := by
  intro d _
  simp only [koyo20rovToOplab, runConv, List.any_cons, List.any_nil, Bool.or_false, Bool.not_false, Bool.and_true,
    mkdir_file]
  split_ifs with h1 h2 h3
  · intro p t hp; exact hp
  · intro p t hp; exact hp
  · intro p t hp; exact hp
  · intro p t hp
    simp only [Bool.not_eq_true, Option.isSome_eq_false_iff, Option.isNone_iff_eq_none] at h1 h2 h3
    simp only [write_file, mkdir_file]
    split_ifs with e1 e2 e3
    · subst e1; rw [h2] at hp; cases hp
    · subst e2; rw [h1] at hp; cases hp
    · subst e3; rw [h3] at hp; cases hp
    · exact hp


private theorem file_ne (x y : String) (h : x ≠ y) : "auv_dr_" ++ x ++ ".csv" ≠ "auv_dr_" ++ y ++ ".csv" := by
  intro he
  apply h
  have h2 := congrArg String.toList he
  simp only [String.toList_append, List.append_assoc] at h2
  have h3 := List.append_cancel_left h2
  have h4 := List.append_cancel_right h3
  exact String.toList_inj.mp h4

/-- C61: with the force flag, or when nothing is in the way, the koyo20rov conversion does write its three files (two
cameras with different names, neither called "LM165_at_dvl"). -/
theorem C61_koyo20rov_written (force : Bool) (d : Disk) (renav camA camB a b l : String) (hAB : camA ≠ camB)
    (hA : camA ≠ "LM165_at_dvl") (hB : camB ≠ "LM165_at_dvl")
    (h : force = true ∨ ∀ f, d.file [renav, "csv", "dead_reckoning", f] = none) :
    let r := runConv force d (koyo20rovToOplab renav camA camB a b l)
    r.2 = none ∧ r.1.file [renav, "csv", "dead_reckoning", "auv_dr_" ++ camA ++ ".csv"] = some a ∧
      r.1.file [renav, "csv", "dead_reckoning", "auv_dr_" ++ camB ++ ".csv"] = some b ∧
      r.1.file [renav, "csv", "dead_reckoning", "auv_dr_LM165_at_dvl.csv"] = some l := by
  have hne := file_ne _ _ hAB
  have hneA : "auv_dr_LM165_at_dvl.csv" ≠ "auv_dr_" ++ camA ++ ".csv" := fun e => file_ne _ _ hA (e.symm.trans (by decide))
  have hneB : "auv_dr_LM165_at_dvl.csv" ≠ "auv_dr_" ++ camB ++ ".csv" := fun e => file_ne _ _ hB (e.symm.trans (by decide))
  have hrun : ∀ ps : List RelPath, (∀ p ∈ ps, ∃ f, p = [renav, "csv", "dead_reckoning", f]) →
      (ps.any (fun p => (d.file p).isSome) && !force) = false := by
    intro ps hps
    rcases h with h | h
    · simp [h]
    · simp only [Bool.and_eq_false_iff]
      left
      rw [List.any_eq_false]
      intro p hp
      obtain ⟨f, rfl⟩ := hps p hp
      simp [h]
  have g1 := hrun [[renav, "csv", "dead_reckoning", "auv_dr_" ++ camA ++ ".csv"]] (by simp)
  have g2 := hrun [[renav, "csv", "dead_reckoning", "auv_dr_" ++ camB ++ ".csv"]] (by simp)
  have g3 := hrun [[renav, "csv", "dead_reckoning", "auv_dr_LM165_at_dvl.csv"]] (by simp)
  simp only [koyo20rovToOplab, runConv, mkdir_file, List.cons_append, List.nil_append, g1, g2, g3,
    Bool.false_eq_true, if_false, write_file]
  refine ⟨trivial, ?_, ?_, ?_⟩
  · rw [if_neg, if_pos trivial]
    intro he
    simp only [List.cons.injEq, and_true, true_and] at he
    exact hne he
  · rw [if_pos trivial]
  · rw [if_neg, if_neg, if_pos trivial]
    · intro he; simp only [List.cons.injEq, and_true, true_and] at he; exact hneA he
    · intro he; simp only [List.cons.injEq, and_true, true_and] at he; exact hneB he

private theorem runConv_append (force : Bool) (xs ys : List ConvStep) : ∀ d : Disk,
    runConv force d (xs ++ ys) =
      if (runConv force d xs).2.isSome then runConv force d xs else runConv force (runConv force d xs).1 ys := by
  induction xs with
  | nil => intro d; simp [runConv]
  | cons s r ih =>
    intro d
    cases s with
    | guardFiles ps =>
      simp only [List.cons_append, runConv]
      split
      · simp
      · exact ih d
    | guardDir p =>
      simp only [List.cons_append, runConv]
      split
      · simp
      · exact ih d
    | mkdir p => simp only [List.cons_append, runConv]; exact ih _
    | write p t => simp only [List.cons_append, runConv]; exact ih _

private theorem written_append (xs ys : List ConvStep) : written (xs ++ ys) = written xs ++ written ys := by
  induction xs with
  | nil => rfl
  | cons s r ih => cases s <;> simp [written, ih]

private theorem written_csv (name : String) (c : CsvData) (p : RelPath) (h : p ∈ written (csvSteps name c)) :
    p = [name ++ ".csv"] ∨ p = [name ++ "_cov.csv"] := by
  unfold csvSteps at h
  split at h
  · cases hc : c.cov with
    | none => simp [written, hc] at h; exact Or.inl h
    | some t => simpa [written, hc] using h
  · simp [written] at h

/-- C61 (partial): `acfr_to_oplab` leaves every file alone except the CSV and covariance files of the vehicle and of the
two cameras. Missing: those files (see `C61_acfr_vehicle_false`, `C61_acfr_stereo_false`). -/
theorem C61_acfr_partial (v : Option CsvData) (s : Option (CsvData × CsvData)) (laser : Option String) (d : Disk)
    (p : RelPath) (t : String) (h : d.file p = some t)
    (hp : p ∉ [["auv_acfr_centre.csv.csv"], ["auv_acfr_centre.csv_cov.csv"], ["auv_acfr_LC.csv"],
      ["auv_acfr_LC_cov.csv"], ["auv_acfr_RC.csv"], ["auv_acfr_RC_cov.csv"]]) :
    (runConv false d (acfrToOplab v s laser)).1.file p = some t := by
  simp only [List.mem_cons, List.not_mem_nil, or_false, not_or] at hp
  obtain ⟨p1, p2, p3, p4, p5, p6⟩ := hp
  have k1 : ∀ c, p ∉ written (csvSteps "auv_acfr_centre.csv" c) := fun c hm => by
    rcases written_csv _ _ _ hm with e | e
    · exact p1 (e.trans (by decide))
    · exact p2 (e.trans (by decide))
  have k2 : ∀ c, p ∉ written (csvSteps "auv_acfr_LC" c) := fun c hm => by
    rcases written_csv _ _ _ hm with e | e
    · exact p3 (e.trans (by decide))
    · exact p4 (e.trans (by decide))
  have k3 : ∀ c, p ∉ written (csvSteps "auv_acfr_RC" c) := fun c hm => by
    rcases written_csv _ _ _ hm with e | e
    · exact p5 (e.trans (by decide))
    · exact p6 (e.trans (by decide))
  have main : ∀ A : List ConvStep, p ∉ written A → ∀ x : String,
      (runConv false d (A ++ [.guardFiles [["auv_acfr_laser.csv"]], .write ["auv_acfr_laser.csv"] x])).1.file p = some t := by
    intro A hA x
    have hsame : (runConv false d A).1.file p = some t := by rw [other_files false A d p hA, h]
    rw [runConv_append]
    split
    · exact hsame
    · simp only [runConv]
      split
      · exact hsame
      · rename_i hn
        rw [write_file]
        split
        · rename_i e
          subst e
          simp [hsame] at hn
        · exact hsame
  have tail : ∀ A : List ConvStep, p ∉ written A → (runConv false d A).1.file p = some t := by
    intro A hA; rw [other_files false A d p hA, h]
  have hv : ∀ v : Option CsvData, p ∉ written (match v with
    | some v => ConvStep.guardFiles [["auv_acfr_centre.csv"]] :: csvSteps "auv_acfr_centre.csv" v
    | none => []) := by
    intro v
    cases v with
    | none => simp [written]
    | some v => exact k1 v
  cases s with
  | none =>
    simp only [acfrToOplab, List.append_nil]
    exact tail _ (hv v)
  | some lr =>
    obtain ⟨l, r⟩ := lr
    have hlr : p ∉ written (ConvStep.guardFiles [["auv_dr_LC.csv"]] :: csvSteps "auv_acfr_LC" l
        ++ csvSteps "auv_acfr_RC" r) := by
      rw [written_append]
      simp only [written, List.mem_append, not_or]
      exact ⟨k2 l, k3 r⟩
    cases laser with
    | none =>
      simp only [acfrToOplab, List.append_nil]
      apply tail
      rw [written_append, List.mem_append, not_or]
      exact ⟨hv v, hlr⟩
    | some x =>
      simp only [acfrToOplab]
      rw [← List.append_assoc]
      apply main
      rw [written_append, List.mem_append, not_or]
      exact ⟨hv v, hlr⟩

/-- C61 (partial): `acfr_to_oplab` does write what it is given; a converted track with at least two entries replaces
whatever was in the vehicle file, force flag or not. -/
theorem C61_acfr_written_partial (force : Bool) (v : CsvData) (hv : 1 < v.rows) (d : Disk)
    (h : force = true ∨ d.file ["auv_acfr_centre.csv"] = none) :
    (runConv force d (acfrToOplab (some v) none none)).1.file ["auv_acfr_centre.csv.csv"] = some v.text := by
  have hg : ([["auv_acfr_centre.csv"]].any (fun p => (d.file p).isSome) && !force) = false := by
    rcases h with h | h <;> simp [h]
  simp only [acfrToOplab, csvSteps, hv, if_true, List.append_nil, runConv, hg, Bool.false_eq_true, if_false]
  cases v.cov with
  | none => simp [runConv, write_file]
  | some t => simp [runConv, write_file]

/-- C61 is false: running the vehicle pose conversion twice without the force flag overwrites the result of the first
run, because the guard looks at "auv_acfr_centre.csv" and the file is called "auv_acfr_centre.csv.csv". -/
theorem C61_acfr_vehicle_false : ¬ ∀ v s laser, NoOverwrite (acfrToOplab v s laser) := by
  intro h
  have := h (some ⟨2, "new", none⟩) none none
    ⟨fun p => if p = ["auv_acfr_centre.csv.csv"] then some "old" else none, fun _ => true⟩ (by intro _ _ _ _ _ _; rfl)
    ["auv_acfr_centre.csv.csv"] "old" rfl
  revert this
  decide +kernel

/-- C61 is false: for the stereo poses the guard looks at "auv_dr_LC.csv", the files are "auv_acfr_LC.csv" and
"auv_acfr_RC.csv". -/
theorem C61_acfr_stereo_false : ¬ ∀ s laser, NoOverwrite (acfrToOplab none s laser) := by
  intro h
  have := h (some (⟨2, "new", none⟩, ⟨2, "new", none⟩)) none
    ⟨fun p => if p = ["auv_acfr_LC.csv"] then some "old" else none, fun _ => true⟩ (by intro _ _ _ _ _ _; rfl)
    ["auv_acfr_LC.csv"] "old" rfl
  revert this
  decide +kernel

/-- C61 (partial): `oplab_to_acfr` leaves every file alone except the mission configuration and the combined RAW file,
and changes nothing at all once a pose file is there. Missing: those two files (see `C61_combined_raw_false`). -/
theorem C61_oplab_to_acfr_partial (v : String) (s : Option (String × String × String)) (d : Disk) (p : RelPath) (t : String)
    (h : d.file p = some t)
    (hp : p ∉ [["mission.cfg"], ["dRAWLOGS_cv", "combined.RAW.auv"]] ∨
      (∃ x, d.file ["vehicle_pose_est.data"] = some x) ∨ (∃ x, d.file ["stereo_pose_est.data"] = some x)) :
    (runConv false d (oplabToAcfr v s)).1.file p = some t := by
  by_cases hg : ([["vehicle_pose_est.data"], ["stereo_pose_est.data"]].any (fun p => (d.file p).isSome) && !false) = true
  · simp only [oplabToAcfr, List.cons_append, runConv, hg, if_true, h]
  · have hno : d.file ["vehicle_pose_est.data"] = none ∧ d.file ["stereo_pose_est.data"] = none := by
      simpa using hg
    rcases hp with hp | hp | hp
    · rw [other_files, h]
      simp only [List.mem_cons, List.not_mem_nil, or_false, not_or] at hp
      have n1 : p ≠ ["vehicle_pose_est.data"] := fun e => by rw [e, hno.1] at h; cases h
      have n2 : p ≠ ["stereo_pose_est.data"] := fun e => by rw [e, hno.2] at h; cases h
      cases s with
      | none => simp [oplabToAcfr, written, n1]
      | some s => simp [oplabToAcfr, written, n1, n2, hp.1, hp.2]
    · obtain ⟨x, hx⟩ := hp; rw [hno.1] at hx; cases hx
    · obtain ⟨x, hx⟩ := hp; rw [hno.2] at hx; cases hx

/-- C61: with the force flag, or without pose files in the way, `oplab_to_acfr` writes all its files. -/
theorem C61_oplab_to_acfr_written (force : Bool) (v s cfg raw : String) (d : Disk)
    (h : force = true ∨ d.file ["vehicle_pose_est.data"] = none ∧ d.file ["stereo_pose_est.data"] = none) :
    let r := runConv force d (oplabToAcfr v (some (s, cfg, raw)))
    r.2 = none ∧ r.1.file ["vehicle_pose_est.data"] = some v ∧ r.1.file ["stereo_pose_est.data"] = some s ∧
      r.1.file ["mission.cfg"] = some cfg ∧ r.1.file ["dRAWLOGS_cv", "combined.RAW.auv"] = some raw := by
  have hg : ([["vehicle_pose_est.data"], ["stereo_pose_est.data"]].any (fun p => (d.file p).isSome) && !force) = false := by
    rcases h with h | h
    · simp [h]
    · simp [h.1, h.2]
  have hr : runConv force d (oplabToAcfr v (some (s, cfg, raw))) =
      ((((((d.mkdir []).write ["vehicle_pose_est.data"] v).write ["stereo_pose_est.data"] s).mkdir ["dRAWLOGS_cv"]).write
        ["mission.cfg"] cfg).write ["dRAWLOGS_cv", "combined.RAW.auv"] raw, none) := by
    unfold oplabToAcfr
    show (if _ then _ else _) = _
    rw [hg]; rfl
  have e1 : ["vehicle_pose_est.data"] ≠ ["stereo_pose_est.data"] := by decide
  have e2 : ["vehicle_pose_est.data"] ≠ ["mission.cfg"] := by decide
  have e3 : ["vehicle_pose_est.data"] ≠ ["dRAWLOGS_cv", "combined.RAW.auv"] := by decide
  have e4 : ["stereo_pose_est.data"] ≠ ["mission.cfg"] := by decide
  have e5 : ["stereo_pose_est.data"] ≠ ["dRAWLOGS_cv", "combined.RAW.auv"] := by decide
  have e6 : ["mission.cfg"] ≠ ["dRAWLOGS_cv", "combined.RAW.auv"] := by decide
  intro r
  have hr' : r = _ := hr
  rw [hr']
  refine ⟨rfl, ?_, ?_, ?_, ?_⟩
  · rw [write_file, if_neg e3, write_file, if_neg e2, mkdir_file, write_file, if_neg e1, write_file, if_pos rfl]
  · rw [write_file, if_neg e5, write_file, if_neg e4, mkdir_file, write_file, if_pos rfl]
  · rw [write_file, if_neg e6, write_file, if_pos rfl]
  · rw [write_file, if_pos rfl]

/-- C61 is false: a combined RAW file (for example of another conversion into the same folder, whose pose files were
moved away) is overwritten without the force flag. -/
theorem C61_combined_raw_false : ¬ ∀ v s, NoOverwrite (oplabToAcfr v s) := by
  intro h
  have := h "v" (some ("s", "cfg", "new"))
    ⟨fun p => if p = ["dRAWLOGS_cv", "combined.RAW.auv"] then some "old" else none, fun _ => true⟩
    (by intro _ _ _ _ _ _; rfl) ["dRAWLOGS_cv", "combined.RAW.auv"] "old" rfl
  revert this
  decide +kernel

/-- A folder with one file in it. -/
example : RealDisk ⟨fun p => if p = ["a", "b"] then some "x" else none, fun p => p = [] ∨ p = ["a"]⟩ := by
  intro p t h q hq hne
  simp only [Option.ite_none_right_eq_some] at h
  rw [h.1] at hq hne
  rcases q with _ | ⟨x, q⟩
  · decide
  · obtain ⟨r, hr⟩ := hq
    rcases q with _ | ⟨y, q⟩
    · simp only [List.cons_append, List.nil_append, List.cons.injEq] at hr
      simp [hr.1]
    · simp only [List.cons_append, List.cons.injEq, List.append_eq_nil_iff] at hr
      exact absurd (by rw [hr.1, hr.2.1, hr.2.2.1]) hne

/-- The hypotheses of `C61_acfr_partial` are met by an existing laser file. -/
example : (runConv false ⟨fun p => if p = ["auv_acfr_laser.csv"] then some "old" else none, fun _ => true⟩
    (acfrToOplab none (some (⟨2, "l", none⟩, ⟨2, "r", none⟩)) (some "new"))).1.file ["auv_acfr_laser.csv"] = some "old" :=
  C61_acfr_partial _ _ _ _ _ _ rfl (by decide)

end Oplab.Props
