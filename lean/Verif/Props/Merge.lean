import Verif.Model.Merge
import Verif.Spec.Merge
import Verif.Lemmas.Split
import Verif.Lemmas.Calendar
import Mathlib.Tactic.NormNum

/-! # C199: merging dives -/

namespace Oplab.Props
open Oplab Oplab.Spec

/-! ## Files -/

private theorem put_same (fs : FileStore) (p : Path') (s : String) : fs.put p s p = some s := by simp [FileStore.put]

private theorem put_other (fs : FileStore) (p q : Path') (s : String) (h : q ≠ p) : fs.put p s q = fs q := by simp [FileStore.put, h]

private theorem copyFiles_other (q : Path') : ∀ (l : List (Path' × Path')) (fs : FileStore), (∀ x ∈ l, x.2 ≠ q) → (copyFiles fs l).1 q = fs q
  | [], fs, _ => rfl
  | (a, b) :: l, fs, h => by
    rw [copyFiles, copyFile]
    cases ha : fs a with
    | none => rfl
    | some s =>
      simp only
      rw [copyFiles_other q l _ fun x hx => h x (List.mem_cons_of_mem _ hx)]
      exact put_other _ _ _ _ (Ne.symm (h (a, b) (List.mem_cons_self ..)))

private theorem copyFiles_done : ∀ (l : List (Path' × Path')) (fs : FileStore), (∀ x ∈ l, ∃ s, fs x.1 = some s) → (∀ x ∈ l, ∀ y ∈ l, x.1 ≠ y.2) →
    (l.map Prod.snd).Nodup → (copyFiles fs l).2 = .done ∧ ∀ x ∈ l, (copyFiles fs l).1 x.2 = fs x.1
  | [], fs, _, _, _ => ⟨rfl, by simp⟩
  | (a, b) :: l, fs, h, hne, hnd => by
    obtain ⟨s, hs⟩ := h (a, b) (List.mem_cons_self ..)
    have hs : fs a = some s := hs
    rw [copyFiles, copyFile, hs]
    simp only
    rw [List.map_cons, List.nodup_cons] at hnd
    have hput : ∀ x ∈ l, fs.put b s x.1 = fs x.1 := by
      intro x hx
      exact put_other _ _ _ _ (hne x (List.mem_cons_of_mem _ hx) (a, b) (List.mem_cons_self ..))
    obtain ⟨h1, h2⟩ := copyFiles_done l (fs.put b s) (fun x hx => by
        rw [hput x hx]
        exact h x (List.mem_cons_of_mem _ hx))
      (fun x hx y hy => hne x (List.mem_cons_of_mem _ hx) y (List.mem_cons_of_mem _ hy)) hnd.2
    refine ⟨h1, ?_⟩
    intro x hx
    rcases List.mem_cons.mp hx with rfl | hx
    · rw [copyFiles_other b l _ fun y hy he => hnd.1 (List.mem_map.mpr ⟨y, hy, he⟩), put_same]
      exact hs.symm
    · rw [h2 x hx, hput x hx]

private theorem mission_not_log (time f : String) (a b : Path') : a ++ ["mission.yaml"] ≠ b ++ ["log", time ++ "_" ++ f] := by
  intro h
  have h1 := congrArg List.getLast? h
  rw [List.getLast?_append, List.getLast?_append] at h1
  simp only [List.getLast?_singleton, List.getLast?_cons_cons, Option.some_or, Option.some.injEq] at h1
  have h2 : '_' ∈ "mission.yaml".toList := by
    rw [h1]
    simp
  revert h2
  decide

private theorem mission_not_nav (a b : Path') : a ++ ["mission.yaml"] ≠ b ++ ["nav", "nav_standard.json"] := by
  intro h
  have h1 := congrArg List.getLast? h
  rw [List.getLast?_append, List.getLast?_append] at h1
  simp at h1

private theorem parseDive_mission (time nav : String) (fs : FileStore) (d : MergeDive) (dir : Path') :
    (parseDive time nav fs d).1 (dir ++ ["mission.yaml"]) = fs (dir ++ ["mission.yaml"]) := by
  have h1 := copyFiles_other (dir ++ ["mission.yaml"]) (settingsFiles.map fun f => (d.raw ++ [f], d.processed ++ ["log", time ++ "_" ++ f])) fs (by
    intro x hx
    obtain ⟨f, -, rfl⟩ := List.mem_map.mp hx
    exact (mission_not_log time f dir d.processed).symm)
  rw [parseDive]
  rcases hc : copyFiles fs (settingsFiles.map fun f => (d.raw ++ [f], d.processed ++ ["log", time ++ "_" ++ f])) with ⟨fs', e⟩
  rw [hc] at h1
  cases e with
  | done => exact (put_other _ _ _ _ (mission_not_nav _ _)).trans h1
  | noFile p => exact h1
  | failed e => exact h1

private theorem parseDives_mission (time : String) (dir : Path') : ∀ (dives : List (MergeDive × String)) (fs : FileStore),
    (parseDiveFiles time fs dives).1 (dir ++ ["mission.yaml"]) = fs (dir ++ ["mission.yaml"])
  | [], fs => rfl
  | (d, nav) :: l, fs => by
    have h1 := parseDive_mission time nav fs d dir
    rw [parseDiveFiles]
    rcases hc : parseDive time nav fs d with ⟨fs', e⟩
    rw [hc] at h1
    cases e with
    | done => exact (parseDives_mission time dir l fs').trans h1
    | noFile p => exact h1
    | failed e => exact h1

/-- C199: parsing with `--merge` never completes unless the processed folder of the first dive already has a mission.yaml: no step of the command puts one
there. -/
theorem C199_never_completes (time : String) (merge : List String → Res String) (interlace : String → String) (fs : FileStore)
    (d e : MergeDive × String) (l : List (MergeDive × String)) (h : fs (d.1.processed ++ ["mission.yaml"]) = none) :
    (parseMerge time merge interlace fs (d :: e :: l)).2 ≠ .done := by
  have h1 := parseDives_mission time d.1.processed (d :: e :: l) fs
  rw [h] at h1
  rw [parseMerge]
  rcases hc : parseDiveFiles time fs (d :: e :: l) with ⟨fs', r⟩
  rw [hc] at h1
  cases r with
  | noFile p => simp
  | failed p => simp
  | done =>
    simp only [List.map_cons, mergeDives]
    split
    · simp
    · split
      · simp
      · split
        · simp
        · rename_i merged _
          have h2 : ∀ out : Path', (FileStore.put fs' (out ++ ["nav", "nav_standard.json"]) merged) (d.1.processed ++ ["mission.yaml"]) = none := by
            intro out
            rw [put_other _ _ _ _ (mission_not_nav _ _)]
            exact h1
          simp only [settingsFiles, List.map_cons, List.map_nil, copyFiles, copyFile]
          rw [h2]
          simp

private def twoDives : List (MergeDive × String) :=
  [(⟨['2', '0', '1', '7', '0', '8', '1', '7', '_', '0', '4', '1', '4', '5', '9'], ["raw", "a"], ["processed", "a"]⟩, "A"),
   (⟨['2', '0', '1', '7', '0', '8', '1', '8', '_', '0', '4', '1', '4', '5', '9'], ["raw", "b"], ["processed", "b"]⟩, "B")]

private def freshFiles : FileStore := fun p => if p.head? = some "raw" then some "settings" else none

private theorem twoDives_mergeable : Mergeable (fun l => .ok (String.join l)) freshFiles twoDives where
  two := by simp [twoDives]
  dated := by
    intro d hd
    simp only [twoDives, List.mem_cons, List.not_mem_nil, or_false] at hd
    rcases hd with rfl | rfl
    · exact ⟨⟨2017, 8, 17, 4, 14, 59, 0⟩, by rfl⟩
    · exact ⟨⟨2017, 8, 18, 4, 14, 59, 0⟩, by rfl⟩
  settings := by
    intro d hd f _
    simp only [twoDives, List.mem_cons, List.not_mem_nil, or_false] at hd
    rcases hd with rfl | rfl <;> exact ⟨"settings", rfl⟩
  origins := ⟨_, rfl⟩
  apart := by simp [twoDives]
  inputs := by
    intro d hd e he p f
    simp only [twoDives, List.mem_cons, List.not_mem_nil, or_false] at hd he
    rcases hd with rfl | rfl <;> rcases he with rfl | rfl <;> simp

/-- C199 is false: dives with all they need, parsed and merged for the first time. -/
theorem C199_merge_false : ¬ MergeCompletes := by
  intro h
  exact C199_never_completes "t" _ id freshFiles _ _ [] rfl (h "t" _ id freshFiles twoDives twoDives_mergeable)

private theorem readFiles_ok (fs : FileStore) : ∀ (ps : List Path') (cs : List String), ps.map fs = cs.map some → readFiles fs ps = .inr cs
  | [], [], _ => rfl
  | [], _ :: _, h => by simp at h
  | _ :: _, [], h => by simp at h
  | p :: ps, c :: cs, h => by
    simp only [List.map_cons, List.cons.injEq] at h
    rw [readFiles, h.1, readFiles_ok fs ps cs h.2]

private theorem mapM_ok {α β : Type} (f : α → Res β) (g : α → β) : ∀ l : List α, (∀ a ∈ l, f a = .ok (g a)) → l.mapM f = .ok (l.map g)
  | [], _ => rfl
  | a :: l, h => by
    rw [List.mapM_cons, h a (List.mem_cons_self ..), mapM_ok f g l fun b hb => h b (List.mem_cons_of_mem _ hb)]
    rfl

/-- C199 (partial): if the processed folder of the first dive has the three settings files, merging dives that have been parsed completes: the merged
folder, beside that of the first dive, gets the navigation of all dives in the order they are given, sorted, and the settings of the first dive; no other
file changes. Missing: these files are not there after parsing, see `C199_never_completes`. -/
theorem C199_merged_partial (merge : List String → Res String) (interlace : String → String) (fs : FileStore) (d e : MergeDive) (l : List MergeDive)
    (date : MergeDive → DateTime) (nav : MergeDive → String) (merged : String) (cfg : String → String)
    (hdate : ∀ x ∈ d :: e :: l, diveDate x.name = .ok (date x)) (hnav : ∀ x ∈ d :: e :: l, fs (navFile x.processed) = some (nav x))
    (hm : merge ((d :: e :: l).map nav) = .ok merged) (hcfg : ∀ f ∈ settingsFiles, fs (d.processed ++ [f]) = some (cfg f))
    (out : Path') (hout : out = d.processed.dropLast ++ [String.ofList (mergedName ((d :: e :: l).map date))]) (hne : out ≠ d.processed)
    (hdeep : ∀ f ∈ settingsFiles, d.processed ++ [f] ≠ navFile out) :
    (mergeDives merge interlace fs (d :: e :: l)).2 = .done ∧
    (mergeDives merge interlace fs (d :: e :: l)).1 (navFile out) = some (interlace merged) ∧
    (∀ f ∈ settingsFiles, (mergeDives merge interlace fs (d :: e :: l)).1 (out ++ [f]) = some (cfg f)) ∧
    ∀ p, p ≠ navFile out → (∀ f ∈ settingsFiles, p ≠ out ++ [f]) → (mergeDives merge interlace fs (d :: e :: l)).1 p = fs p := by
  have h1 := mapM_ok (fun x : MergeDive => diveDate x.name) date (d :: e :: l) hdate
  have h2 : readFiles fs ((d :: e :: l).map fun x => x.processed ++ ["nav", "nav_standard.json"]) = .inr ((d :: e :: l).map nav) := by
    refine readFiles_ok fs _ _ ?_
    rw [List.map_map, List.map_map]
    refine List.map_congr_left ?_
    intro x hx
    exact hnav x hx
  have hnf : ∀ f ∈ settingsFiles, out ++ [f] ≠ navFile out := by
    intro f _ h
    have := congrArg List.length h
    simp [navFile] at this
  have hsrc : ∀ f ∈ settingsFiles, (fs.put (navFile out) merged) (d.processed ++ [f]) = some (cfg f) := by
    intro f hf
    rw [put_other _ _ _ _ (hdeep f hf)]
    exact hcfg f hf
  have hcopy := copyFiles_done (settingsFiles.map fun f => (d.processed ++ [f], out ++ [f])) (fs.put (navFile out) merged)
    (by
      intro x hx
      obtain ⟨f, hf, rfl⟩ := List.mem_map.mp hx
      exact ⟨_, hsrc f hf⟩)
    (by
      intro x hx y hy he
      obtain ⟨f, -, rfl⟩ := List.mem_map.mp hx
      obtain ⟨g, -, rfl⟩ := List.mem_map.mp hy
      simp only at he
      exact hne (List.append_inj_left' he rfl).symm)
    (by simp [settingsFiles])
  have hkeep : ∀ p, (∀ f ∈ settingsFiles, p ≠ out ++ [f]) →
      (copyFiles (fs.put (navFile out) merged) (settingsFiles.map fun f => (d.processed ++ [f], out ++ [f]))).1 p = fs.put (navFile out) merged p := by
    intro p hp
    refine copyFiles_other p _ _ ?_
    intro x hx
    obtain ⟨f, hf, rfl⟩ := List.mem_map.mp hx
    exact (hp f hf).symm
  have hrun : mergeDives merge interlace fs (d :: e :: l) =
      ((copyFiles (fs.put (navFile out) merged) (settingsFiles.map fun f => (d.processed ++ [f], out ++ [f]))).1.put (navFile out) (interlace merged), .done) := by
    rw [mergeDives, h1]
    · simp only
      rw [h2]
      simp only
      rw [hm]
      simp only
      rw [← hout]
      rcases hc : copyFiles (fs.put (navFile out) merged) (settingsFiles.map fun f => (d.processed ++ [f], out ++ [f])) with ⟨fs', r⟩
      rw [hc] at hcopy
      obtain ⟨hr, -⟩ := hcopy
      simp only at hr
      subst hr
      rw [show out ++ ["nav", "nav_standard.json"] = navFile out from rfl, hc]
    · simp
  rw [hrun]
  refine ⟨rfl, put_same _ _ _, ?_, ?_⟩
  · intro f hf
    show FileStore.put _ _ _ _ = _
    rw [put_other _ _ _ _ (hnf f hf)]
    have := hcopy.2 (d.processed ++ [f], out ++ [f]) (List.mem_map.mpr ⟨f, hf, rfl⟩)
    simp only at this
    rw [this]
    exact hsrc f hf
  · intro p hp1 hp2
    show FileStore.put _ _ _ _ = _
    rw [put_other _ _ _ _ hp1, hkeep p hp2, put_other _ _ _ _ hp1]

/-- Non-vacuity: the folders of two dives are not the merged one. -/
example : ["processed", String.ofList (mergedName [⟨2017, 8, 17, 4, 14, 59, 0⟩, ⟨2017, 8, 18, 4, 14, 59, 0⟩])] ≠ ["processed", "20170817_041459"] := by
  decide +kernel

/-- C199: if the settings of the first dive are missing, the merged file that is left behind has not been sorted. -/
theorem C199_left_unsorted (merge : List String → Res String) (interlace : String → String) (fs : FileStore) (d e : MergeDive) (l : List MergeDive)
    (date : MergeDive → DateTime) (nav : MergeDive → String) (merged : String)
    (hdate : ∀ x ∈ d :: e :: l, diveDate x.name = .ok (date x)) (hnav : ∀ x ∈ d :: e :: l, fs (navFile x.processed) = some (nav x))
    (hm : merge ((d :: e :: l).map nav) = .ok merged) (hcfg : fs (d.processed ++ ["mission.yaml"]) = none) :
    mergeDives merge interlace fs (d :: e :: l) =
      (fs.put (navFile (d.processed.dropLast ++ [String.ofList (mergedName ((d :: e :: l).map date))])) merged, .noFile (d.processed ++ ["mission.yaml"])) := by
  have h1 := mapM_ok (fun x : MergeDive => diveDate x.name) date (d :: e :: l) hdate
  have h2 : readFiles fs ((d :: e :: l).map fun x => x.processed ++ ["nav", "nav_standard.json"]) = .inr ((d :: e :: l).map nav) := by
    refine readFiles_ok fs _ _ ?_
    rw [List.map_map, List.map_map]
    refine List.map_congr_left ?_
    intro x hx
    exact hnav x hx
  rw [mergeDives, h1]
  · simp only
    rw [h2]
    simp only
    rw [hm]
    simp only [settingsFiles, List.map_cons (f := fun f => (d.processed ++ [f], _)), copyFiles, copyFile]
    rw [put_other _ _ _ _ (mission_not_nav _ _), hcfg]
    rfl
  · simp

/-- Non-vacuity: the two dives above, parsed. -/
example : ((parseMerge "t" (fun l => .ok (String.join l)) (fun s => s ++ " sorted") freshFiles twoDives).2 = .noFile ["processed", "a", "mission.yaml"]) ∧
    (parseMerge "t" (fun l => .ok (String.join l)) (fun s => s ++ " sorted") freshFiles twoDives).1
      ["processed", "20170817041459_20170818041459_merged", "nav", "nav_standard.json"] = some "AB" := by
  decide +kernel

/-- C199: a dive without camera.yaml in its raw folder is not parsed, although nothing of the navigation depends on it. -/
theorem C199_needs_camera (time nav : String) (fs : FileStore) (d : MergeDive) (m v : String) (hm : fs (d.raw ++ ["mission.yaml"]) = some m)
    (hv : fs (d.raw ++ ["vehicle.yaml"]) = some v) (hc : fs (d.raw ++ ["camera.yaml"]) = none)
    (hraw : ∀ p f, d.raw ++ [f] ≠ d.processed ++ p) :
    (parseDive time nav fs d).2 = .noFile (d.raw ++ ["camera.yaml"]) ∧ (parseDive time nav fs d).1 (navFile d.processed) = fs (navFile d.processed) := by
  have e1 : ∀ s, fs.put (d.processed ++ ["log", time ++ "_" ++ "mission.yaml"]) s (d.raw ++ ["vehicle.yaml"]) = some v := by
    intro s
    rw [put_other _ _ _ _ (hraw _ _)]
    exact hv
  have e2 : ∀ s s', (fs.put (d.processed ++ ["log", time ++ "_" ++ "mission.yaml"]) s).put (d.processed ++ ["log", time ++ "_" ++ "vehicle.yaml"]) s'
      (d.raw ++ ["camera.yaml"]) = none := by
    intro s s'
    rw [put_other _ _ _ _ (hraw _ _), put_other _ _ _ _ (hraw _ _)]
    exact hc
  have hrun : parseDive time nav fs d = ((fs.put (d.processed ++ ["log", time ++ "_" ++ "mission.yaml"]) m).put
      (d.processed ++ ["log", time ++ "_" ++ "vehicle.yaml"]) v, .noFile (d.raw ++ ["camera.yaml"])) := by
    simp only [parseDive, settingsFiles, List.map_cons, List.map_nil, copyFiles, copyFile, hm, e1, e2]
  have hnl : ∀ f : String, navFile d.processed ≠ d.processed ++ ["log", f] := by
    intro f h
    simp [navFile] at h
  rw [hrun]
  refine ⟨rfl, ?_⟩
  show FileStore.put _ _ _ _ = _
  rw [put_other _ _ _ _ (hnl _), put_other _ _ _ _ (hnl _)]

/-- Non-vacuity: raw and processed folders. -/
example : ∀ (p : Path') (f : String), ["raw", "a"] ++ [f] ≠ ["processed", "a"] ++ p := by simp

/-! ## Names -/

/-- C199: the date of a dive is read from the name of its folder. -/
theorem C199_date (c : DateTime) (hv : ValidDate c) (hus : c.us = 0) (sep : Char) (rest : List Char) : diveDate (diveName c sep rest) = .ok c := by
  have hok := (ok_iff c).mpr hv
  obtain ⟨h1, h2, h3, h4, h5, h6⟩ := validDate_digits c hok
  have e1 : slice (diveName c sep rest) 0 4 = padDigits 4 c.year := slice_between [] (padDigits 4 c.year) _ 0 4 rfl
    (by simp [padDigits_length])
  have e2 : slice (diveName c sep rest) 4 6 = padDigits 2 c.month := slice_between (padDigits 4 c.year) _ _ 4 6 (padDigits_length _ _)
    (by simp [padDigits_length])
  have e3 : slice (diveName c sep rest) 6 8 = padDigits 2 c.day := by
    have := slice_between (padDigits 4 c.year ++ padDigits 2 c.month) (padDigits 2 c.day)
      (sep :: (padDigits 2 c.hour ++ (padDigits 2 c.minute ++ (padDigits 2 c.second ++ rest)))) 6 8 (by simp [padDigits_length]) (by simp [padDigits_length])
    simpa [diveName] using this
  have e4 : slice (diveName c sep rest) 9 11 = padDigits 2 c.hour := by
    have := slice_between (padDigits 4 c.year ++ padDigits 2 c.month ++ padDigits 2 c.day ++ [sep]) (padDigits 2 c.hour)
      (padDigits 2 c.minute ++ (padDigits 2 c.second ++ rest)) 9 11 (by simp [padDigits_length]) (by simp [padDigits_length])
    simpa [diveName] using this
  have e5 : slice (diveName c sep rest) 11 13 = padDigits 2 c.minute := by
    have := slice_between (padDigits 4 c.year ++ padDigits 2 c.month ++ padDigits 2 c.day ++ [sep] ++ padDigits 2 c.hour) (padDigits 2 c.minute)
      (padDigits 2 c.second ++ rest) 11 13 (by simp [padDigits_length]) (by simp [padDigits_length])
    simpa [diveName] using this
  have e6 : slice (diveName c sep rest) 13 15 = padDigits 2 c.second := by
    have := slice_between (padDigits 4 c.year ++ padDigits 2 c.month ++ padDigits 2 c.day ++ [sep] ++ padDigits 2 c.hour ++ padDigits 2 c.minute)
      (padDigits 2 c.second) rest 13 15 (by simp [padDigits_length]) (by simp [padDigits_length])
    simpa [diveName] using this
  have hc : (⟨c.year, c.month, c.day, c.hour, c.minute, c.second, 0⟩ : DateTime) = c := by
    cases c
    simp only at hus
    subst hus
    rfl
  rw [diveDate, e1, e2, e3, e4, e5, e6]
  simp only [bind, Except.bind, pyInt_padDigits 4 _ (by norm_num) h1, pyInt_padDigits 2 _ (by norm_num) h2, pyInt_padDigits 2 _ (by norm_num) h3,
    pyInt_padDigits 2 _ (by norm_num) h4, pyInt_padDigits 2 _ (by norm_num) h5, pyInt_padDigits 2 _ (by norm_num) h6, hc, hok, if_true]

/-- Non-vacuity. -/
example : ValidDate ⟨2017, 8, 17, 4, 14, 59, 0⟩ ∧ diveName ⟨2017, 8, 17, 4, 14, 59, 0⟩ '_' "_ts".toList = "20170817_041459_ts".toList := by
  refine ⟨(ok_iff _).mp (by decide), by decide +kernel⟩

private theorem seconds_inj (a b : DateTime) (ha : ValidDate a) (hb : ValidDate b) (h0 : a.us = 0) (h1 : b.us = 0) (h : a.seconds = b.seconds) : a = b := by
  have oa := (ok_iff a).mpr ha
  have ob := (ok_iff b).mpr hb
  cases a with
  | mk y m d hh mi s us =>
    cases b with
    | mk y' m' d' hh' mi' s' us' =>
      simp only at h0 h1
      subst h0 h1
      simp only [DateTime.ok, decide_eq_true_eq] at oa ob
      simp only [DateTime.seconds] at h
      have hd : ymd2ord y m d = ymd2ord y' m' d' := by omega
      have h2 := ord2ymd_ymd2ord y m d (by omega) (by omega) (by omega) (by omega) (by omega)
      have h3 := ord2ymd_ymd2ord y' m' d' (by omega) (by omega) (by omega) (by omega) (by omega)
      rw [hd, h3] at h2
      simp only [Prod.mk.injEq] at h2
      obtain ⟨rfl, rfl, rfl⟩ := h2
      have : hh = hh' ∧ mi = mi' ∧ s = s' := by omega
      obtain ⟨rfl, rfl, rfl⟩ := this
      rfl

private theorem earliest_spec : ∀ (l : List DateTime) (c : DateTime), earliest c l ∈ c :: l ∧ ∀ x ∈ c :: l, (earliest c l).seconds ≤ x.seconds
  | [], c => by simp [earliest]
  | d :: l, c => by
    rw [earliest]
    by_cases h : d.seconds < c.seconds
    · rw [if_pos h]
      obtain ⟨h1, h2⟩ := earliest_spec l d
      refine ⟨List.mem_cons_of_mem _ h1, ?_⟩
      intro x hx
      rcases List.mem_cons.mp hx with rfl | hx
      · exact le_trans (h2 d (List.mem_cons_self ..)) h.le
      · exact h2 x hx
    · rw [if_neg h]
      obtain ⟨h1, h2⟩ := earliest_spec l c
      refine ⟨?_, ?_⟩
      · rcases List.mem_cons.mp h1 with h1 | h1
        · rw [h1]
          exact List.mem_cons_self ..
        · exact List.mem_cons_of_mem _ (List.mem_cons_of_mem _ h1)
      · intro x hx
        rcases List.mem_cons.mp hx with rfl | hx
        · exact h2 x (List.mem_cons_self ..)
        · rcases List.mem_cons.mp hx with rfl | hx
          · exact le_trans (h2 c (List.mem_cons_self ..)) (not_lt.mp h)
          · exact h2 x (List.mem_cons_of_mem _ hx)

private theorem latest_spec : ∀ (l : List DateTime) (c : DateTime), latest c l ∈ c :: l ∧ ∀ x ∈ c :: l, x.seconds ≤ (latest c l).seconds
  | [], c => by simp [latest]
  | d :: l, c => by
    rw [latest]
    by_cases h : c.seconds < d.seconds
    · rw [if_pos h]
      obtain ⟨h1, h2⟩ := latest_spec l d
      refine ⟨List.mem_cons_of_mem _ h1, ?_⟩
      intro x hx
      rcases List.mem_cons.mp hx with rfl | hx
      · exact le_trans h.le (h2 d (List.mem_cons_self ..))
      · exact h2 x hx
    · rw [if_neg h]
      obtain ⟨h1, h2⟩ := latest_spec l c
      refine ⟨?_, ?_⟩
      · rcases List.mem_cons.mp h1 with h1 | h1
        · rw [h1]
          exact List.mem_cons_self ..
        · exact List.mem_cons_of_mem _ (List.mem_cons_of_mem _ h1)
      · intro x hx
        rcases List.mem_cons.mp hx with rfl | hx
        · exact h2 x (List.mem_cons_self ..)
        · rcases List.mem_cons.mp hx with rfl | hx
          · exact le_trans (not_lt.mp h) (h2 c (List.mem_cons_self ..))
          · exact h2 x (List.mem_cons_of_mem _ hx)

/-- C199: the folder of the merged dives is named after a dive that is first and one that is last in time, in whatever order the dives are given. -/
theorem C199_name (l : List DateTime) (first last : DateTime) (hv : ∀ c ∈ l, ValidDate c ∧ c.us = 0) (hf : first ∈ l) (hl : last ∈ l)
    (h1 : ∀ c ∈ l, first.seconds ≤ c.seconds) (h2 : ∀ c ∈ l, c.seconds ≤ last.seconds) :
    mergedName l = stampText first ++ ['_'] ++ stampText last ++ "_merged".toList := by
  cases l with
  | nil => simp at hf
  | cons c l =>
    obtain ⟨a1, a2⟩ := earliest_spec l c
    obtain ⟨b1, b2⟩ := latest_spec l c
    have e1 : earliest c l = first := seconds_inj _ _ (hv _ a1).1 (hv _ hf).1 (hv _ a1).2 (hv _ hf).2 (le_antisymm (a2 _ hf) (h1 _ a1))
    have e2 : latest c l = last := seconds_inj _ _ (hv _ b1).1 (hv _ hl).1 (hv _ b1).2 (hv _ hl).2 (le_antisymm (h2 _ b1) (b2 _ hl))
    rw [mergedName, e1, e2]
    rfl

/-- Non-vacuity: given out of order. -/
example : mergedName [⟨2017, 8, 18, 4, 14, 59, 0⟩, ⟨2017, 8, 17, 4, 14, 59, 0⟩] = "20170817041459_20170818041459_merged".toList := by decide +kernel

/-- C199 is false for the names: dives that differ only in those between the first and the last share a folder, and the second merge overwrites the first. -/
theorem C199_name_false : ¬ MergedApart := by
  intro h
  have := (h [⟨2017, 8, 17, 4, 14, 59, 0⟩, ⟨2017, 8, 19, 4, 14, 59, 0⟩]
    [⟨2017, 8, 17, 4, 14, 59, 0⟩, ⟨2017, 8, 18, 4, 14, 59, 0⟩, ⟨2017, 8, 19, 4, 14, 59, 0⟩] (by simp) (by simp) (by
      intro c hc
      simp only [List.cons_append, List.nil_append, List.mem_cons, List.not_mem_nil, or_false] at hc
      rcases hc with rfl | rfl | rfl | rfl | rfl <;> exact ⟨(ok_iff _).mp (by decide), rfl⟩) (by decide +kernel) ⟨2017, 8, 18, 4, 14, 59, 0⟩).mpr (by simp)
  simp at this

end Oplab.Props
