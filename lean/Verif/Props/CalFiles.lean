import Verif.Model.CalFiles
import Mathlib.Tactic.Common
import Mathlib.Tactic.Tauto

/-! # C114-C118: calibration files -/

namespace Oplab.Props

section
variable {C D : Type} (t : CalTools C D)

/-! ## Lemmas -/

private theorem put_self {A : Type} (f : String → Option A) (k : String) (a : A) : putFile f k a k = some a := if_pos rfl

private theorem put_other {A : Type} (f : String → Option A) {k x : String} (a : A) (h : x ≠ k) : putFile f k a x = f x := if_neg h

private theorem put_keep {A : Type} (f : String → Option A) {k : String} (a : A) (hk : f k = none) {x : String} {b : A}
    (h : f x = some b) : putFile f k a x = some b := by
  rw [put_other f a (by rintro rfl; rw [hk] at h; cases h)]
  exact h

private theorem andThen_ok (o : CalRun C D) (f : CalState C D → CalRun C D) (s : CalState C D) (h : o = (s, none)) :
    andThen o f = f s := by rw [h]; rfl

private theorem andThen_error (o : CalRun C D) (f : CalState C D → CalRun C D) (s : CalState C D) (e : Err) (h : o = (s, some e)) :
    andThen o f = (s, some e) := by rw [h]; rfl

/-- A property of states that both parts keep is kept by the sequence. -/
private theorem andThen_inv (P : CalState C D → Prop) (o : CalRun C D) (f : CalState C D → CalRun C D) (h1 : P o.1)
    (h2 : ∀ s, P s → P (f s).1) : P (andThen o f).1 := by
  unfold andThen
  cases o.2 with
  | some e => exact h1
  | none => exact h2 _ h1

/-- The files `out` are the only ones that `calibrate_mono` writes. -/
private theorem mono_other (name out : String) (target : Option C) (foa : Bool) (s : CalState C D) {f : String} (h : f ≠ out) :
    (calibrateMono t name out target foa s).1.yaml f = s.yaml f ∧ (calibrateMono t name out target foa s).1.json f = s.json f := by
  unfold calibrateMono
  split_ifs
  · exact ⟨rfl, rfl⟩
  all_goals
    split
    · exact ⟨put_other _ _ h, rfl⟩
    · split
      · exact ⟨put_other _ _ h, put_other _ _ h⟩
      · exact ⟨rfl, rfl⟩

/-! ## C114: existing calibrations are kept -/

/-- A command keeps every calibration that exists when it starts. -/
def KeepsCalibrations (run : CalState C D → CalRun C D) : Prop :=
  ∀ (s : CalState C D) (file : String) (c : C), s.yaml file = some c → (run s).1.yaml file = some c

/-- A command keeps all saved detections. -/
def KeepsDetections (run : CalState C D → CalRun C D) : Prop :=
  ∀ (s : CalState C D) (file : String) (d : D), s.json file = some d → (run s).1.json file = some d

private theorem monoCamera_keeps (o : CalOptions) (ho : o.fo = false) (n : String) : KeepsCalibrations (monoCamera t o n) := by
  intro s f c h
  unfold monoCamera
  split_ifs with hy
  · exact h
  · by_cases hf : f = monoFile n o.suffix
    · subst hf
      exact absurd ⟨by rw [h]; rfl, ho⟩ hy
    · rw [(mono_other t n _ none o.foa s hf).1]; exact h

private theorem calMono_inv (P : CalState C D → Prop) (o : CalOptions) (h : ∀ n s, P s → P (monoCamera t o n s).1) :
    ∀ (ns : List String) (s : CalState C D), P s → P (calMono t o ns s).1
  | [], _, hs => hs
  | n :: ns, s, hs => andThen_inv P _ _ (h n s hs) (calMono_inv P o h ns)

/-- C114: `mono` without `-F` keeps all calibrations. -/
theorem C114_mono (suffix : String) (names : List String) :
    KeepsCalibrations (calMono t (calOptions false false suffix) names) := by
  intro s f c h
  exact calMono_inv t (fun s => s.yaml f = some c) _ (fun n s hs => monoCamera_keeps t _ rfl n s f c hs) names s h

private theorem calibrateMono_json (name out : String) (target : Option C) : KeepsDetections (calibrateMono t name out target false) := by
  intro s f d h
  by_cases hf : f = out
  · subst hf
    unfold calibrateMono
    simp only [Bool.false_eq_true, if_false, h]
    split_ifs <;> exact h
  · rw [(mono_other t name out target false s hf).2]; exact h

private theorem monoCamera_json (o : CalOptions) (ho : o.foa = false) (n : String) : KeepsDetections (monoCamera t o n) := by
  intro s f d h
  unfold monoCamera
  rw [ho]
  split_ifs
  · exact h
  · exact calibrateMono_json t n _ none s f d h

/-- C114: `mono` without `-FF` keeps all saved detections. -/
theorem C114_detections (force : Bool) (suffix : String) (names : List String) :
    KeepsDetections (calMono t (calOptions force false suffix) names) := by
  intro s f d h
  exact calMono_inv t (fun s => s.json f = some d) _ (fun n s hs => monoCamera_json t _ rfl n s f d hs) names s h

/-- Detections are saved before the calibration, so a monocular calibration does not exist without them. -/
def SavedWith (file : String) (s : CalState C D) : Prop := s.json file = none → s.yaml file = none

private theorem calibrateMono_saved (name out : String) (target : Option C) (foa : Bool) (s : CalState C D) (f : String)
    (h : SavedWith f s) : SavedWith f (calibrateMono t name out target foa s).1 := by
  by_cases hf : f = out
  · subst hf
    unfold calibrateMono SavedWith
    split_ifs with h1 h2
    · exact h
    all_goals
      split
      · rename_i d hd
        intro h0
        simp only at h0
        first
          | (rw [h0] at hd; cases hd)
          | cases hd
      · split
        · intro h0
          simp only [put_self] at h0
          cases h0
        · exact h
  · intro h0
    rw [(mono_other t name out target foa s hf).2] at h0
    rw [(mono_other t name out target foa s hf).1]
    exact h h0


/-- The first character tells which kind of file a name belongs to. -/
private theorem first_ne {a b x y : String} (h : a.toList.head? ≠ b.toList.head?) (ha : a ≠ "") (hb : b ≠ "") : a ++ x ≠ b ++ y := by
  intro e
  apply h
  have := congrArg (fun s => s.toList.head?) e
  simp only [String.toList_append] at this
  have na : a.toList ≠ [] := fun h0 => ha (by rw [← String.toList_inj, h0]; rfl)
  have nb : b.toList ≠ [] := fun h0 => hb (by rw [← String.toList_inj, h0]; rfl)
  obtain ⟨p, ps, hp⟩ := List.exists_cons_of_ne_nil na
  obtain ⟨q, qs, hq⟩ := List.exists_cons_of_ne_nil nb
  rw [hp, hq] at this ⊢
  exact this

private theorem stereo_ne_resized (l r sfx x : String) : stereoFile l r sfx ≠ "resized_" ++ x := by
  unfold stereoFile
  rw [String.append_assoc, String.append_assoc, String.append_assoc]
  exact first_ne (by decide) (by decide) (by decide)

private theorem stereo_ne_mono (l r sfx n sfx' : String) : stereoFile l r sfx ≠ monoFile n sfx' := by
  unfold stereoFile monoFile
  rw [String.append_assoc, String.append_assoc, String.append_assoc, String.append_assoc]
  exact first_ne (by decide) (by decide) (by decide)

private theorem mono_ne_resized (n sfx x : String) : monoFile n sfx ≠ "resized_" ++ x := by
  unfold monoFile
  rw [String.append_assoc]
  exact first_ne (by decide) (by decide) (by decide)

private theorem monoFile_inj {m n sfx : String} (h : monoFile m sfx = monoFile n sfx) : m = n := by
  unfold monoFile at h
  have := congrArg String.toList h
  simp only [String.toList_append, List.append_assoc] at this
  rw [← String.toList_inj]
  exact List.append_cancel_right (List.append_cancel_left this)

private theorem andThen_seq (P Q : CalState C D → Prop) (o : CalRun C D) (f : CalState C D → CalRun C D) (h1 : P o.1)
    (hPQ : ∀ s, P s → Q s) (h2 : ∀ s, P s → Q (f s).1) : Q (andThen o f).1 := by
  unfold andThen
  cases o.2 with
  | some e => exact hPQ _ h1
  | none => exact h2 _ h1

private theorem writeStereo_keeps (cl cr : C) (dl dr : D) (out : String) (s : CalState C D) (f : String) (c : C)
    (hout : s.yaml out = none) (h : s.yaml f = some c) : (writeStereo t cl cr dl dr out s).1.yaml f = some c := by
  unfold writeStereo
  split
  · exact put_keep _ _ hout h
  · exact h

private theorem calibrateStereo_keeps (left lfile right rfile out : String) (foa : Bool) (s : CalState C D) (f : String) (c : C)
    (hout : s.yaml out = none) (hr : SavedWith ("resized_" ++ rfile) s) (hne : out ≠ "resized_" ++ rfile) (h : s.yaml f = some c) :
    (calibrateStereo t left lfile right rfile out foa s).1.yaml f = some c := by
  unfold calibrateStereo
  split_ifs
  · exact h
  · split
    · split_ifs
      · exact writeStereo_keeps t _ _ _ _ _ _ _ _ hout h
      · refine andThen_seq (fun s => s.yaml out = none ∧ s.yaml f = some c) (fun s => s.yaml f = some c) _ _ ?_ (fun s h => h.2) ?_
        · unfold resizedRight
          split_ifs with hj
          · exact ⟨hout, h⟩
          · have hj' : s.json ("resized_" ++ rfile) = none := by
              cases hx : s.json ("resized_" ++ rfile) with
              | none => rfl
              | some _ => rw [hx] at hj; exact absurd rfl hj
            have hf : f ≠ "resized_" ++ rfile := by
              rintro rfl
              rw [hr hj'] at h; cases h
            rw [(mono_other t _ _ _ _ s hne).1, (mono_other t _ _ _ _ s hf).1]
            exact ⟨hout, h⟩
        · intro s' hs'
          split
          · exact writeStereo_keeps t _ _ _ _ _ _ _ _ hs'.1 hs'.2
          · exact hs'.2
    · exact h

private theorem not_some {A : Type} {o : Option A} (h : ¬ o.isSome = true) : o = none := by
  cases o with
  | none => rfl
  | some _ => exact absurd rfl h

/-- C114 for `stereo` with two cameras, without `-F`: all calibrations are kept (the calibration with resized images, if
there is one, was saved with its detections). -/
theorem C114_stereo_partial (suffix c0 c1 : String) (s : CalState C D) (hs : SavedWith ("resized_" ++ monoFile c1 "") s)
    (file : String) (c : C) (h : s.yaml file = some c) :
    (calStereo t (calOptions false false suffix) [c0, c1] s).1.yaml file = some c := by
  unfold calStereo calPair
  simp only
  split_ifs with hy
  · exact h
  · have hout : s.yaml (stereoFile c0 c1 (calOptions false false suffix).suffix) = none :=
      not_some fun hx => hy ⟨hx, rfl⟩
    refine andThen_seq (fun s => s.yaml file = some c ∧ SavedWith ("resized_" ++ monoFile c1 "") s ∧
      s.yaml (stereoFile c0 c1 (calOptions false false suffix).suffix) = none) (fun s => s.yaml file = some c) _ _ ?_ (fun s h => h.1) ?_
    · unfold ensureMono
      split_ifs
      · exact ⟨h, hs, hout⟩
      · exact ⟨h, hs, hout⟩
      · refine calMono_inv t (fun s => s.yaml file = some c ∧ SavedWith ("resized_" ++ monoFile c1 "") s ∧
          s.yaml (stereoFile c0 c1 (calOptions false false suffix).suffix) = none) _ ?_ _ s ⟨h, hs, hout⟩
        rintro n s' ⟨g1, g2, g3⟩
        refine ⟨monoCamera_keeps t _ rfl n s' file c g1, ?_, ?_⟩
        · unfold monoCamera
          split_ifs
          · exact g2
          · exact calibrateMono_saved t _ _ _ _ _ _ g2
        · unfold monoCamera
          split_ifs
          · exact g3
          · rw [(mono_other t _ _ _ _ s' (stereo_ne_mono _ _ _ _ _)).1]; exact g3
    · rintro s' ⟨g1, g2, g3⟩
      exact calibrateStereo_keeps t _ _ _ _ _ _ s' file c g3 g2 (stereo_ne_resized _ _ _ _) g1

/-- C114 for `laser`, if the stereo calibration exists and there is no calibration of a second laser yet. -/
theorem C114_laser_partial (suffix c0 c1 : String) (s : CalState C D) (hst : (s.yaml (stereoFile c0 c1 "")).isSome = true)
    (hb : t.twoLasers = false ∨ s.yaml (laserFile "bottom" c0 (calOptions false false suffix).suffix) = none)
    (file : String) (c : C) (h : s.yaml file = some c) :
    (calLaser t (calOptions false false suffix) [c0, c1] s).1.yaml file = some c := by
  unfold calLaser
  simp only
  split_ifs with hy
  · exact h
  · have hout : s.yaml (laserFile "top" c0 (calOptions false false suffix).suffix) = none := not_some fun hx => hy ⟨hx, rfl⟩
    rw [andThen_ok _ _ s (by unfold ensureStereo; rw [if_pos hst])]
    unfold calibrateLaser
    by_cases hl : t.laserFolders = false
    · rw [if_pos hl]; exact h
    · rw [if_neg hl]
      by_cases hi : t.laserImages < 8
      · rw [if_pos hi]; exact h
      · rw [if_neg hi]
        split
        · exact h
        · split
          · exact h
          · split_ifs with h2
            · rcases hb with hb | hb
              · rw [hb] at h2; cases h2
              · by_cases hf : file = laserFile "bottom" c0 (calOptions false false suffix).suffix
                · subst hf; rw [hb] at h; cases h
                · simp only
                  rw [put_other _ _ hf]
                  exact put_keep _ _ hout h
            · exact put_keep _ _ hout h

end

/-- Tools on numbers: every pattern is found, all images have the same size. -/
private def toyTools : CalTools ℕ ℕ where
  images _ := 20
  detect n _ := some n.length
  solve d _ := 10 * d
  sameSize _ _ := true
  stereo cl cr dl dr := some (cl + cr + dl + dr)
  laserImages := 20
  laser c := some (c + 1, c + 2)
  twoLasers := true
  laserFolders := true

/-- The files of a folder. -/
private def folder (yaml json : List (String × ℕ)) : CalState ℕ ℕ := ⟨fun f => yaml.lookup f, fun f => json.lookup f⟩

example : ((calMono toyTools (calOptions false false "x") ["a", "bb"] (folder [("mono_a_x", 5)] [])).1.yaml "mono_bb_x",
    (calMono toyTools (calOptions false false "x") ["a", "bb"] (folder [("mono_a_x", 5)] [])).1.yaml "mono_a_x") = (some 20, some 5) := by
  decide +kernel

example : SavedWith ("resized_" ++ monoFile "b" "") (folder [] []) ∧
    (calStereo toyTools (calOptions false false "") ["a", "b"] (folder [] [])).1.yaml "stereo_a_b" = some 22 := by
  constructor
  · intro _; rfl
  · decide +kernel

/-- C114 in full: all three commands, for any number of cameras. -/
def WithoutForceKeeps : Prop :=
  ∀ (t : CalTools ℕ ℕ) (suffix : String) (names : List String),
    KeepsCalibrations (calMono t (calOptions false false suffix) names) ∧
    KeepsCalibrations (calStereo t (calOptions false false suffix) names) ∧
    KeepsCalibrations (calLaser t (calOptions false false suffix) names)

/-- `stereo` with three cameras overwrites the calibration of the third camera with the first. -/
theorem C114_reverse_pair_false : ¬ WithoutForceKeeps := by
  intro h
  have := (h toyTools "" ["a", "b", "c"]).2.1 (folder [("stereo_c_a", 99)] []) "stereo_c_a" 99 rfl
  revert this
  decide +kernel

/-- `laser` overwrites the calibration of the second laser if that of the first is missing. -/
theorem C114_second_laser_false : ¬ WithoutForceKeeps := by
  intro h
  have := (h toyTools "" ["a", "b"]).2.2 (folder [("laser_calibration_bottom_a", 99)] []) "laser_calibration_bottom_a" 99 rfl
  revert this
  decide +kernel

/-! ## C115: repeating a command -/

section
variable {C D : Type} (t : CalTools C D)

private theorem run_eq (o : CalRun C D) (s : CalState C D) (e : Option Err) (h1 : o.1 = s) (h2 : o.2 = e) : o = (s, e) := by
  obtain ⟨a, b⟩ := o; cases h1; cases h2; rfl

/-- When nothing is left to do for a camera. -/
private def CameraDone {C D : Type} (o : CalOptions) (n : String) (s : CalState C D) : Prop :=
  (s.yaml (monoFile n o.suffix)).isSome = true

private theorem done_step (o : CalOptions) (ho : o.fo = false) (n : String) (s : CalState C D) (h : CameraDone o n s) :
    monoCamera t o n s = (s, none) := by
  unfold monoCamera
  rw [if_pos ⟨h, ho⟩]

private theorem step_done (o : CalOptions) (ha : o.foa = false) (n : String) (s : CalState C D)
    (h : (monoCamera t o n s).2 = none) : CameraDone o n (monoCamera t o n s).1 := by
  unfold monoCamera at h ⊢
  split_ifs at h ⊢ with hy
  · exact hy.1
  · rw [ha] at h ⊢
    unfold calibrateMono at h ⊢
    simp only [Bool.false_eq_true, if_false] at h ⊢
    split_ifs at h ⊢ with hi
    cases hj : s.json (monoFile n o.suffix) with
    | some d => simp only [CameraDone, put_self]; rfl
    | none =>
      rw [hj] at h
      cases hd : t.detect n none with
      | some d => simp only [CameraDone, put_self]; rfl
      | none => rw [hd] at h; cases h

private theorem done_other (o : CalOptions) (ho : o.fo = false) (n m : String) (s : CalState C D) (h : CameraDone o n s) :
    CameraDone o n (monoCamera t o m s).1 := by
  by_cases hm : m = n
  · subst hm
    rw [done_step t o ho m s h]
    exact h
  · have hf : monoFile n o.suffix ≠ monoFile m o.suffix := fun e => hm (monoFile_inj e).symm
    unfold monoCamera
    split_ifs
    · exact h
    · unfold CameraDone
      rw [(mono_other t _ _ _ _ s hf).1]
      exact h

private theorem calMono_done (o : CalOptions) (ho : o.fo = false) (n : String) (ns : List String) (s : CalState C D)
    (h : CameraDone o n s) : CameraDone o n (calMono t o ns s).1 :=
  calMono_inv t (CameraDone o n) o (fun m s hs => done_other t o ho n m s hs) ns s h

/-- C115: running `mono` a second time changes nothing and ends in the same way. -/
theorem C115_again (suffix : String) (names : List String) (s : CalState C D) :
    calMono t (calOptions false false suffix) names (calMono t (calOptions false false suffix) names s).1 =
      calMono t (calOptions false false suffix) names s := by
  induction names generalizing s with
  | nil => rfl
  | cons n ns ih =>
    have hc : ∀ s, calMono t (calOptions false false suffix) (n :: ns) s =
      andThen (monoCamera t (calOptions false false suffix) n s) (calMono t (calOptions false false suffix) ns) := fun _ => rfl
    rw [hc s]
    cases h2 : (monoCamera t (calOptions false false suffix) n s).2 with
    | none =>
      rw [andThen_ok _ _ _ (run_eq _ _ _ rfl h2)]
      have hd := calMono_done t _ rfl n ns _ (step_done t _ rfl n s h2)
      rw [hc, andThen_ok _ _ _ (done_step t _ rfl n _ hd)]
      exact ih _
    | some e =>
      rw [andThen_error _ _ _ e (run_eq _ _ _ rfl h2)]
      have hs : (monoCamera t (calOptions false false suffix) n s).1 = s := by
        revert h2
        unfold monoCamera calibrateMono
        split_ifs
        · intro h; cases h
        · intro _; rfl
        all_goals
          split
          · intro h; cases h
          · split
            · intro h; cases h
            · intro _; rfl
      rw [hs, hc, andThen_error _ _ _ e (run_eq _ _ _ hs h2)]

/-- C115: `mono` does nothing if all cameras are calibrated. -/
theorem C115_nothing (suffix : String) (names : List String) (s : CalState C D)
    (h : ∀ n ∈ names, (s.yaml (monoFile n (calOptions false false suffix).suffix)).isSome = true) :
    calMono t (calOptions false false suffix) names s = (s, none) := by
  induction names with
  | nil => rfl
  | cons n ns ih =>
    rw [calMono, andThen_ok _ _ _ (done_step t _ rfl n s (h n (by simp)))]
    exact ih fun m hm => h m (by simp [hm])

end

example : ∀ n ∈ ["a"], ((folder [("mono_a_x", 5)] []).yaml (monoFile n (calOptions false false "x").suffix)).isSome = true := by
  decide +kernel

/-! ## C116: what a calibration is computed from -/

section
variable {C D : Type} (t : CalTools C D)

private theorem calMono_reaches (P Q : CalState C D → Prop) (o : CalOptions) (n : String)
    (hP : ∀ m s, m ≠ n → P s → P (monoCamera t o m s).1) (hn : ∀ s, P s → (monoCamera t o n s).2 = none → Q (monoCamera t o n s).1)
    (hQ : ∀ m s, Q s → Q (monoCamera t o m s).1) : ∀ (ns : List String) (s : CalState C D), n ∈ ns → P s →
      (calMono t o ns s).2 = none → Q (calMono t o ns s).1
  | [], _, h, _, _ => by cases h
  | m :: ns, s, h, hp, he => by
    rw [calMono] at he ⊢
    cases h2 : (monoCamera t o m s).2 with
    | some e => rw [andThen_error _ _ _ e (run_eq _ _ _ rfl h2)] at he; cases he
    | none =>
      rw [andThen_ok _ _ _ (run_eq _ _ _ rfl h2)] at he ⊢
      by_cases hm : m = n
      · subst hm
        exact calMono_inv t Q o hQ ns _ (hn s hp h2)
      · refine calMono_reaches P Q o n hP hn hQ ns _ ?_ (hP m s hm hp) he
        rcases List.mem_cons.1 h with h | h
        · exact absurd h.symm hm
        · exact h

/-- C116: with `-F` a camera is calibrated from the detections saved before, which are kept. -/
theorem C116_force (suffix : String) (names : List String) (n : String) (hn : n ∈ names) (s : CalState C D) (d : D) :
    let o := calOptions true false suffix
    s.json (monoFile n o.suffix) = some d → (calMono t o names s).2 = none →
    (calMono t o names s).1.yaml (monoFile n o.suffix) = some (t.solve d none) ∧
    (calMono t o names s).1.json (monoFile n o.suffix) = some d := by
  intro o hj he
  refine calMono_reaches t (fun s => s.json (monoFile n o.suffix) = some d)
    (fun s => s.yaml (monoFile n o.suffix) = some (t.solve d none) ∧ s.json (monoFile n o.suffix) = some d) o n ?_ ?_ ?_ names s hn hj he
  · intro m s _ h
    exact monoCamera_json t o rfl m s _ d h
  · intro s h hne
    refine ⟨?_, monoCamera_json t o rfl n s _ d h⟩
    unfold monoCamera at hne ⊢
    rw [if_neg (by simp [o, calOptions])] at hne ⊢
    unfold calibrateMono at hne ⊢
    split_ifs at hne ⊢ with h1 h2
    · exact absurd h2 (by simp [o, calOptions])
    · rw [h]; exact put_self _ _ _
  · rintro m s ⟨h1, h2⟩
    refine ⟨?_, monoCamera_json t o rfl m s _ d h2⟩
    by_cases hm : m = n
    · subst hm
      unfold monoCamera
      rw [if_neg (by simp [o, calOptions])]
      unfold calibrateMono
      split_ifs with h3 h4
      · exact h1
      · exact absurd h4 (by simp [o, calOptions])
      · rw [h2]; exact put_self _ _ _
    · unfold monoCamera
      split_ifs
      · exact h1
      · rw [(mono_other t _ _ _ _ s fun e => hm (monoFile_inj e).symm).1]; exact h1

/-- C116: with `-FF`, whatever the folder contains, a camera is calibrated from new detections, which are saved. -/
theorem C116_force_all (force : Bool) (suffix : String) (names : List String) (n : String) (hn : n ∈ names) (s : CalState C D) (d : D)
    (hd : t.detect n none = some d) :
    let o := calOptions force true suffix
    (calMono t o names s).2 = none →
    (calMono t o names s).1.yaml (monoFile n o.suffix) = some (t.solve d none) ∧
    (calMono t o names s).1.json (monoFile n o.suffix) = some d := by
  intro o he
  have hfo : o.fo = true := by simp [o, calOptions]
  have hstep : ∀ s, (monoCamera t o n s).2 = none →
      (monoCamera t o n s).1.yaml (monoFile n o.suffix) = some (t.solve d none) ∧ (monoCamera t o n s).1.json (monoFile n o.suffix) = some d := by
    intro s hne
    unfold monoCamera at hne ⊢
    rw [if_neg (by rw [hfo]; simp)] at hne ⊢
    unfold calibrateMono at hne ⊢
    rw [if_pos (show o.foa = true from rfl)] at hne ⊢
    split_ifs at hne ⊢
    simp only [hd]
    exact ⟨put_self _ _ _, put_self _ _ _⟩
  refine calMono_reaches t (fun _ => True)
    (fun s => s.yaml (monoFile n o.suffix) = some (t.solve d none) ∧ s.json (monoFile n o.suffix) = some d) o n
    (fun _ _ _ _ => trivial) (fun s _ => hstep s) ?_ names s hn trivial he
  rintro m s ⟨h1, h2⟩
  by_cases hm : m = n
  · subst hm
    cases hx : (monoCamera t o m s).2 with
    | none => exact hstep s hx
    | some e =>
      have hs : (monoCamera t o m s).1 = s := by
        revert hx
        unfold monoCamera calibrateMono
        split_ifs
        · intro h; cases h
        · intro _; rfl
        all_goals
          split
          · intro h; cases h
          · split
            · intro h; cases h
            · intro _; rfl
      rw [hs]; exact ⟨h1, h2⟩
  · unfold monoCamera
    split_ifs
    · exact ⟨h1, h2⟩
    · rw [(mono_other t _ _ _ _ s fun e => hm (monoFile_inj e).symm).1, (mono_other t _ _ _ _ s fun e => hm (monoFile_inj e).symm).2]
      exact ⟨h1, h2⟩

end

example : (calMono toyTools (calOptions true false "") ["a"] (folder [("mono_a", 5)] [("mono_a", 8)])).1.yaml "mono_a" = some 80 ∧
    (calMono toyTools (calOptions false true "") ["a"] (folder [("mono_a", 5)] [("mono_a", 8)])).1.yaml "mono_a" = some 10 ∧
    (calMono toyTools (calOptions true false "") ["a"] (folder [("mono_a", 5)] [("mono_a", 8)])).2 = none := by decide +kernel

/-! ## C117: what a stereo calibration is computed from -/

section
variable {C D : Type} (t : CalTools C D)

/-- C117: if `stereo` with two cameras ends without error, both monocular calibrations exist with their detections; if the
images have the same size, the stereo calibration is computed from these, unless the pattern is not found. -/
theorem C117_inputs (o : CalOptions) (c0 c1 : String) (s : CalState C D) (he : (calStereo t o [c0, c1] s).2 = none) :
    ∃ cl cr dl dr,
      (calStereo t o [c0, c1] s).1.yaml (monoFile c0 "") = some cl ∧ (calStereo t o [c0, c1] s).1.yaml (monoFile c1 "") = some cr ∧
      (calStereo t o [c0, c1] s).1.json (monoFile c0 "") = some dl ∧ (calStereo t o [c0, c1] s).1.json (monoFile c1 "") = some dr ∧
      (t.sameSize cl cr = true → ∀ c, t.stereo cl cr dl dr = some c →
        (calStereo t o [c0, c1] s).1.yaml (stereoFile c0 c1 o.suffix) = some c) := by
  unfold calStereo calPair at he ⊢
  simp only at he ⊢
  split_ifs at he ⊢ with hy
  cases h2 : (ensureMono t o [c0, c1] c0 c1 s).2 with
  | some e => rw [andThen_error _ _ _ e (run_eq _ _ _ rfl h2)] at he; cases he
  | none =>
    rw [andThen_ok _ _ _ (run_eq _ _ _ rfl h2)] at he ⊢
    generalize (ensureMono t o [c0, c1] c0 c1 s).1 = s at he ⊢
    have hwy : ∀ cl cr dl dr (s : CalState C D) n, (writeStereo t cl cr dl dr (stereoFile c0 c1 o.suffix) s).1.yaml (monoFile n "") = s.yaml (monoFile n "") := by
      intro cl cr dl dr s n
      unfold writeStereo
      split
      · rename_i d _
        exact put_other s.yaml d (stereo_ne_mono c0 c1 o.suffix n "").symm
      · rfl
    have hwj : ∀ cl cr dl dr (s : CalState C D), (writeStereo t cl cr dl dr (stereoFile c0 c1 o.suffix) s).1.json = s.json := by
      intro cl cr dl dr s
      unfold writeStereo
      split <;> rfl
    unfold calibrateStereo at he ⊢
    split_ifs at he ⊢ with hi
    split at he
    · rename_i dl dr cl cr g1 g2 g3 g4
      refine ⟨cl, cr, dl, dr, ?_⟩
      split_ifs at he ⊢ with hs
      · rw [hwy, hwy, hwj]
        refine ⟨g3, g4, g1, g2, fun _ c hc => ?_⟩
        unfold writeStereo
        rw [hc]
        exact put_self _ _ _
      · cases h3 : (resizedRight t cl c1 (monoFile c1 "") o.foa s).2 with
        | some e => rw [andThen_error _ _ _ e (run_eq _ _ _ rfl h3)] at he; cases he
        | none =>
          rw [andThen_ok _ _ _ (run_eq _ _ _ rfl h3)] at he ⊢
          have hr : ∀ n, (resizedRight t cl c1 (monoFile c1 "") o.foa s).1.yaml (monoFile n "") = s.yaml (monoFile n "") ∧
              (resizedRight t cl c1 (monoFile c1 "") o.foa s).1.json (monoFile n "") = s.json (monoFile n "") := by
            intro n
            unfold resizedRight
            split_ifs
            · exact ⟨rfl, rfl⟩
            · exact mono_other t _ _ _ _ s (mono_ne_resized _ _ _)
          split at he
          · rename_i c d q1 q2
            rw [hwy, hwy, hwj, (hr c0).1, (hr c1).1, (hr c0).2, (hr c1).2]
            exact ⟨g3, g4, g1, g2, fun h => absurd h hs⟩
          · cases he
    · cases he

/-- C117 for images of different sizes, if there are no detections from resized images yet: the right camera is calibrated
from detections in its images resized to the size of the left camera, and these are used. -/
theorem C117_resized_partial (left lfile right rfile out : String) (foa : Bool) (s : CalState C D) (cl cr : C) (dl dr d : D)
    (hi : 8 ≤ t.images left ∧ 8 ≤ t.images right) (h1 : s.json lfile = some dl) (h2 : s.json rfile = some dr) (h3 : s.yaml lfile = some cl)
    (h4 : s.yaml rfile = some cr) (hs : t.sameSize cl cr = false) (hr : s.json ("resized_" ++ rfile) = none)
    (hd : t.detect right (some cl) = some d) (c : C) (hc : t.stereo cl (t.solve d (some cl)) dl d = some c) :
    (calibrateStereo t left lfile right rfile out foa s).1.yaml out = some c := by
  unfold calibrateStereo
  rw [if_neg (by omega)]
  simp only [h1, h2, h3, h4, hs, Bool.false_eq_true, if_false]
  have e : resizedRight t cl right rfile foa s = (⟨putFile s.yaml ("resized_" ++ rfile) (t.solve d (some cl)),
      putFile s.json ("resized_" ++ rfile) d⟩, none) := by
    unfold resizedRight
    rw [hr, if_neg (by simp)]
    unfold calibrateMono
    rw [if_neg (by omega), hr, ite_self]
    simp only [hd]
  rw [andThen_ok _ _ _ e]
  simp only [put_self]
  unfold writeStereo
  rw [hc]
  exact put_self _ _ _

end

/-- Tools with images of different sizes. -/
private def toySizes : CalTools ℕ ℕ := { toyTools with sameSize := fun a b => a == b }

example : toySizes.sameSize 10 20 = false ∧
    (calibrateStereo toySizes "a" "mono_a" "bb" "mono_bb" "out" false (folder [("mono_a", 10), ("mono_bb", 20)] [("mono_a", 1), ("mono_bb", 2)])).1.yaml "out" =
      some 33 := by decide +kernel

/-- C117 in full for images of different sizes. -/
def ResizedIsCurrent : Prop :=
  ∀ (t : CalTools ℕ ℕ) (o : CalOptions) (c0 c1 : String) (s : CalState ℕ ℕ) (cl cr dl d c : ℕ),
    (calStereo t o [c0, c1] s).2 = none → (calStereo t o [c0, c1] s).1.yaml (monoFile c0 "") = some cl →
    (calStereo t o [c0, c1] s).1.yaml (monoFile c1 "") = some cr → (calStereo t o [c0, c1] s).1.json (monoFile c0 "") = some dl →
    t.sameSize cl cr = false → t.detect c1 (some cl) = some d → t.stereo cl (t.solve d (some cl)) dl d = some c →
    (calStereo t o [c0, c1] s).1.yaml (stereoFile c0 c1 o.suffix) = some c

/-- Detections from resized images are never renewed: `stereo -FF` uses the old ones. -/
theorem C117_stale_false : ¬ ResizedIsCurrent := by
  intro h
  have := h toySizes (calOptions true true "") "a" "bb"
    (folder [("mono_a", 10), ("mono_bb", 20), ("resized_mono_bb", 70)] [("mono_a", 1), ("mono_bb", 2), ("resized_mono_bb", 7)])
    10 20 1 2 33 (by decide +kernel) (by decide +kernel) (by decide +kernel) (by decide +kernel) (by decide +kernel) rfl rfl
  revert this
  decide +kernel

/-! ## C118: all pairs are calibrated -/

section
variable {C D : Type} (t : CalTools C D)

/-- Enough images, and the pattern is found in all of them. -/
structure Detectable : Prop where
  images : ∀ n, 8 ≤ t.images n
  detect : ∀ n x, ∃ d, t.detect n x = some d
  sameSize : ∀ a b, t.sameSize a b = true
  stereo : ∀ a b c d, ∃ r, t.stereo a b c d = some r

/-- The camera has its calibration and its detections. -/
private def Ready (n : String) (s : CalState C D) : Prop :=
  (s.yaml (monoFile n "")).isSome = true ∧ (s.json (monoFile n "")).isSome = true

private theorem mono_grows (name out : String) (target : Option C) (foa : Bool) (s : CalState C D) (f : String) :
    ((s.yaml f).isSome = true → ((calibrateMono t name out target foa s).1.yaml f).isSome = true) ∧
    ((s.json f).isSome = true → ((calibrateMono t name out target foa s).1.json f).isSome = true) := by
  by_cases hf : f = out
  · subst hf
    unfold calibrateMono
    split_ifs
    · exact ⟨id, id⟩
    all_goals
      split
      · exact ⟨fun _ => by simp only [put_self]; rfl, id⟩
      · split
        · exact ⟨fun _ => by simp only [put_self]; rfl, fun _ => by simp only [put_self]; rfl⟩
        · exact ⟨id, id⟩
  · rw [(mono_other t name out target foa s hf).1, (mono_other t name out target foa s hf).2]
    exact ⟨id, id⟩

private theorem camera_grows (o : CalOptions) (n m : String) (s : CalState C D) (h : Ready n s) : Ready n (monoCamera t o m s).1 := by
  unfold monoCamera
  split_ifs
  · exact h
  · exact ⟨(mono_grows t _ _ _ _ s _).1 h.1, (mono_grows t _ _ _ _ s _).2 h.2⟩

private theorem camera_ok (ht : Detectable t) (o : CalOptions) (n : String) (s : CalState C D) : (monoCamera t o n s).2 = none := by
  unfold monoCamera
  split_ifs
  · rfl
  · unfold calibrateMono
    rw [if_neg (by have := ht.images n; omega)]
    split
    · rfl
    · obtain ⟨d, hd⟩ := ht.detect n none
      rw [hd]

private theorem calMono_ready (ht : Detectable t) (force forceAll : Bool) :
    ∀ (ns : List String) (s : CalState C D), (∀ n, SavedWith (monoFile n "") s) →
      (calMono t (calOptions force forceAll "") ns s).2 = none ∧ ∀ n ∈ ns, Ready n (calMono t (calOptions force forceAll "") ns s).1
  | [], _, _ => ⟨rfl, by simp⟩
  | n :: ns, s, hs => by
    rw [calMono, andThen_ok _ _ _ (run_eq _ _ _ rfl (camera_ok t ht _ n s))]
    have hsv : ∀ m, SavedWith (monoFile m "") (monoCamera t (calOptions force forceAll "") n s).1 := by
      intro m
      unfold monoCamera
      split_ifs
      · exact hs m
      · exact calibrateMono_saved t _ _ _ _ _ _ (hs m)
    obtain ⟨h1, h2⟩ := calMono_ready ht force forceAll ns _ hsv
    refine ⟨h1, fun m hm => ?_⟩
    rcases List.mem_cons.1 hm with rfl | hm
    · refine calMono_inv t (Ready m) _ (fun k s h => camera_grows t _ m k s h) ns _ ?_
      unfold monoCamera
      split_ifs with hy
      · refine ⟨hy.1, ?_⟩
        cases hj : s.json (monoFile m "") with
        | some d => rfl
        | none =>
          have := hs m hj
          have e : (calOptions force forceAll "").suffix = "" := by simp [calOptions]
          rw [e, this] at hy
          exact absurd hy.1 (by simp)
      · have e : (calOptions force forceAll "").suffix = "" := by simp [calOptions]
        rw [e]
        unfold calibrateMono
        rw [if_neg (by have := ht.images m; omega)]
        obtain ⟨d', hd'⟩ := ht.detect m none
        split
        · rename_i d hd
          refine ⟨by simp only [put_self]; rfl, ?_⟩
          split_ifs at hd
          simp only [hd]; rfl
        · simp only [hd']
          exact ⟨by simp only [put_self]; rfl, by simp only [put_self]; rfl⟩
    · exact h2 m hm

private theorem stereo_writes (ht : Detectable t) (foa : Bool) (l r out : String) (s : CalState C D) (hl : Ready l s) (hr : Ready r s) :
    ∃ c, calibrateStereo t l (monoFile l "") r (monoFile r "") out foa s = ({ s with yaml := putFile s.yaml out c }, none) := by
  obtain ⟨cl, h1⟩ := Option.isSome_iff_exists.1 hl.1
  obtain ⟨dl, h2⟩ := Option.isSome_iff_exists.1 hl.2
  obtain ⟨cr, h3⟩ := Option.isSome_iff_exists.1 hr.1
  obtain ⟨dr, h4⟩ := Option.isSome_iff_exists.1 hr.2
  obtain ⟨c, hc⟩ := ht.stereo cl cr dl dr
  refine ⟨c, ?_⟩
  unfold calibrateStereo
  rw [if_neg (by have := ht.images l; have := ht.images r; omega)]
  simp only [h1, h2, h3, h4, ht.sameSize, if_true]
  unfold writeStereo
  rw [hc]

private theorem ready_put (n l r sfx : String) (c : C) (s : CalState C D) (h : Ready n s) :
    Ready n { s with yaml := putFile s.yaml (stereoFile l r sfx) c } := by
  refine ⟨?_, h.2⟩
  simp only
  rw [put_other _ _ (stereo_ne_mono _ _ _ _ _).symm]
  exact h.1

private theorem pair_writes (ht : Detectable t) (forceAll : Bool) (names : List String) (l r : String) (s : CalState C D)
    (hl : l ∈ names) (hr : r ∈ names) (hsv : ∀ n, SavedWith (monoFile n "") s) :
    ∃ s₁ c, calPair t (calOptions true forceAll "") names l r s = ({ s₁ with yaml := putFile s₁.yaml (stereoFile l r "") c }, none) ∧
      Ready l s₁ ∧ Ready r s₁ ∧ (∀ n, SavedWith (monoFile n "") s₁) ∧ ∀ f, (∀ n, f ≠ monoFile n "") → s₁.yaml f = s.yaml f := by
  have e : (calOptions true forceAll "").suffix = "" := by simp [calOptions]
  have hen : (ensureMono t (calOptions true forceAll "") names l r s).2 = none ∧
      Ready l (ensureMono t (calOptions true forceAll "") names l r s).1 ∧ Ready r (ensureMono t (calOptions true forceAll "") names l r s).1 ∧
      (∀ n, SavedWith (monoFile n "") (ensureMono t (calOptions true forceAll "") names l r s).1) ∧
      ∀ f, (∀ n, f ≠ monoFile n "") → (ensureMono t (calOptions true forceAll "") names l r s).1.yaml f = s.yaml f := by
    unfold ensureMono
    split_ifs with h1 h2
    · have : ∀ n, (s.yaml (monoFile n "")).isSome = true → Ready n s := by
        intro n hn
        refine ⟨hn, ?_⟩
        cases hj : s.json (monoFile n "") with
        | some d => rfl
        | none => rw [hsv n hj] at hn; cases hn
      exact ⟨rfl, this l h1.1, this r h1.2, hsv, fun _ _ => rfl⟩
    · exact absurd e h2
    · obtain ⟨g1, g2⟩ := calMono_ready t ht true forceAll names s hsv
      refine ⟨g1, g2 l hl, g2 r hr, fun n => ?_, fun f hf => ?_⟩
      · refine calMono_inv t (SavedWith (monoFile n "")) _ (fun m s h => ?_) names s (hsv n)
        unfold monoCamera
        split_ifs
        · exact h
        · exact calibrateMono_saved t _ _ _ _ _ _ h
      · refine calMono_inv t (fun s' => s'.yaml f = s.yaml f) _ (fun m s' h => ?_) names s rfl
        unfold monoCamera
        split_ifs
        · exact h
        · rw [e, (mono_other t _ _ _ _ s' (hf m)).1]; exact h
  obtain ⟨g1, g2, g3, g4, g5⟩ := hen
  obtain ⟨c, hc⟩ := stereo_writes t ht (calOptions true forceAll "").foa l r (stereoFile l r "") _ g2 g3
  refine ⟨_, c, ?_, g2, g3, g4, g5⟩
  unfold calPair
  rw [if_neg (by simp [calOptions]), andThen_ok _ _ _ (run_eq _ _ _ rfl g1), e, hc]

/-- C118 with `-F`: afterwards the first camera is calibrated with the second, and with the third in both directions. -/
theorem C118_all_pairs_partial (ht : Detectable t) (forceAll : Bool) (c0 c1 c2 : String) (rest : List String) (s : CalState C D)
    (hsv : ∀ n, SavedWith (monoFile n "") s) :
    (calStereo t (calOptions true forceAll "") (c0 :: c1 :: c2 :: rest) s).2 = none ∧
    ∀ p ∈ [(c0, c1), (c0, c2), (c2, c0)],
      ((calStereo t (calOptions true forceAll "") (c0 :: c1 :: c2 :: rest) s).1.yaml (stereoFile p.1 p.2 "")).isSome = true := by
  have e : (calOptions true forceAll "").suffix = "" := by simp [calOptions]
  obtain ⟨s₁, a, h1, r0, r1, hsv1, -⟩ := pair_writes t ht forceAll (c0 :: c1 :: c2 :: rest) c0 c1 s (by simp) (by simp) hsv
  have hsv1' : ∀ n, SavedWith (monoFile n "") { s₁ with yaml := putFile s₁.yaml (stereoFile c0 c1 "") a } := by
    intro n hn
    simp only
    rw [put_other _ _ (stereo_ne_mono _ _ _ _ _).symm]
    exact hsv1 n hn
  obtain ⟨s₂, b, h2, r0', r2, -, hk⟩ := pair_writes t ht forceAll (c0 :: c1 :: c2 :: rest) c0 c2 _ (by simp) (by simp) hsv1'
  have r0'' := ready_put c0 c0 c2 "" b s₂ r0'
  have r2'' := ready_put c2 c0 c2 "" b s₂ r2
  obtain ⟨c, h3⟩ := stereo_writes t ht (calOptions true forceAll "").foa c2 c0 (stereoFile c2 c0 "") _ r2'' r0''
  have hrun : calStereo t (calOptions true forceAll "") (c0 :: c1 :: c2 :: rest) s =
      ({ s₂ with yaml := putFile (putFile s₂.yaml (stereoFile c0 c2 "") b) (stereoFile c2 c0 "") c }, none) := by
    unfold calStereo
    simp only
    rw [andThen_ok _ _ _ h1]
    unfold calThird
    rw [andThen_ok _ _ _ h2, e, h3]
  rw [hrun]
  have hsome : ∀ (g : String → Option C) (k x : String) (v : C), (g x).isSome = true → (putFile g k v x).isSome = true := by
    intro g k x v h
    unfold putFile
    split_ifs
    · rfl
    · exact h
  refine ⟨rfl, fun p hp => ?_⟩
  simp only [List.mem_cons, List.not_mem_nil, or_false] at hp
  rcases hp with rfl | rfl | rfl
  · apply hsome
    apply hsome
    rw [hk _ fun n => stereo_ne_mono _ _ _ _ _]
    simp only [put_self]; rfl
  · apply hsome
    rw [put_self]; rfl
  · simp only [put_self]; rfl

end

example : Detectable toyTools ∧ ∀ n, SavedWith (monoFile n "") (folder [] []) :=
  ⟨⟨fun _ => (by decide : 8 ≤ 20), fun _ _ => ⟨_, rfl⟩, fun _ _ => rfl, fun _ _ _ _ => ⟨_, rfl⟩⟩, fun _ _ => rfl⟩

/-- C118 in full: also without `-F`, when some calibrations exist. -/
def CalibratesAllPairs : Prop :=
  ∀ (t : CalTools ℕ ℕ) (s : CalState ℕ ℕ) (c0 c1 c2 : String), Detectable t → (∀ n, SavedWith (monoFile n "") s) →
    ((calStereo t (calOptions false false "") [c0, c1, c2] s).1.yaml (stereoFile c0 c2 "")).isSome = true

/-- If the first pair is calibrated, the program ends without calibrating the second. -/
theorem C118_second_pair_false : ¬ CalibratesAllPairs := by
  intro h
  have := h toyTools (folder [("stereo_a_b", 1)] []) "a" "b" "c"
    ⟨fun _ => (by decide : 8 ≤ 20), fun _ _ => ⟨_, rfl⟩, fun _ _ => rfl, fun _ _ _ _ => ⟨_, rfl⟩⟩ (by
      intro n _
      have hne : monoFile n "" ≠ "stereo_a_b" := (stereo_ne_mono "a" "b" "" n "").symm
      simp [folder, List.lookup, beq_eq_false_iff_ne.2 hne])
  revert this
  decide +kernel

/-- C114: a suffix may be given with or without its underscore. -/
theorem C114_suffix (force forceAll : Bool) (c : Char) (rest : List Char) (hc : c ≠ '_') :
    calOptions force forceAll (String.ofList (c :: rest)) = calOptions force forceAll (String.ofList ('_' :: c :: rest)) ∧
    (calOptions force forceAll (String.ofList (c :: rest))).suffix.toList = '_' :: c :: rest := by
  have h1 : String.ofList (c :: rest) ≠ "" := by
    intro h
    have := congrArg String.toList h
    simp at this
  have e : "_" ++ String.ofList (c :: rest) = String.ofList ('_' :: c :: rest) := by
    apply String.toList_inj.mp
    simp [String.toList_append]
  unfold calOptions
  rw [if_pos ⟨h1, by simpa using hc⟩, if_neg (by simp), e]
  exact ⟨rfl, by simp⟩

example : (calOptions false false "x").suffix = "_x" ∧ (calOptions false false "_x").suffix = "_x" ∧ (calOptions true false "").suffix = "" := by
  decide +kernel

section
variable {C D : Type} (t : CalTools C D)

/-- C117: a pair of which one camera has fewer than eight images is not calibrated; nothing is written. -/
theorem C117_few_images (left lfile right rfile out : String) (foa : Bool) (s : CalState C D)
    (h : t.images left < 8 ∨ t.images right < 8) : calibrateStereo t left lfile right rfile out foa s = (s, some .quit) := by
  unfold calibrateStereo
  rw [if_pos h]

private theorem top_ne_bottom (n x : String) : laserFile "top" n x ≠ laserFile "bottom" n x := by
  intro h
  unfold laserFile at h
  rw [String.append_assoc, String.append_assoc, String.append_assoc, String.append_assoc, String.append_assoc, String.append_assoc] at h
  have h2 := congrArg String.toList h
  rw [String.toList_append, String.toList_append (s := "laser_calibration_")] at h2
  have h3 := String.toList_inj.mp (List.append_cancel_left h2)
  exact first_ne (by decide) (by decide) (by decide) h3

/-- C117: with a stereo calibration of the first two cameras, `laser` writes the plane of each laser that is computed from it to the
file of that laser. -/
theorem C117_laser (o : CalOptions) (c0 c1 : String) (rest : List String) (s : CalState C D) (c : C) (p : C × C)
    (hs : s.yaml (stereoFile c0 c1 "") = some c) (hn : s.yaml (laserFile "top" c0 o.suffix) = none ∨ o.fo = true)
    (hf : t.laserFolders = true) (hi : 8 ≤ t.laserImages) (hp : t.laser c = some p) :
    (calLaser t o (c0 :: c1 :: rest) s).2 = none ∧
    (calLaser t o (c0 :: c1 :: rest) s).1.yaml (laserFile "top" c0 o.suffix) = some p.1 ∧
    (calLaser t o (c0 :: c1 :: rest) s).1.yaml (laserFile "bottom" c0 o.suffix) =
      if t.twoLasers = true then some p.2 else s.yaml (laserFile "bottom" c0 o.suffix) := by
  have hq : ¬ ((s.yaml (laserFile "top" c0 o.suffix)).isSome = true ∧ o.fo = false) := by
    rintro ⟨h1, h2⟩
    rcases hn with h | h
    · rw [h] at h1; cases h1
    · rw [h] at h2; cases h2
  have hne := top_ne_bottom c0 o.suffix
  have h8 : ¬ t.laserImages < 8 := by omega
  simp only [calLaser, if_neg hq, ensureStereo, hs, Option.isSome_some, if_true, andThen, calibrateLaser, hf, Bool.true_eq_false, if_false,
    h8, hp]
  cases ht : t.twoLasers
  · simp only [Bool.false_eq_true, if_false]
    exact ⟨trivial, put_self _ _ _, put_other _ _ hne.symm⟩
  · simp only [if_true]
    exact ⟨trivial, by rw [put_other _ _ hne]; exact put_self _ _ _, put_self _ _ _⟩

end

example : (toyTools.laser 22).isSome = true ∧ toyTools.laserFolders = true ∧ 8 ≤ toyTools.laserImages := by decide +kernel


end Oplab.Props
