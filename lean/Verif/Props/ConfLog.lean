import Verif.Spec.ConfLog
import Mathlib.Tactic

/-! # C246: configurations in the log folder -/

namespace Oplab.Props
open Oplab Oplab.Spec

variable {C : Type} (loads : ConfFile → C → Bool)

/-- What a run can change: copies under its own times, and a configuration file only if it was missing or by an edit. -/
private theorem frame (s : DiveConf C) (o : ConfOp C) :
    (∀ k, k.1 ∉ opStamps o → (runConf loads s o).1.log k = s.log k) ∧
      ∀ f c, s.conf f = some c → (∀ x, o ≠ .edit f x) → (runConf loads s o).1.conf f = some c := by
  cases o with
  | edit f x =>
    refine ⟨fun _ _ => rfl, ?_⟩
    intro g c hg hne
    have : g ≠ f := by rintro rfl; exact hne x rfl
    simp only [runConf, DiveConf.written, if_neg this, hg]
  | parse t skip =>
    constructor
    · intro k hk
      have hk : k.1 ≠ t := by simpa [opStamps] using hk
      have h1 : ∀ x, k ≠ (t, x) := by rintro x rfl; exact hk rfl
      simp only [runConf, runParse]
      repeat' split
      all_goals simp [DiveConf.logged, h1]
    · intro f c hf _
      simp only [runConf, runParse]
      repeat' split
      all_goals simp [DiveConf.logged, hf]
  | process t1 t2 valid dflt =>
    constructor
    · intro k hk
      have hk : k.1 ≠ t1 ∧ k.1 ≠ t2 := by simpa [opStamps] using hk
      have h1 : ∀ x, k ≠ (t1, x) := by rintro x rfl; exact hk.1 rfl
      have h2 : ∀ x, k ≠ (t2, x) := by rintro x rfl; exact hk.2 rfl
      cases ha : s.conf .auvNav <;> simp only [runConf, runProcess, logAuvNav, withAuvNav, ha, DiveConf.logged, DiveConf.written]
      all_goals repeat' split
      all_goals simp_all
    · intro f c hf _
      by_cases hfa : f = .auvNav
      · subst hfa
        simp only [runConf, runProcess, logAuvNav, withAuvNav, hf, DiveConf.logged]
        repeat' split
        all_goals simp_all
      · cases ha : s.conf .auvNav <;> simp only [runConf, runProcess, logAuvNav, withAuvNav, ha, DiveConf.logged, DiveConf.written]
        all_goals repeat' split
        all_goals simp_all
  | correct t suffix dflt dc =>
    constructor
    · intro k hk
      have hk : k.1 ≠ t := by simpa [opStamps] using hk
      have h1 : ∀ x, k ≠ (t, x) := by rintro x rfl; exact hk rfl
      simp only [runConf, runCorrect]
      repeat' split
      all_goals simp_all [DiveConf.logged, DiveConf.written]
    · intro f c hf _
      by_cases hfa : f = .correct suffix
      · subst hfa
        simp only [runConf, runCorrect, hf]
        repeat' split
        all_goals simp_all [DiveConf.logged]
      · cases ha : s.conf (.correct suffix) <;> simp only [runConf, runCorrect, ha, DiveConf.logged, DiveConf.written]
        all_goals repeat' split
        all_goals simp_all

private theorem later_log (k : String × ConfCopy) : ∀ (ops : List (ConfOp C)) (s : DiveConf C), (∀ p ∈ ops, k.1 ∉ opStamps p) →
    (confHistory loads s ops).log k = s.log k
  | [], _, _ => rfl
  | o :: ops, s, h => by
    show (confHistory loads (runConf loads s o).1 ops).log k = _
    rw [later_log k ops _ fun p hp => h p (List.mem_cons_of_mem _ hp)]
    exact (frame loads s o).1 k (h o List.mem_cons_self)

/-- C246: in every history of runs and edits a configuration file that exists is only changed by an edit of the user. -/
theorem C246_inputs (f : ConfFile) (c : C) : ∀ (ops : List (ConfOp C)) (s : DiveConf C), s.conf f = some c → NotEdited f ops →
    (confHistory loads s ops).conf f = some c
  | [], _, h, _ => h
  | o :: ops, s, h, hn => by
    show (confHistory loads (runConf loads s o).1 ops).conf f = _
    exact C246_inputs f c ops _ ((frame loads s o).2 f c h (hn o List.mem_cons_self)) fun p hp => hn p (List.mem_cons_of_mem _ hp)

private def exConf : DiveConf ℕ := ⟨fun _ => some 7, fun _ => none⟩

example : NotEdited .auvNav [ConfOp.process "20260101_000000" "20260101_000001" true 1, .edit .mission (some 3), .parse "20260101_000002" false] ∧
    exConf.conf .auvNav = some 7 := by
  refine ⟨?_, rfl⟩
  intro o ho c
  simp only [List.mem_cons, List.not_mem_nil, or_false] at ho
  rcases ho with rfl | rfl | rfl <;> simp

/-- C246 (partial): the mission, vehicle, auv_nav.yaml and correct_images.yaml files that a run worked with are in the log under its time, and stay
there whatever is run or edited later, as long as no later run has the same time. Missing: auv_nav.yaml if the run writes it, camera.yaml of
correct_images, and runs with the same time. -/
theorem C246_logged_partial (s : DiveConf C) (o : ConfOp C) (later : List (ConfOp C))
    (hl : ∀ p ∈ later, ∀ t ∈ opStamps p, t ∉ opStamps o) (f : ConfFile) (c : C) (hu : (f, c) ∈ (runConf loads s o).2.1)
    (hcam : copyOf f ≠ .camera) (hnav : f = .auvNav → s.conf .auvNav ≠ none) :
    InLog (confHistory loads (runConf loads s o).1 later) o f c := by
  suffices h : ∃ t ∈ opStamps o, (runConf loads s o).1.log (t, copyOf f) = some c by
    obtain ⟨t, ht, h⟩ := h
    refine ⟨t, ht, ?_⟩
    rw [later_log loads (t, copyOf f) later _ (fun p hp hm => hl p hp t hm ht), h]
  cases o with
  | edit g x => simp [runConf] at hu
  | parse t skip =>
    refine ⟨t, List.mem_cons_self, ?_⟩
    simp only [runConf, runParse] at hu ⊢
    cases skip with
    | true => simp at hu
    | false =>
      simp only [Bool.false_eq_true, if_false] at hu ⊢
      cases hm : s.conf .mission with
      | none => simp [hm] at hu
      | some m =>
        cases hv : s.conf .vehicle with
        | none => simp [hm, hv] at hu
        | some v =>
          simp only [hm, hv] at hu ⊢
          split at hu
          · rename_i hld
            rw [if_pos hld]
            cases hcr : s.conf .cameraRaw with
            | none => simp [DiveConf.logged, hcr] at hu
            | some cc =>
              simp only [DiveConf.logged, hcr, List.mem_cons, List.not_mem_nil, or_false, Prod.mk.injEq] at hu ⊢
              rcases hu with ⟨rfl, rfl⟩ | ⟨rfl, rfl⟩ <;> simp [copyOf]
          · simp at hu
  | process t1 t2 valid dflt =>
    simp only [runConf, runProcess] at hu ⊢
    cases valid with
    | false => simp at hu
    | true =>
      simp only [if_true] at hu ⊢
      cases ha : s.conf .auvNav with
      | none =>
        have hfa : f ≠ .auvNav := fun e => hnav e ha
        refine ⟨t2, by simp [opStamps], ?_⟩
        simp only [logAuvNav, withAuvNav, ha] at hu ⊢
        cases hm : s.conf .mission with
        | none => simp [hm, DiveConf.written] at hu
        | some m =>
          cases hv : s.conf .vehicle with
          | none => simp [hm, hv, DiveConf.written] at hu
          | some v =>
            simp only [hm, hv, DiveConf.written, reduceCtorEq, if_false] at hu ⊢
            split at hu
            · rename_i hld
              rw [if_pos hld]
              simp only [List.mem_cons, List.not_mem_nil, or_false, Prod.mk.injEq] at hu
              rcases hu with ⟨rfl, -⟩ | ⟨rfl, rfl⟩ | ⟨rfl, rfl⟩
              · exact absurd rfl hfa
              · simp [copyOf, DiveConf.logged]
              · simp [copyOf, DiveConf.logged]
            · simp at hu
      | some a =>
        simp only [logAuvNav, withAuvNav, ha, DiveConf.logged] at hu ⊢
        cases hm : s.conf .mission with
        | none => simp [hm] at hu
        | some m =>
          cases hv : s.conf .vehicle with
          | none => simp [hm, hv] at hu
          | some v =>
            simp only [hm, hv] at hu ⊢
            split at hu
            · rename_i hld
              rw [if_pos hld]
              simp only [List.mem_cons, List.not_mem_nil, or_false, Prod.mk.injEq] at hu
              rcases hu with ⟨rfl, rfl⟩ | ⟨rfl, rfl⟩ | ⟨rfl, rfl⟩
              · exact ⟨t1, by simp [opStamps], by simp [copyOf]⟩
              · exact ⟨t2, by simp [opStamps], by simp [copyOf]⟩
              · exact ⟨t2, by simp [opStamps], by simp [copyOf]⟩
            · simp at hu
  | correct t suffix dflt dc =>
    refine ⟨t, List.mem_cons_self, ?_⟩
    simp only [runConf, runCorrect] at hu ⊢
    have hc : copyOf (usedCamera s dc).1 = .camera := by
      unfold usedCamera
      split <;> rfl
    split at hu
    · rename_i h1
      rw [if_pos h1]
      cases hs : s.conf (.correct suffix) with
      | none =>
        simp only [hs] at hu ⊢
        split at hu
        · rename_i h2
          rw [if_pos h2]
          simp only [List.mem_cons, List.not_mem_nil, or_false, Prod.mk.injEq] at hu
          rcases hu with hu | ⟨rfl, rfl⟩
          · rw [← hu] at hc
            exact absurd hc hcam
          · simp [copyOf, DiveConf.logged]
        · simp at hu
      | some x =>
        simp only [hs] at hu ⊢
        split at hu
        · rename_i h2
          rw [if_pos h2]
          simp only [List.mem_cons, List.not_mem_nil, or_false, Prod.mk.injEq] at hu
          rcases hu with hu | ⟨rfl, rfl⟩
          · rw [← hu] at hc
            exact absurd hc hcam
          · simp [copyOf, DiveConf.logged]
        · simp at hu
    · simp at hu

/-- C246: every file that a run works with could be loaded and, apart from camera.yaml, is the configuration file of that name after the
run, as it was before or, for auv_nav.yaml and correct_images.yaml, as the run wrote it. -/
theorem C246_used (s : DiveConf C) (o : ConfOp C) (f : ConfFile) (c : C) (hu : (f, c) ∈ (runConf loads s o).2.1) :
    loads f c = true ∧ (copyOf f ≠ .camera → (runConf loads s o).1.conf f = some c) := by
  cases o with
  | edit g x => simp [runConf] at hu
  | parse t skip =>
    simp only [runConf, runParse] at hu ⊢
    cases skip with
    | true => simp at hu
    | false =>
      simp only [Bool.false_eq_true, if_false] at hu ⊢
      cases hm : s.conf .mission with
      | none => simp [hm] at hu
      | some m =>
        cases hv : s.conf .vehicle with
        | none => simp [hm, hv] at hu
        | some v =>
          simp only [hm, hv] at hu ⊢
          split at hu
          · rename_i hld
            rw [if_pos hld]
            rw [Bool.and_eq_true] at hld
            cases hcr : s.conf .cameraRaw with
            | none => simp [DiveConf.logged, hcr] at hu
            | some cc =>
              simp only [DiveConf.logged, hcr, List.mem_cons, List.not_mem_nil, or_false, Prod.mk.injEq] at hu ⊢
              rcases hu with ⟨rfl, rfl⟩ | ⟨rfl, rfl⟩
              · exact ⟨hld.1, fun _ => hm⟩
              · exact ⟨hld.2, fun _ => hv⟩
          · simp at hu
  | process t1 t2 valid dflt =>
    simp only [runConf, runProcess] at hu ⊢
    cases valid with
    | false => simp at hu
    | true =>
      simp only [if_true] at hu ⊢
      cases ha : s.conf .auvNav with
      | none =>
        simp only [logAuvNav, withAuvNav, ha] at hu ⊢
        cases hm : s.conf .mission with
        | none => simp [hm, DiveConf.written] at hu
        | some m =>
          cases hv : s.conf .vehicle with
          | none => simp [hm, hv, DiveConf.written] at hu
          | some v =>
            simp only [hm, hv, DiveConf.written, reduceCtorEq, if_false] at hu ⊢
            split at hu
            · rename_i hld
              rw [if_pos hld]
              simp only [Bool.and_eq_true] at hld
              simp only [List.mem_cons, List.not_mem_nil, or_false, Prod.mk.injEq] at hu
              rcases hu with ⟨rfl, rfl⟩ | ⟨rfl, rfl⟩ | ⟨rfl, rfl⟩
              · exact ⟨hld.1.1, fun _ => by simp [DiveConf.logged]⟩
              · exact ⟨hld.1.2, fun _ => by simp [DiveConf.logged, hm]⟩
              · exact ⟨hld.2, fun _ => by simp [DiveConf.logged, hv]⟩
            · simp at hu
      | some a =>
        simp only [logAuvNav, withAuvNav, ha, DiveConf.logged] at hu ⊢
        cases hm : s.conf .mission with
        | none => simp [hm] at hu
        | some m =>
          cases hv : s.conf .vehicle with
          | none => simp [hm, hv] at hu
          | some v =>
            simp only [hm, hv] at hu ⊢
            split at hu
            · rename_i hld
              rw [if_pos hld]
              simp only [Bool.and_eq_true] at hld
              simp only [List.mem_cons, List.not_mem_nil, or_false, Prod.mk.injEq] at hu
              rcases hu with ⟨rfl, rfl⟩ | ⟨rfl, rfl⟩ | ⟨rfl, rfl⟩
              · exact ⟨hld.1.1, fun _ => ha⟩
              · exact ⟨hld.1.2, fun _ => hm⟩
              · exact ⟨hld.2, fun _ => hv⟩
            · simp at hu
  | correct t suffix dflt dc =>
    simp only [runConf, runCorrect] at hu ⊢
    have hc : copyOf (usedCamera s dc).1 = .camera := by
      unfold usedCamera
      split <;> rfl
    split at hu
    · rename_i h1
      rw [if_pos h1]
      cases hs : s.conf (.correct suffix) with
      | none =>
        simp only [hs] at hu ⊢
        split at hu
        · rename_i h2
          rw [if_pos h2]
          simp only [List.mem_cons, List.not_mem_nil, or_false, Prod.mk.injEq] at hu
          rcases hu with hu | ⟨rfl, rfl⟩
          · rw [← hu] at hc h1
            exact ⟨h1, fun h => absurd hc h⟩
          · exact ⟨h2, fun _ => by simp [DiveConf.logged, DiveConf.written]⟩
        · simp at hu
      | some x =>
        simp only [hs] at hu ⊢
        split at hu
        · rename_i h2
          rw [if_pos h2]
          simp only [List.mem_cons, List.not_mem_nil, or_false, Prod.mk.injEq] at hu
          rcases hu with hu | ⟨rfl, rfl⟩
          · rw [← hu] at hc h1
            exact ⟨h1, fun h => absurd hc h⟩
          · exact ⟨h2, fun _ => hs⟩
        · simp at hu
    · simp at hu

example : (ConfFile.auvNav, 7) ∈ (runConf (fun _ _ => true) exConf (.process "20260101_000000" "20260101_000001" true 1)).2.1 := by decide +kernel

private def fresh : DiveConf ℕ := ⟨fun f => if f = .auvNav then none else some 7, fun _ => none⟩

/-- C246 is false: the default auv_nav.yaml that the first run writes and uses is not in the log. -/
theorem C246_default_false : ¬ RunsLogged ℕ := by
  intro h
  obtain ⟨t, ht, hl⟩ := h (fun _ _ => true) fresh (.process "a" "b" true 1) [] (by simp) .auvNav 1 (by decide +kernel)
  have e : ∀ t ∈ ["a", "b"], ((runConf (fun _ _ => true) fresh (.process "a" "b" true 1)).1.log (t, ConfCopy.auvNav)).isNone = true := by decide +kernel
  have := e t ht
  rw [show (runConf (fun _ _ => true) fresh (.process "a" "b" true 1)).1.log (t, ConfCopy.auvNav) = some 1 from hl] at this
  cases this

/-- C246 is false: the camera.yaml that correct_images uses is not in the log. -/
theorem C246_camera_false : ¬ RunsLogged ℕ := by
  intro h
  obtain ⟨t, ht, hl⟩ := h (fun _ _ => true) fresh (.correct "a" "" 1 2) [] (by simp) .cameraConfig 7 (by decide +kernel)
  have e : ∀ t ∈ ["a"], ((runConf (fun _ _ => true) fresh (.correct "a" "" 1 2)).1.log (t, ConfCopy.camera)).isNone = true := by decide +kernel
  have := e t ht
  rw [show (runConf (fun _ _ => true) fresh (.correct "a" "" 1 2)).1.log (t, ConfCopy.camera) = some 7 from hl] at this
  cases this

/-- C246 is false: a run in the same second replaces the copies, even one of correct_images with another suffix. -/
theorem C246_same_time_false : ¬ CopiesKept ℕ := by
  intro h
  let s : DiveConf ℕ := ⟨fun f => if f = .correct "b" then some 8 else some 7, fun _ => none⟩
  let s1 := (runConf (fun _ _ => true) s (.correct "t" "a" 1 2)).1
  have e1 : s1.log ("t", .correct) = some 7 := by decide +kernel
  have e2 := h (fun _ _ => true) s1 (.correct "t" "b" 1 2) ("t", .correct) 7 e1
  have e3 : (runConf (fun _ _ => true) s1 (.correct "t" "b" 1 2)).1.log ("t", .correct) = some 8 := by decide +kernel
  rw [e3] at e2
  exact absurd (Option.some.inj e2) (by norm_num)

/-- C246: a dive without camera.yaml in the raw folder, for instance with one in the config folder only, cannot be parsed. -/
theorem C246_parse_camera_false : ¬ Parses ℕ := by
  intro h
  have := h (fun _ _ => true) ⟨fun f => if f = .cameraRaw then none else some 7, fun _ => none⟩ "t" 7 7 rfl rfl rfl rfl
  simp [runParse, DiveConf.logged] at this

/-- C246: which dives are parsed. -/
theorem C246_parse_partial (s : DiveConf C) (t : String) (m v c : C) (hm : s.conf .mission = some m) (hv : s.conf .vehicle = some v)
    (hc : s.conf .cameraRaw = some c) (h1 : loads .mission m = true) (h2 : loads .vehicle v = true) : (runParse loads s t false).2.2 = none := by
  simp [runParse, hm, hv, hc, h1, h2, DiveConf.logged]

end Oplab.Props
