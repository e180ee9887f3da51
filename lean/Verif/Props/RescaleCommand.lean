import Verif.Spec.RescaleCommand

/-!
# C215: the command for rescaling
-/

namespace Oplab.Props
open Oplab Oplab.Spec

section
variable {K : Type} [Field K] [LinearOrder K] [FloorRing K]

private theorem ending_iff (n : List Char) : isRescaled n = true ↔ ImageEnding n := by
  have key : ∀ e : List Char, e.length = 4 → (n.drop (n.length - 4) = e ↔ ∃ s, n = s ++ e) := by
    intro e he
    constructor
    · intro h
      exact ⟨n.take (n.length - 4), by rw [← h, List.take_append_drop]⟩
    · rintro ⟨s, rfl⟩
      rw [List.length_append, he, Nat.add_sub_cancel, List.drop_left]
  unfold isRescaled ImageEnding
  simp only [Bool.or_eq_true, decide_eq_true_eq]
  rw [key _ (by decide), key _ (by decide), key _ (by decide), exists_or, exists_or, or_assoc]

omit [Field K] [LinearOrder K] [FloorRing K] in
private theorem altitudes_mem (stem : List Char → List Char) (rows : List (List Char × K)) (name : List Char) (a : K) :
    a ∈ rescaleAltitudes stem rows name ↔ ∃ image, (image, a) ∈ rows ∧ stem image <:+: name := by
  unfold rescaleAltitudes
  simp only [List.mem_map, List.mem_filter, List.contains_eq_mem, decide_eq_true_eq]
  constructor
  · rintro ⟨⟨i, b⟩, ⟨h1, -, h3⟩, rfl⟩
    exact ⟨i, h1, h3⟩
  · rintro ⟨i, h1, h2⟩
    exact ⟨(i, a), ⟨h1, ⟨_, h1, rfl⟩, h2⟩, rfl⟩

private theorem image_ok (stem : List Char → List Char) (rows : List (List Char × K)) (name : List Char) (method : String) (target fx fy : K)
    (maintain : Bool) (w h : ℕ) (ops : List ImgOp) (hi : rescaleImage stem rows name method target fx fy maintain w h = .ok (some ops)) :
    ∃ image a, (image, a) ∈ rows ∧ stem image <:+: name ∧ rescaleOps method target a fx fy maintain w h = .ok ops := by
  unfold rescaleImage at hi
  cases hl : rescaleAltitudes stem rows name with
  | nil => rw [hl] at hi; cases hi
  | cons a l =>
    rw [hl] at hi
    cases l with
    | nil =>
      obtain ⟨image, h1, h2⟩ := (altitudes_mem stem rows name a).mp (by rw [hl]; simp)
      refine ⟨image, a, h1, h2, ?_⟩
      cases hr : rescaleOps method target a fx fy maintain w h with
      | error e => simp only [hr, Except.map] at hi; cases hi
      | ok o =>
        simp only [hr, Except.map, Except.ok.injEq, Option.some.injEq] at hi
        rw [hi]
    | cons b l' =>
      simp only at hi
      split_ifs at hi

private theorem image_none (stem : List Char → List Char) (rows : List (List Char × K)) (name : List Char) (method : String) (target fx fy : K)
    (maintain : Bool) (w h : ℕ) (hi : rescaleImage stem rows name method target fx fy maintain w h = .ok none) :
    ∀ image a, (image, a) ∈ rows → ¬ stem image <:+: name := by
  intro image a h1 h2
  have := (altitudes_mem stem rows name a).mpr ⟨image, h1, h2⟩
  unfold rescaleImage at hi
  cases hl : rescaleAltitudes stem rows name with
  | nil => rw [hl] at this; cases this
  | cons b l =>
    rw [hl] at hi
    cases l with
    | nil =>
      cases hr : rescaleOps method target b fx fy maintain w h with
      | error e => simp only [hr, Except.map] at hi; cases hi
      | ok o => simp only [hr, Except.map] at hi; cases hi
    | cons c l' =>
      simp only at hi
      split_ifs at hi

private theorem loop_mem (stem : List Char → List Char) (rows : List (List Char × K)) (c : RescaleCam K) (fx fy : K) :
    ∀ (files : List (List Char × ℕ × ℕ)) (e : String × List Char × List ImgOp), e ∈ (rescaleLoop stem rows c fx fy files).1 →
      e.1 = c.output ∧ ∃ w h image a, (e.2.1, w, h) ∈ files ∧ (image, a) ∈ rows ∧ stem image <:+: e.2.1 ∧
        rescaleOps c.method c.target a fx fy c.maintain w h = .ok e.2.2
  | [], e, he => by cases he
  | (n, w, h) :: rest, e, he => by
    rw [rescaleLoop] at he
    cases hi : rescaleImage stem rows n c.method c.target fx fy c.maintain w h with
    | error q => rw [hi] at he; cases he
    | ok o =>
      rw [hi] at he
      have up : e ∈ (rescaleLoop stem rows c fx fy rest).1 → e.1 = c.output ∧ ∃ w' h' image a, (e.2.1, w', h') ∈ (n, w, h) :: rest ∧
          (image, a) ∈ rows ∧ stem image <:+: e.2.1 ∧ rescaleOps c.method c.target a fx fy c.maintain w' h' = .ok e.2.2 := by
        intro q
        obtain ⟨h0, w', h', im, a, h1, h2⟩ := loop_mem stem rows c fx fy rest e q
        exact ⟨h0, w', h', im, a, List.mem_cons_of_mem _ h1, h2⟩
      cases o with
      | none => exact up he
      | some ops =>
        rcases List.mem_cons.mp he with rfl | he
        · obtain ⟨im, a, h1, h2, h3⟩ := image_ok _ _ _ _ _ _ _ _ _ _ _ hi
          exact ⟨rfl, w, h, im, a, by simp, h1, h2, h3⟩
        · exact up he

private theorem loop_all (stem : List Char → List Char) (rows : List (List Char × K)) (c : RescaleCam K) (fx fy : K) :
    ∀ (files : List (List Char × ℕ × ℕ)), (rescaleLoop stem rows c fx fy files).2 = .ok () →
      ∀ n w h image a, (n, w, h) ∈ files → (image, a) ∈ rows → stem image <:+: n →
        ∃ ops, (c.output, n, ops) ∈ (rescaleLoop stem rows c fx fy files).1
  | [], _, n, w, h, image, a, hf, _, _ => by cases hf
  | (n', w', h') :: rest, hok, n, w, h, image, a, hf, hr, hs => by
    rw [rescaleLoop] at hok ⊢
    cases hi : rescaleImage stem rows n' c.method c.target fx fy c.maintain w' h' with
    | error q => rw [hi] at hok; cases hok
    | ok o =>
      rw [hi] at hok
      cases o with
      | none =>
        rcases List.mem_cons.mp hf with e | hf
        · simp only [Prod.mk.injEq] at e
          obtain ⟨rfl, -, -⟩ := e
          exact absurd hs (image_none _ _ _ _ _ _ _ _ _ _ hi image a hr)
        · exact loop_all stem rows c fx fy rest hok n w h image a hf hr hs
      | some ops =>
        rcases List.mem_cons.mp hf with e | hf
        · simp only [Prod.mk.injEq] at e
          obtain ⟨rfl, -, -⟩ := e
          exact ⟨ops, by simp⟩
        · obtain ⟨ops', h1⟩ := loop_all stem rows c fx fy rest hok n w h image a hf hr hs
          exact ⟨ops', List.mem_cons_of_mem _ h1⟩

private theorem camera_mem (d : RescaleDisk K) (c : RescaleCam K) (e : String × List Char × List ImgOp) (he : e ∈ (rescaleCamera d c).1) :
    RescaledImage d c e ∧ ImageEnding e.2.1 := by
  unfold rescaleCamera at he
  split_ifs at he with hn
  · cases hc : d.calibration c.name with
    | none => rw [hc] at he; cases he
    | some f =>
      obtain ⟨fx, fy⟩ := f
      cases ht : d.table c.distance c.name with
      | none => rw [hc, ht] at he; cases he
      | some rows =>
        cases hl : d.listing c.path with
        | none => rw [hc, ht, hl] at he; cases he
        | some files =>
          rw [hc, ht, hl] at he
          obtain ⟨h0, w, h, im, a, h1, h2, h3, h4⟩ := loop_mem _ _ _ _ _ _ _ he
          obtain ⟨h5, h6⟩ := List.mem_filter.mp h1
          exact ⟨⟨h0, hn, fx, fy, rows, files, w, h, im, a, hc, ht, hl, h5, h2, h3, h4⟩, (ending_iff _).mp h6⟩
  · cases he

/-- C215: every file that is written, also if the command fails later, is an image of a camera in the settings, rescaled with
the camera's calibration and an altitude of the camera's table. -/
theorem C215_written (d : RescaleDisk K) : ∀ (cs : List (RescaleCam K)) (e : String × List Char × List ImgOp),
    e ∈ (rescaleCommand d (some cs)).1 → ∃ c ∈ cs, RescaledImage d c e ∧ ImageEnding e.2.1
  | [], e, he => by cases he
  | c :: cs, e, he => by
    rw [rescaleCommand, rescaleCameras] at he
    cases hr : (rescaleCamera d c).2 with
    | error q =>
      rw [hr] at he
      exact ⟨c, by simp, camera_mem d c e he⟩
    | ok b =>
      rw [hr] at he
      rcases List.mem_append.mp he with he | he
      · exact ⟨c, by simp, camera_mem d c e he⟩
      · obtain ⟨c', h1, h2⟩ := C215_written d cs e he
        exact ⟨c', List.mem_cons_of_mem _ h1, h2⟩

/-- C215: if the command ends well, every .jpg, .png or .tif image with an altitude of every camera of camera.yaml is rescaled. -/
theorem C215_all_partial (d : RescaleDisk K) : ∀ (cs : List (RescaleCam K)), (rescaleCommand d (some cs)).2 = .ok () →
    ∀ c ∈ cs, c.name ∈ d.cameras → ∀ n, ImageEnding n → HasAltitude d c n → ∃ ops, (c.output, n, ops) ∈ (rescaleCommand d (some cs)).1
  | [], _, c, hc => by cases hc
  | c' :: cs, hok, c, hc => by
    intro hn n he ha
    rw [rescaleCommand, rescaleCameras] at hok ⊢
    cases hr : (rescaleCamera d c').2 with
    | error q => rw [hr] at hok; cases hok
    | ok b =>
      rw [hr] at hok
      rcases List.mem_cons.mp hc with rfl | hc
      · obtain ⟨rows, files, w, h, image, a, h1, h2, h3, h4, h5⟩ := ha
        unfold rescaleCamera at hr ⊢
        rw [if_pos hn] at hr ⊢
        cases hcal : d.calibration c.name with
        | none => rw [hcal] at hr; cases hr
        | some f =>
          obtain ⟨fx, fy⟩ := f
          rw [hcal, h1, h2] at hr
          simp only [h1, h2] at hr ⊢
          have hl : (rescaleLoop d.stem rows c fx fy (files.filter fun f => isRescaled f.1)).2 = .ok () := by
            cases hq : (rescaleLoop d.stem rows c fx fy (files.filter fun f => isRescaled f.1)).2 with
            | error e => rw [hq] at hr; cases hr
            | ok u => rfl
          obtain ⟨ops, hm⟩ := loop_all d.stem rows c fx fy _ hl n w h image a
            (List.mem_filter.mpr ⟨h3, (ending_iff n).mpr he⟩) h4 h5
          exact ⟨ops, List.mem_append_left _ hm⟩
      · obtain ⟨ops, hm⟩ := C215_all_partial d cs hok c hc hn n he ha
        exact ⟨ops, List.mem_append_right _ hm⟩

/-- C215: a camera that cannot be rescaled ends the command; the images of the cameras before it are written. -/
theorem C215_stops (d : RescaleDisk K) (before after : List (RescaleCam K)) (c : RescaleCam K) (e : Err)
    (hb : (rescaleCommand d (some before)).2 = .ok ()) (hc : (rescaleCamera d c).2 = .error e) :
    rescaleCommand d (some (before ++ c :: after)) = ((rescaleCommand d (some before)).1 ++ (rescaleCamera d c).1, .error e) := by
  induction before with
  | nil =>
    rw [List.nil_append, rescaleCommand, rescaleCameras, hc]
    rfl
  | cons b bs ih =>
    rw [rescaleCommand, rescaleCameras] at hb
    rw [List.cons_append, rescaleCommand, rescaleCameras]
    cases hr : (rescaleCamera d b).2 with
    | error q => rw [hr] at hb; cases hb
    | ok v =>
      rw [hr] at hb
      have := ih hb
      rw [rescaleCommand] at this
      simp only [this, rescaleCommand, rescaleCameras, hr, List.append_assoc]

end

private def oneDisk (name : String) (file : String) : RescaleDisk ℚ where
  cameras := [name]
  calibration := fun _ => some (1, 1)
  table := fun _ _ => some [("1".toList, 1)]
  listing := fun _ => some [(file.toList, 4, 4)]
  stem := id

private def oneCam : RescaleCam ℚ := ⟨"a", "in", "nav", "bicubic", 1, false, "out"⟩

private theorem oneDisk_ok : rescaleCommand (oneDisk "a" "1.png") (some [oneCam]) = ([("out", "1.png".toList, [.resize 4 4])], .ok ()) := by
  have e : rescaleImage id [("1".toList, (1 : ℚ))] "1.png".toList "bicubic" 1 1 1 false 4 4 = .ok (some [.resize 4 4]) := by
    have : rescaleAltitudes id [("1".toList, (1 : ℚ))] "1.png".toList = [1] := by decide +kernel
    unfold rescaleImage
    rw [this]
    have t : truncInt ((4 : ℚ) * (1 / 1 / 1)) = 4 := by decide +kernel
    simp only [rescaleOps, rescaleMethod, resizeTo, bind, Except.bind, Except.map, Nat.cast_ofNat, t]
    rfl
  have f : ([("1.png".toList, 4, 4)] : List (List Char × ℕ × ℕ)).filter (fun f => isRescaled f.1) = [("1.png".toList, 4, 4)] := by decide +kernel
  simp only [rescaleCommand, rescaleCameras, rescaleCamera, oneDisk, oneCam, List.mem_singleton, if_true, f, rescaleLoop, e, Except.map,
    List.append_nil]

/-- The hypotheses of C215_all_partial and C215_stops are met. -/
example : (rescaleCommand (oneDisk "a" "1.png") (some [oneCam])).2 = .ok () := by rw [oneDisk_ok]

/-- C215 is false of a camera that is not in camera.yaml. -/
theorem C215_unknown_false : ¬ AllCamerasRescaled := by
  intro h
  obtain ⟨ops, hm⟩ := h (oneDisk "b" "1.png") [oneCam] rfl oneCam (by simp) "1.png".toList ⟨['1'], Or.inr (Or.inl (by decide +kernel))⟩
    ⟨_, _, 4, 4, "1".toList, 1, rfl, rfl, by simp, by simp, by decide +kernel⟩
  cases hm

/-- C215 is false of images with other endings. -/
theorem C215_ending_false : ¬ AllEndingsRescaled := by
  intro h
  have f : ([("1.JPG".toList, 4, 4)] : List (List Char × ℕ × ℕ)).filter (fun f => isRescaled f.1) = [] := by decide +kernel
  have e : rescaleCommand (oneDisk "a" "1.JPG") (some [oneCam]) = ([], .ok ()) := by
    simp only [rescaleCommand, rescaleCameras, rescaleCamera, oneDisk, oneCam, List.mem_singleton, if_true, f, rescaleLoop, Except.map,
      List.append_nil]
  obtain ⟨ops, hm⟩ := h (oneDisk "a" "1.JPG") [oneCam] (by rw [e]) oneCam (by simp) (by simp [oneDisk, oneCam]) "1.JPG".toList
    (Or.inr ⟨['1'], Or.inl (by decide +kernel)⟩) ⟨_, _, 4, 4, "1".toList, 1, rfl, rfl, by simp, by simp, by decide +kernel⟩
  rw [e] at hm
  cases hm

end Oplab.Props
