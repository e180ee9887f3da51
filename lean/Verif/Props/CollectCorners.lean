import Verif.Spec.CollectCorners
import Verif.Props.CameraCal
import Verif.Props.CalFiles

/-! # Views of a monocular calibration: C241 -/

namespace Oplab.Props
open Oplab Oplab.Spec

section
variable {I D S K : Type}

private theorem imageCorners_iff (t : ViewTools I D S K) (target : Option S) (f : String) (d : D) :
    imageCorners t target f = some d ↔ SharpView t target f d := by
  unfold imageCorners SharpView
  cases h : t.imread f with
  | none => simp
  | some im =>
    cases target with
    | none =>
      dsimp only
      constructor
      · intro hi
        cases hc : t.corners im with
        | none => rw [hc] at hi; cases hi
        | some e =>
          rw [hc] at hi
          dsimp only at hi
          split_ifs at hi with hs
          cases hi
          exact ⟨im, rfl, im, fun _ => rfl, fun s e => (by cases e), hc, hs⟩
      · rintro ⟨im', hi, shown, h1, -, hc, hs⟩
        cases hi
        cases h1 rfl
        rw [hc]
        simp [hs]
    | some s =>
      dsimp only
      constructor
      · intro hi
        cases hc : t.corners (t.resize im s) with
        | none => rw [hc] at hi; cases hi
        | some e =>
          rw [hc] at hi
          dsimp only at hi
          split_ifs at hi with hs
          cases hi
          exact ⟨im, rfl, t.resize im s, fun e => (by cases e), fun s' e => (by cases e; rfl), hc, hs⟩
      · rintro ⟨im', hi, shown, -, h1, hc, hs⟩
        cases hi
        cases h1 s rfl
        rw [hc]
        simp [hs]

variable [Field K] [LinearOrder K]

private theorem collect_json (t : ViewTools I D S K) (target : Option S) (size : S) (files : List String) :
    (collectCorners t.params size (files.map fun f => (f, imageCorners t target f))).1 =
      files.filterMap fun f => (imageCorners t target f).map fun d => (⟨f, d, size⟩ : SavedView D S) := by
  simp only [collectCorners, List.filterMap_map]
  rfl

private theorem collect_ok (t : ViewTools I D S K) (target : Option S) (files : List String) (r : Collected D S)
    (h : collectViews t target files = .ok r) :
    ∃ f fs im, files = f :: fs ∧ t.imread f = some im ∧ r.json ≠ [] ∧
      r.json = (files.filterMap fun f => (imageCorners t target f).map fun d => (⟨f, d, target.getD (t.size im)⟩ : SavedView D S)) ∧
      r.used = chooseViews (fun s : SavedView D S => t.params (target.getD (t.size im)) s.view) r.json [] := by
  unfold collectViews at h
  cases files with
  | nil => cases h
  | cons f fs =>
    dsimp only at h
    cases hf : t.imread f with
    | none => rw [hf] at h; cases h
    | some im =>
      rw [hf] at h
      dsimp only at h
      rw [collect_json] at h
      split_ifs at h with he
      cases h
      exact ⟨f, fs, im, rfl, hf, he, rfl, rfl⟩

/-- C241: if the calibration pattern is collected, then the json file lists exactly the images with a sharp view of the pattern, in order, with the view
and the size of the first image (or the size that was asked for), whatever the schedule of the workers. -/
theorem C241_saved_partial (t : ViewTools I D S K) (target : Option S) (files : List String) (r : Collected D S)
    (h : collectViews t target files = .ok r) :
    r.json ≠ [] ∧
    (∃ first im, files.head? = some first ∧ t.imread first = some im ∧ ∀ s ∈ r.json, s.size = target.getD (t.size im)) ∧
    (∀ s ∈ r.json, SharpView t target s.file s.view) ∧
    (open Classical in r.json.map SavedView.file = files.filter fun f => decide (∃ d, SharpView t target f d)) := by
  obtain ⟨f, fs, im, rfl, hf, hne, hj, -⟩ := collect_ok t target files r h
  refine ⟨hne, ⟨f, im, rfl, hf, ?_⟩, ?_, ?_⟩
  · intro s hs
    rw [hj, List.mem_filterMap] at hs
    obtain ⟨g, -, hg⟩ := hs
    obtain ⟨d, -, rfl⟩ := Option.map_eq_some_iff.1 hg
    rfl
  · intro s hs
    rw [hj, List.mem_filterMap] at hs
    obtain ⟨g, -, hg⟩ := hs
    obtain ⟨d, hd, rfl⟩ := Option.map_eq_some_iff.1 hg
    exact (imageCorners_iff t target g d).1 hd
  · rw [hj]
    clear hj h hne
    generalize f :: fs = l
    induction l with
    | nil => rfl
    | cons a l ih =>
      cases ha : imageCorners t target a with
      | none =>
        have : ¬ ∃ d, SharpView t target a d := by
          rintro ⟨d, hd⟩
          rw [(imageCorners_iff t target a d).2 hd] at ha
          cases ha
        rw [List.filterMap_cons_none (by rw [ha]; rfl), ih, List.filter_cons_of_neg (by simpa using this)]
      | some d =>
        have : ∃ d, SharpView t target a d := ⟨d, (imageCorners_iff t target a d).1 ha⟩
        rw [List.filterMap_cons_some (by rw [ha]; rfl), List.map_cons, ih, List.filter_cons_of_pos (by simpa using this)]

/-- C241: when it is collected at all: if the first image can be read and the pattern is seen sharp in one. -/
theorem C241_collected (t : ViewTools I D S K) (target : Option S) (files : List String) :
    (∃ r, collectViews t target files = .ok r) ↔
      (∃ first im, files.head? = some first ∧ t.imread first = some im) ∧ ∃ f ∈ files, ∃ d, SharpView t target f d := by
  constructor
  · rintro ⟨r, h⟩
    obtain ⟨h1, ⟨a, im, h2, h3, -⟩, h4, h5⟩ := C241_saved_partial t target files r h
    refine ⟨⟨a, im, h2, h3⟩, ?_⟩
    obtain ⟨s, hs⟩ := List.exists_mem_of_ne_nil _ h1
    have : s.file ∈ r.json.map SavedView.file := List.mem_map_of_mem hs
    rw [h5] at this
    exact ⟨s.file, (List.mem_filter.1 this).1, s.view, h4 s hs⟩
  · rintro ⟨⟨a, im, h2, h3⟩, f, hf, d, hd⟩
    cases files with
    | nil => cases h2
    | cons b fs =>
      cases h2
      unfold collectViews
      dsimp only
      rw [h3]
      dsimp only
      rw [collect_json, if_neg]
      · exact ⟨_, rfl⟩
      · intro he
        have : (⟨f, d, target.getD (t.size im)⟩ : SavedView D S) ∈
            (a :: fs).filterMap fun f => (imageCorners t target f).map fun d => (⟨f, d, target.getD (t.size im)⟩ : SavedView D S) :=
          List.mem_filterMap.2 ⟨f, hf, by rw [(imageCorners_iff t target f d).2 hd]; rfl⟩
        rw [he] at this
        cases this

/-- C241: the views that are used are saved ones in the same order, the first of them among them; their parameters differ by more than 0.12 in sum,
and every other is that close to one that is used. -/
theorem C241_used (t : ViewTools I D S K) (target : Option S) (files : List String) (r : Collected D S)
    (h : collectViews t target files = .ok r) :
    r.used.Sublist r.json ∧ r.used.head? = r.json.head? ∧
    r.used.Pairwise (fun a b => 12 / 100 < viewDistance (t.params b.size b.view) (t.params a.size a.view)) ∧
    ∀ x ∈ r.json, x ∈ r.used ∨ ∃ v ∈ r.used, viewDistance (t.params x.size x.view) (t.params v.size v.view) ≤ 12 / 100 := by
  obtain ⟨f, fs, im, rfl, hf, hne, hj, hu⟩ := collect_ok t target files r h
  have hz : ∀ s ∈ r.json, s.size = target.getD (t.size im) := by
    intro s hs
    rw [hj, List.mem_filterMap] at hs
    obtain ⟨g, -, hg⟩ := hs
    obtain ⟨d, -, rfl⟩ := Option.map_eq_some_iff.1 hg
    rfl
  obtain ⟨v, vs, hv⟩ := List.exists_cons_of_ne_nil hne
  have e : ∀ p q : List K, (p.zip q).foldr (fun x s => |x.1 - x.2| + s) 0 = viewDistance p q := by
    intro p q
    rw [viewDistance, List.sum_eq_foldr, List.foldr_map]
  obtain ⟨h1, h2, h3, h4⟩ := C104_different (fun s : SavedView D S => t.params (target.getD (t.size im)) s.view) v vs
  rw [← hv, ← hu] at h1
  rw [← hv, ← hu] at h2 h3 h4
  simp only [e] at h3 h4
  refine ⟨h1, by rw [h2, hv]; rfl, ?_, ?_⟩
  · refine h3.imp_of_mem fun {a b} ha hb hab => ?_
    rw [hz a (h1.subset ha), hz b (h1.subset hb)]
    exact hab
  · intro x hx
    have hx' := hx
    rw [hv, List.mem_cons] at hx'
    rcases hx' with rfl | hx'
    · exact Or.inl (List.mem_of_mem_head? h2)
    · rcases h4 x hx' with g | ⟨w, hw, g⟩
      · exact Or.inl g
      · refine Or.inr ⟨w, hw, ?_⟩
        rw [hz x hx, hz w (h1.subset hw)]
        exact g

end

/-! ### Files that cannot be read -/

section
variable {I D S K : Type} [Field K] [LinearOrder K]

/-- C241: a file that cannot be read makes no difference, if it is not the first. -/
theorem C241_skip_partial (t : ViewTools I D S K) (target : Option S) (first : String) (before after : List String) (bad : String)
    (h : t.imread bad = none) :
    collectViews t target (first :: before ++ bad :: after) = collectViews t target (first :: before ++ after) := by
  have hb : imageCorners t target bad = none := by unfold imageCorners; rw [h]
  unfold collectViews
  simp only [List.cons_append]
  cases t.imread first with
  | none => rfl
  | some im =>
    dsimp only
    have e : (collectCorners t.params (target.getD (t.size im)) ((first :: (before ++ bad :: after)).map fun f => (f, imageCorners t target f))).1 =
        (collectCorners t.params (target.getD (t.size im)) ((first :: (before ++ after)).map fun f => (f, imageCorners t target f))).1 := by
      rw [collect_json, collect_json, ← List.cons_append, ← List.cons_append, List.filterMap_append, List.filterMap_append]
      congr 1
      exact List.filterMap_cons_none (by rw [hb]; rfl)
    rw [e]

/-- C241 in full: files that cannot be read are skipped, so that one image with a sharp view is enough. -/
def UnreadableSkipped : Prop :=
  ∀ (t : ViewTools ℕ ℕ ℕ ℚ) (files : List String),
    (∃ f ∈ files, ∃ d, SharpView t none f d) → ∃ r, collectViews t none files = .ok r

end

/-- Images are their numbers; the pattern is seen in even ones, sharp if not 4; the file "bad" is not an image. -/
private def toyViews : ViewTools ℕ ℕ ℕ ℚ where
  imread f := if f = "bad" then none else some f.length
  size _ := 5
  resize i _ := i
  corners i := if i % 2 = 0 then some i else none
  sharp i _ := i != 4
  params _ d := [(d : ℚ) / 25]

/-- The views in the json file and those that are used, if there are any. -/
private def outcome (files : List String) : Option (List ℕ × List ℕ) :=
  match collectViews toyViews none files with
  | .ok r => some (r.json.map SavedView.view, r.used.map SavedView.view)
  | .error _ => none

example : outcome ["a", "bad", "bb", "cccc", "dddd", "eeeeee", "ffffffff"] = some ([2, 6, 8], [2, 6]) := by decide +kernel

/-- C241: if the first file cannot be read, nothing is calibrated, even if the pattern is seen in all the others. -/
theorem C241_skip_false : ¬ UnreadableSkipped := by
  intro h
  obtain ⟨r, hr⟩ := h toyViews ["bad", "bb"] ⟨"bb", by simp, 2, 2, by decide +kernel, 2, fun _ => rfl, fun s e => (by cases e),
    by decide +kernel, by decide +kernel⟩
  have := ((C241_collected toyViews none ["bad", "bb"]).1 ⟨r, hr⟩).1
  obtain ⟨f, im, hf, hi⟩ := this
  cases hf
  revert hi
  unfold toyViews
  simp

/-! ### The command -/

section
variable {I D S K : Type} [Field K] [LinearOrder K]
variable (t : ViewTools I D S K) (files : String → List String) (base : CalTools (Option S × List D) (List (SavedView D S)))

private theorem monoFile_inj' {a b x : String} (h : monoFile a x = monoFile b x) : a = b := by
  unfold monoFile at h
  have := congrArg String.toList h
  simp only [String.toList_append, List.append_assoc] at this
  exact String.toList_inj.1 (List.append_cancel_right (List.append_cancel_left this))

private theorem camera_same (o : CalOptions) (n m : String) (hm : m ≠ n) (s : CalState (Option S × List D) (List (SavedView D S))) :
    (monoCamera (toolsOfImages t files base) o m s).1.yaml (monoFile n o.suffix) = s.yaml (monoFile n o.suffix) ∧
    (monoCamera (toolsOfImages t files base) o m s).1.json (monoFile n o.suffix) = s.json (monoFile n o.suffix) := by
  have hf : monoFile n o.suffix ≠ monoFile m o.suffix := fun e => hm (monoFile_inj' e).symm
  unfold monoCamera calibrateMono
  split_ifs
  · exact ⟨rfl, rfl⟩
  · exact ⟨rfl, rfl⟩
  all_goals
    split
    · simp only [putFile, if_neg hf, and_self]
    · split
      · simp only [putFile, if_neg hf, and_self]
      · exact ⟨rfl, rfl⟩

private theorem run_same (o : CalOptions) (n : String) : ∀ (ns : List String), n ∉ ns →
    ∀ s : CalState (Option S × List D) (List (SavedView D S)),
    (calMono (toolsOfImages t files base) o ns s).1.yaml (monoFile n o.suffix) = s.yaml (monoFile n o.suffix) ∧
    (calMono (toolsOfImages t files base) o ns s).1.json (monoFile n o.suffix) = s.json (monoFile n o.suffix)
  | [], _, _ => ⟨rfl, rfl⟩
  | m :: ns, hn, s => by
    rw [List.mem_cons, not_or] at hn
    have h1 := camera_same t files base o n m (fun e => hn.1 e.symm) s
    rw [calMono, andThen]
    split
    · exact h1
    · have h2 := run_same o n ns hn.2 (monoCamera (toolsOfImages t files base) o m s).1
      exact ⟨h2.1.trans h1.1, h2.2.trans h1.2⟩

private theorem reads_same (o : CalOptions) (n : String) (s : CalState (Option S × List D) (List (SavedView D S)))
    (h : (monoCamera (toolsOfImages t files base) o n s).2 = none) (hy : s.yaml (monoFile n o.suffix) = none)
    (hj : s.json (monoFile n o.suffix) = none) :
    8 ≤ (files n).length ∧ ∃ r, collectViews t none (files n) = .ok r ∧
      (monoCamera (toolsOfImages t files base) o n s).1.json (monoFile n o.suffix) = some r.json ∧
      (monoCamera (toolsOfImages t files base) o n s).1.yaml (monoFile n o.suffix) =
        some (r.json.head?.map SavedView.size, r.used.map SavedView.view) := by
  unfold monoCamera at h ⊢
  rw [hy] at h ⊢
  simp only [Option.isSome_none, Bool.false_eq_true, false_and, if_false] at h ⊢
  unfold calibrateMono at h ⊢
  rw [hj] at h ⊢
  simp only [ite_self] at h ⊢
  by_cases hi : (toolsOfImages t files base).images n < 8
  · rw [if_pos hi] at h; cases h
  rw [if_neg hi] at h ⊢
  simp only [toolsOfImages, Option.bind_none] at h hi ⊢
  refine ⟨by omega, ?_⟩
  cases hc : collectViews t none (files n) with
  | error e => rw [hc] at h; cases h
  | ok r =>
    refine ⟨r, rfl, ?_, ?_⟩
    · simp only [putFile, if_true]
    · simp only [putFile, if_true]
      obtain ⟨f, fs, im, -, hf, hne, hjs, hu⟩ := collect_ok t none (files n) r hc
      have hz : ∀ s ∈ r.json, s.size = (none : Option S).getD (t.size im) := by
        intro s hs
        rw [hjs, List.mem_filterMap] at hs
        obtain ⟨g, -, hg⟩ := hs
        obtain ⟨d, -, rfl⟩ := Option.map_eq_some_iff.1 hg
        rfl
      have hr := (C105_reuse t.params ((none : Option S).getD (t.size im)) ((files n).map fun f => (f, imageCorners t none f))).2
      rw [collect_json, ← hjs] at hr
      rw [hr, hu]
      congr 2
      have : ∀ (l db : List (SavedView D S)),
          (chooseViews (fun s : SavedView D S => t.params ((none : Option S).getD (t.size im)) s.view) l db).map SavedView.view =
            chooseViews (t.params ((none : Option S).getD (t.size im))) (l.map SavedView.view) (db.map SavedView.view) := by
        intro l
        induction l with
        | nil => intro db; rfl
        | cons a l ih =>
          intro db
          rw [List.map_cons, chooseViews, chooseViews, ih]
          have e : db.map (fun s : SavedView D S => t.params ((none : Option S).getD (t.size im)) s.view) =
              (db.map SavedView.view).map (t.params ((none : Option S).getD (t.size im))) := by
            rw [List.map_map]; rfl
          rw [e]
          split_ifs
          · rw [List.map_append]; rfl
          · rfl
      rw [this]
      unfold collectCorners
      dsimp only
      congr 2
      rw [hjs, List.filterMap_map]
      rfl

/-- C241: a run of `mono` that ends without an error leaves, for every camera without files before, the detections in its images and a calibration
from the views among them that are used. -/
theorem C241_command_partial (o : CalOptions) (names : List String) (hnd : names.Nodup)
    (s : CalState (Option S × List D) (List (SavedView D S))) (n : String) (hn : n ∈ names)
    (hy : s.yaml (monoFile n o.suffix) = none) (hj : s.json (monoFile n o.suffix) = none)
    (h : (calMono (toolsOfImages t files base) o names s).2 = none) :
    8 ≤ (files n).length ∧ ∃ r, collectViews t none (files n) = .ok r ∧
      (calMono (toolsOfImages t files base) o names s).1.json (monoFile n o.suffix) = some r.json ∧
      (calMono (toolsOfImages t files base) o names s).1.yaml (monoFile n o.suffix) =
        some (r.json.head?.map SavedView.size, r.used.map SavedView.view) := by
  induction names generalizing s with
  | nil => cases hn
  | cons m ns ih =>
    rw [List.nodup_cons] at hnd
    rw [calMono, andThen] at h ⊢
    cases he : (monoCamera (toolsOfImages t files base) o m s).2 with
    | some e => rw [he] at h; cases h
    | none =>
      rw [he] at h
      dsimp only at h ⊢
      by_cases hm : m = n
      · subst hm
        obtain ⟨g1, g2⟩ := run_same t files base o m ns hnd.1 (monoCamera (toolsOfImages t files base) o m s).1
        rw [g1, g2]
        exact reads_same t files base o m s he hy hj
      · obtain ⟨g1, g2⟩ := camera_same t files base o n m hm s
        have hn' : n ∈ ns := (List.mem_cons.1 hn).resolve_left fun e => hm e.symm
        exact ih hnd.2 _ hn' (g1.trans hy) (g2.trans hj) h

end

private def toyBase : CalTools (Option ℕ × List ℕ) (List (SavedView ℕ ℕ)) where
  images _ := 0
  detect _ _ := none
  solve _ _ := (none, [])
  sameSize _ _ := true
  stereo _ _ _ _ := none
  laserImages := 0
  laser _ := none
  twoLasers := false
  laserFolders := false

private def toyFiles (n : String) : List String :=
  if n = "left" then ["a", "b", "c", "d", "e", "f", "g", "h"] else ["bb", "bad", "cccc", "eeeeee", "f", "g", "h", "i"]

private def noFiles : CalState (Option ℕ × List ℕ) (List (SavedView ℕ ℕ)) := ⟨fun _ => none, fun _ => none⟩

example : (calMono (toolsOfImages toyViews toyFiles toyBase) ⟨false, false, ""⟩ ["right"] noFiles).2 = none ∧
    (calMono (toolsOfImages toyViews toyFiles toyBase) ⟨false, false, ""⟩ ["right"] noFiles).1.yaml "mono_right" = some (some 5, [2, 6]) := by
  decide +kernel

/-- C241 in full: a camera with images in which the pattern is seen is calibrated, whatever the images of the other cameras. -/
def EachCameraCalibrated : Prop :=
  ∀ (t : ViewTools ℕ ℕ ℕ ℚ) (files : String → List String) (base : CalTools (Option ℕ × List ℕ) (List (SavedView ℕ ℕ))) (names : List String)
    (n : String), n ∈ names → (∀ m ∈ names, 8 ≤ (files m).length) → (∃ r, collectViews t none (files n) = .ok r) →
    ((calMono (toolsOfImages t files base) ⟨false, false, ""⟩ names noFiles).1.yaml (monoFile n "")).isSome = true

/-- C241: if the pattern is not found in the images of a camera, the program ends with an error of OpenCV instead of the message, and the cameras after it
are not calibrated. -/
theorem C241_message_false : ¬ EachCameraCalibrated := by
  intro h
  have := h toyViews toyFiles toyBase ["left", "right"] "right" (by simp) (by decide +kernel) ((C241_collected _ _ _).2
    ⟨⟨"bb", 2, by decide +kernel, by decide +kernel⟩, "bb", by decide +kernel, 2, 2, by decide +kernel, 2, fun _ => rfl, fun s e => (by cases e),
      by decide +kernel, by decide +kernel⟩)
  revert this
  decide +kernel

end Oplab.Props
