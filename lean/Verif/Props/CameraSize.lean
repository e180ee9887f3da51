import Verif.Model.CameraSize
import Verif.Props.CameraSystem

/-! # C238: the size of the images of a camera and its topic, over the dives of a run -/

namespace Oplab.Props
open Oplab

/-- The size that is meant by a shape: a missing third axis counts as one channel. -/
def SizeOf (s : Shape) (h w n : ℕ) : Prop := h = s.height ∧ w = s.width ∧ (s.channels = some n ∨ s.channels = none ∧ n = 1)

/-- The images of a folder: those in it, or, if there are none, those beside it. -/
def ImagesOf {I : Type} (d : DiveFolder I) (l : List I) : Prop := d.inFolder ≠ [] ∧ l = d.inFolder ∨ d.inFolder = [] ∧ l = d.beside

/-- The image that comes first in the order of the paths. -/
def FirstOf {I : Type} [LinearOrder I] (l : List I) (i : I) : Prop := i ∈ l ∧ ∀ j ∈ l, i ≤ j

/-- The topic of a camera in a mission is that of the first entry with its name that has one. -/
def TopicIn (name : String) (mission : List (String × Option String)) (t : String) : Prop :=
  ∃ a b, mission = a ++ (name, some t) :: b ∧ ∀ e ∈ a, e.1 = name → e.2 = none

/-- No entry of the camera has a topic. -/
def NoTopicIn (name : String) (mission : List (String × Option String)) : Prop := ∀ e ∈ mission, e.1 = name → e.2 = none

private theorem missionTopic_spec (name : String) : ∀ l : List (String × Option String),
    (∃ t, missionTopic name l = some t ∧ TopicIn name l t) ∨ (missionTopic name l = none ∧ NoTopicIn name l)
  | [] => .inr ⟨rfl, by simp [NoTopicIn]⟩
  | (n, o) :: l => by
    cases o with
    | none =>
      rcases missionTopic_spec name l with ⟨t, h, a, b, e, ha⟩ | ⟨h, hn⟩
      · refine .inl ⟨t, by simpa [missionTopic] using h, (n, none) :: a, b, by rw [e]; rfl, ?_⟩
        intro x hx hxn
        rcases List.mem_cons.1 hx with rfl | hx
        · rfl
        · exact ha x hx hxn
      · refine .inr ⟨by simpa [missionTopic] using h, ?_⟩
        intro x hx hxn
        rcases List.mem_cons.1 hx with rfl | hx
        · rfl
        · exact hn x hx hxn
    | some t =>
      by_cases hne : n = name
      · subst hne
        exact .inl ⟨t, by simp [missionTopic], [], l, rfl, by simp⟩
      · rcases missionTopic_spec name l with ⟨t', h, a, b, e, ha⟩ | ⟨h, hn⟩
        · refine .inl ⟨t', by simpa [missionTopic, hne] using h, (n, some t) :: a, b, by rw [e]; rfl, ?_⟩
          intro x hx hxn
          rcases List.mem_cons.1 hx with rfl | hx
          · exact absurd hxn hne
          · exact ha x hx hxn
        · refine .inr ⟨by simpa [missionTopic, hne] using h, ?_⟩
          intro x hx hxn
          rcases List.mem_cons.1 hx with rfl | hx
          · exact absurd hxn hne
          · exact hn x hx hxn

private theorem imageList_new {I : Type} [LinearOrder I] (d : DiveFolder I) (l : List I) (hl : ImagesOf d l) :
    imageList (T := Unit) 1 d ⟨[], []⟩ = .ok ⟨l.insertionSort (· ≤ ·), []⟩ := by
  simp only [imageList, findImages, bind, Except.bind]
  rw [if_neg (by decide), if_pos trivial]
  rcases hl with ⟨hne, rfl⟩ | ⟨he, rfl⟩
  · rw [if_neg (by simpa [List.length_eq_zero_iff] using hne)]
  · rw [if_pos (by rw [he]; rfl)]

private theorem imageList_kept {I : Type} [LinearOrder I] (parts : ℕ) (d : DiveFolder I) (l : List I) (hl : l ≠ []) :
    imageList (T := Unit) parts d ⟨l, []⟩ = .ok ⟨l, []⟩ := by
  cases l with
  | nil => exact absurd rfl hl
  | cons a l => rfl

private theorem sorted_first {I : Type} [LinearOrder I] (l : List I) (hl : l ≠ []) :
    ∃ i r, l.insertionSort (· ≤ ·) = i :: r ∧ FirstOf l i := by
  have hp := List.perm_insertionSort (r := fun a b : I => a ≤ b) l
  have hs := List.pairwise_insertionSort (fun a b : I => a ≤ b) l
  cases h : l.insertionSort (· ≤ ·) with
  | nil =>
    rw [h] at hp
    exact absurd hp.symm.eq_nil hl
  | cons i r =>
    rw [h] at hp hs
    refine ⟨i, r, rfl, hp.subset List.mem_cons_self, fun j hj => ?_⟩
    rcases List.mem_cons.1 (hp.symm.subset hj) with rfl | hj
    · exact le_refl _
    · exact List.rel_of_pairwise_cons hs hj

private theorem size_get (s : Shape) : pyGet s.size 0 = .ok s.height ∧ pyGet s.size 1 = .ok s.width ∧
    pyGet s.size 2 = .ok (s.channels.getD 1) := ⟨rfl, rfl, rfl⟩

private theorem sizeOf_self (s : Shape) : SizeOf s s.height s.width (s.channels.getD 1) := by
  refine ⟨rfl, rfl, ?_⟩
  cases h : s.channels <;> simp

/-- One dive with a camera that has its images. -/
private theorem setPath_image {I : Type} [LinearOrder I] (name extension : String) (parts : ℕ) (c : SizedCamera I) (d : DiveSetup I)
    (l : List I) (i : I) (r : List I) (hl : imageList (T := Unit) parts d.folder ⟨c.images, []⟩ = .ok ⟨l, []⟩) (hir : l = i :: r)
    (he : extension ∈ imageEndings) (s : Shape) (hs : d.files.image i = some s) :
    setPath name extension parts c d = .ok (⟨l, (missionTopic name d.mission).getD c.topic, s.size⟩, s.height, s.width,
      s.channels.getD 1) := by
  obtain ⟨h0, h1, h2⟩ := size_get s
  subst hir
  simp only [setPath, imageProperties, hl, bind, Except.bind, if_pos he, hs, h0, h1, h2]

/-- C238: for images that are read one by one, a camera that was not used before has the size of its first image. -/
theorem C238_image {I : Type} [LinearOrder I] (name extension topic : String) (d : DiveSetup I) (l : List I) (hl : ImagesOf d.folder l)
    (hne : l ≠ []) (he : extension ∈ ["tif", "jpg", "JPG", "png", "PNG"]) (hr : ∀ i ∈ l, (d.files.image i).isSome) :
    ∃ c h w n i s, setPath name extension 1 ⟨[], topic, []⟩ d = .ok (c, h, w, n) ∧ FirstOf l i ∧ d.files.image i = some s ∧
      SizeOf s h w n := by
  obtain ⟨i, r, hs, hf⟩ := sorted_first l hne
  obtain ⟨s, hi⟩ := Option.isSome_iff_exists.1 (hr i hf.1)
  refine ⟨_, _, _, _, i, s, setPath_image name extension 1 ⟨[], topic, []⟩ d _ i r (imageList_new _ l hl) hs he s hi, hf, hi, sizeOf_self s⟩

example : (setPath "a" "png" 1 ⟨[], "a", []⟩ ⟨[], ⟨[2, 1], [], []⟩, ⟨fun i => some ⟨i, 10 * i, none⟩, fun _ => []⟩⟩).toOption.map
    (fun r => r.2) = some (1, 10, 1) := by decide +kernel

/-- C238: a camera without images, or with images of another ending, is not accepted. -/
theorem C238_rejected {I : Type} [LinearOrder I] (name extension topic : String) (d : DiveSetup I) (l : List I) (hl : ImagesOf d.folder l) :
    (l = [] → setPath name extension 1 ⟨[], topic, []⟩ d = .error .indexError) ∧
    (l ≠ [] → extension ∉ ["tif", "jpg", "JPG", "png", "PNG", "raw", "bag"] →
      setPath name extension 1 ⟨[], topic, []⟩ d = .error .quit) := by
  constructor
  · rintro rfl
    simp only [setPath, imageProperties, imageList_new _ _ hl, bind, Except.bind, List.insertionSort_nil]
  · intro hne he
    obtain ⟨i, r, hs, -⟩ := sorted_first l hne
    have h1 : extension ∉ imageEndings := fun h => he (by
      simp only [imageEndings, List.mem_cons, List.not_mem_nil, or_false] at h ⊢
      tauto)
    have h2 : extension ≠ "raw" := fun h => he (by simp [h])
    have h3 : extension ≠ "bag" := fun h => he (by simp [h])
    simp only [setPath, imageProperties, imageList_new _ _ hl, bind, Except.bind, hs, if_neg h1, if_neg h2, if_neg h3]

private theorem bagShape_spec (t : String) : ∀ b : List BagShape,
    (bagShape t b = none ↔ ∀ x m y, b = x ++ m :: y → m.topic = t → (∀ e ∈ x, e.topic ≠ t) → m.image = none) ∧
    ∀ s, bagShape t b = some s ↔ ∃ x m y, b = x ++ m :: y ∧ m.topic = t ∧ m.image = some s ∧ ∀ e ∈ x, e.topic ≠ t := by
  intro b
  induction b with
  | nil => simp [bagShape]
  | cons a b ih =>
    by_cases h : a.topic = t
    · simp only [bagShape, if_pos h]
      constructor
      · constructor
        · intro ha x m y he hm hx
          cases x with
          | nil => simp only [List.nil_append, List.cons.injEq] at he; rw [← he.1]; exact ha
          | cons a' x =>
            simp only [List.cons_append, List.cons.injEq] at he
            exact absurd (he.1 ▸ h) (hx a' List.mem_cons_self)
        · intro hh
          exact hh [] a b rfl h (by simp)
      · intro s
        constructor
        · intro ha
          exact ⟨[], a, b, rfl, h, ha, by simp⟩
        · rintro ⟨x, m, y, he, hm, hi, hx⟩
          cases x with
          | nil => simp only [List.nil_append, List.cons.injEq] at he; rw [he.1]; exact hi
          | cons a' x =>
            simp only [List.cons_append, List.cons.injEq] at he
            exact absurd (he.1 ▸ h) (hx a' List.mem_cons_self)
    · simp only [bagShape, if_neg h]
      constructor
      · rw [ih.1]
        constructor
        · intro hh x m y he hm hx
          cases x with
          | nil => simp only [List.nil_append, List.cons.injEq] at he; exact absurd (he.1 ▸ hm) h
          | cons a' x =>
            simp only [List.cons_append, List.cons.injEq] at he
            exact hh x m y he.2 hm fun e hx' => hx e (List.mem_cons_of_mem _ hx')
        · intro hh x m y he hm hx
          refine hh (a :: x) m y (by rw [he]; rfl) hm fun e hx' => ?_
          rcases List.mem_cons.1 hx' with rfl | hx'
          · exact h
          · exact hx e hx'
      · intro s
        rw [ih.2 s]
        constructor
        · rintro ⟨x, m, y, he, hm, hi, hx⟩
          refine ⟨a :: x, m, y, by rw [he]; rfl, hm, hi, fun e hx' => ?_⟩
          rcases List.mem_cons.1 hx' with rfl | hx'
          · exact h
          · exact hx e hx'
        · rintro ⟨x, m, y, he, hm, hi, hx⟩
          cases x with
          | nil => simp only [List.nil_append, List.cons.injEq] at he; exact absurd (he.1 ▸ hm) h
          | cons a' x =>
            simp only [List.cons_append, List.cons.injEq] at he
            exact ⟨x, m, y, he.2, hm, hi, fun e hx' => hx e (List.mem_cons_of_mem _ hx')⟩

/-- The first message of the topic in a bag holds an image of this shape. -/
def FirstMessage (t : String) (b : List BagShape) (s : Shape) : Prop :=
  ∃ x m y, b = x ++ m :: y ∧ m.topic = t ∧ m.image = some s ∧ ∀ e ∈ x, e.topic ≠ t

private theorem bagsShape_spec {I : Type} (t : String) (bag : I → List BagShape) : ∀ l : List I,
    (bagsShape t bag l = none ↔ ∀ i ∈ l, ∀ s, ¬ FirstMessage t (bag i) s) ∧
    ∀ s, bagsShape t bag l = some s → ∃ x i y, l = x ++ i :: y ∧ FirstMessage t (bag i) s ∧ ∀ j ∈ x, ∀ s', ¬ FirstMessage t (bag j) s' := by
  intro l
  induction l with
  | nil => simp [bagsShape]
  | cons a l ih =>
    cases h : bagShape t (bag a) with
    | some s =>
      have hf : FirstMessage t (bag a) s := ((bagShape_spec t (bag a)).2 s).1 h
      simp only [bagsShape, h]
      refine ⟨?_, fun s' hs' => ?_⟩
      · simp only [reduceCtorEq, false_iff]
        exact fun hh => hh a List.mem_cons_self s hf
      cases hs'
      exact ⟨[], a, l, rfl, hf, by simp⟩
    | none =>
      have hf : ∀ s, ¬ FirstMessage t (bag a) s := by
        intro s hs
        have := ((bagShape_spec t (bag a)).2 s).2 hs
        rw [h] at this
        cases this
      simp only [bagsShape, h]
      refine ⟨?_, fun s hs => ?_⟩
      · rw [ih.1]
        constructor
        · intro hh i hi
          rcases List.mem_cons.1 hi with rfl | hi
          · exact hf
          · exact hh i hi
        · intro hh i hi
          exact hh i (List.mem_cons_of_mem _ hi)
      · obtain ⟨x, i, y, he, h1, h2⟩ := ih.2 s hs
        refine ⟨a :: x, i, y, by rw [he]; rfl, h1, fun j hj => ?_⟩
        rcases List.mem_cons.1 hj with rfl | hj
        · exact hf
        · exact h2 j hj

/-- C238: for bags, the size is that of the first message of the topic of the first bag, in order of the paths, in which
this message is an image; without such a bag the camera is not accepted. The topic is that of the mission if it has one. -/
theorem C238_bag {I : Type} [LinearOrder I] (name topic t : String) (d : DiveSetup I) (l : List I) (hl : ImagesOf d.folder l) (hne : l ≠ [])
    (ht : TopicIn name d.mission t ∨ NoTopicIn name d.mission ∧ t = topic) :
    (∃ c h w n s i, setPath name "bag" 1 ⟨[], topic, []⟩ d = .ok (c, h, w, n) ∧ c.topic = t ∧ i ∈ l ∧ FirstMessage t (d.files.bag i) s ∧
      SizeOf s h w n ∧ ∀ j ∈ l, j < i → ∀ s', ¬ FirstMessage t (d.files.bag j) s') ∨
    (setPath name "bag" 1 ⟨[], topic, []⟩ d = .error .indexError ∧ ∀ i ∈ l, ∀ s, ¬ FirstMessage t (d.files.bag i) s) := by
  have htt : (missionTopic name d.mission).getD topic = t := by
    rcases missionTopic_spec name d.mission with ⟨t', h, a, b, e, ha⟩ | ⟨h, hn⟩
    · rw [h]
      rcases ht with ⟨a', b', e', ha'⟩ | ⟨hn, -⟩
      · have key : ∀ (a a' b b' : List (String × Option String)), a ++ (name, some t') :: b = a' ++ (name, some t) :: b' →
            (∀ e ∈ a, e.1 = name → e.2 = none) → (∀ e ∈ a', e.1 = name → e.2 = none) → t' = t := by
          intro a
          induction a with
          | nil =>
            intro a' b b' he _ ha'
            cases a' with
            | nil => simp at he; exact he.1
            | cons x a' =>
              simp only [List.nil_append, List.cons_append, List.cons.injEq] at he
              have := ha' x List.mem_cons_self (by rw [← he.1])
              rw [← he.1] at this
              cases this
          | cons x a ih =>
            intro a' b b' he ha ha'
            cases a' with
            | nil =>
              simp only [List.nil_append, List.cons_append, List.cons.injEq] at he
              have := ha x List.mem_cons_self (by rw [he.1])
              rw [he.1] at this
              cases this
            | cons x' a' =>
              simp only [List.cons_append, List.cons.injEq] at he
              exact ih a' b b' he.2 (fun e h => ha e (List.mem_cons_of_mem _ h)) fun e h => ha' e (List.mem_cons_of_mem _ h)
        exact key a a' b b' (e ▸ e') ha ha'
      · have := hn (name, some t') (by rw [e]; simp) rfl
        cases this
    · rw [h]
      rcases ht with ⟨a', b', e', ha'⟩ | ⟨-, rfl⟩
      · have := hn (name, some t) (by rw [e']; simp) rfl
        cases this
      · rfl
  have hp := List.perm_insertionSort (r := fun a b : I => a ≤ b) l
  have hs := List.pairwise_insertionSort (fun a b : I => a ≤ b) l
  obtain ⟨i, r, hir, -⟩ := sorted_first l hne
  have e1 : ¬ "bag" ∈ imageEndings := by decide +kernel
  have e2 : ¬ "bag" = "raw" := by decide
  cases hb : bagsShape t d.files.bag (l.insertionSort (· ≤ ·)) with
  | some s =>
    obtain ⟨x, i', y, he, h1, h2⟩ := (bagsShape_spec t d.files.bag _).2 s hb
    obtain ⟨g0, g1, g2⟩ := size_get s
    refine .inl ⟨⟨l.insertionSort (· ≤ ·), t, s.size⟩, s.height, s.width, s.channels.getD 1, s, i', ?_, rfl, ?_, h1, sizeOf_self s, ?_⟩
    · rw [hir] at hb
      simp only [setPath, imageProperties, imageList_new _ _ hl, bind, Except.bind, hir, if_neg e1, if_neg e2, if_true, htt, hb, g0, g1, g2]
    · exact hp.subset (by rw [he]; simp)
    · intro j hj hji s'
      have hj' := hp.symm.subset hj
      rw [he] at hj' hs
      rcases List.mem_append.1 hj' with hj' | hj'
      · exact h2 j hj' s'
      · rcases List.mem_cons.1 hj' with rfl | hj'
        · exact absurd hji (lt_irrefl _)
        · have := List.rel_of_pairwise_cons (List.pairwise_append.1 hs).2.1 hj'
          exact absurd hji (not_lt.2 this)
  | none =>
    refine .inr ⟨?_, fun i hi => ((bagsShape_spec t d.files.bag _).1.1 hb) i (hp.symm.subset hi)⟩
    rw [hir] at hb
    have : pyGet ([] : List ℕ) 0 = .error .indexError := rfl
    simp only [setPath, imageProperties, imageList_new _ _ hl, bind, Except.bind, hir, if_neg e1, if_neg e2, if_true, htt, hb, this]

example : (setPath "a" "bag" 1 ⟨[], "x", []⟩ ⟨[("a", some "t")], ⟨[2, 1], [], []⟩,
    ⟨fun _ => none, fun i => if i = 1 then [⟨"t", none⟩] else [⟨"u", some ⟨1, 1, none⟩⟩, ⟨"t", some ⟨5, 6, some 3⟩⟩]⟩⟩).toOption.map
    (fun r => r.2) = some (5, 6, 3) := by decide +kernel

/-- The full statement for bags: if a message of the topic holds an image, the size of images is found. -/
def BagSizeFound : Prop := ∀ (d : DiveSetup ℕ) (i : ℕ) (m : BagShape), i ∈ d.folder.inFolder → m ∈ d.files.bag i → m.topic = "t" →
  m.image.isSome → ∃ r, setPath "a" "bag" 1 ⟨[], "t", []⟩ d = .ok r

/-- It is false: only the first message of the topic of each bag is looked at. -/
theorem C238_bag_false : ¬ BagSizeFound := by
  intro h
  obtain ⟨r, hr⟩ := h ⟨[], ⟨[1], [], []⟩, ⟨fun _ => none, fun _ => [⟨"t", none⟩, ⟨"t", some ⟨5, 6, none⟩⟩]⟩⟩ 1 ⟨"t", some ⟨5, 6, none⟩⟩
    (by simp) (by simp) rfl rfl
  have := congrArg Except.toOption hr
  have e : (setPath "a" "bag" 1 ⟨[], "t", []⟩ (⟨[], ⟨[1], [], []⟩, ⟨fun _ => none, fun _ => [⟨"t", none⟩, ⟨"t", some ⟨5, 6, none⟩⟩]⟩⟩ :
    DiveSetup ℕ)).toOption.isNone = true := by decide +kernel
  rw [this] at e
  cases e

/-- The full statement for all endings: if all images have one shape, this is the size. -/
def SizeIsShape : Prop := ∀ (extension : String) (d : DiveSetup ℕ) (s : Shape) (r : SizedCamera ℕ × ℕ × ℕ × ℕ), extension ≠ "bag" →
  (∀ i, d.files.image i = some s) → setPath "a" extension 1 ⟨[], "t", []⟩ d = .ok r → SizeOf s r.2.1 r.2.2.1 r.2.2.2

/-- It is false: files with the ending `raw` always count as images of 1280 by 1024 pixels. -/
theorem C238_raw_false : ¬ SizeIsShape := by
  intro h
  have := h "raw" ⟨[], ⟨[1], [], []⟩, ⟨fun _ => some ⟨5, 6, none⟩, fun _ => []⟩⟩ ⟨5, 6, none⟩ (⟨[1], "t", [1024, 1280, 1]⟩, 1024, 1280, 1)
    (by decide) (fun _ => rfl) rfl
  exact absurd this.1 (by decide)

/-! ## Several dives -/

private theorem setPaths_kept {I : Type} [LinearOrder I] (name extension : String) (parts : ℕ) (he : extension ∈ imageEndings) :
    ∀ (ds : List (DiveSetup I)) (c : SizedCamera I) (i : I) (r : List I), c.images = i :: r → (∀ d ∈ ds, (d.files.image i).isSome) →
    ∃ out, setPaths name extension parts c ds = .ok out ∧ out.length = ds.length ∧
      ∀ (k : ℕ) (d : DiveSetup I) (o : String × ℕ × ℕ × ℕ), ds[k]? = some d → out[k]? = some o → ∃ s, d.files.image i = some s ∧ SizeOf s o.2.1 o.2.2.1 o.2.2.2
  | [], c, i, r, hc, hd => ⟨[], rfl, rfl, by simp⟩
  | d :: ds, c, i, r, hc, hd => by
    obtain ⟨s, hs⟩ := Option.isSome_iff_exists.1 (hd d List.mem_cons_self)
    have h1 := setPath_image name extension parts c d (i :: r) i r (by rw [hc]; exact imageList_kept _ _ _ (by simp)) rfl he s hs
    obtain ⟨out, h2, h3, h4⟩ := setPaths_kept name extension parts he ds ⟨i :: r, (missionTopic name d.mission).getD c.topic, s.size⟩ i r rfl
      fun d hd' => hd d (List.mem_cons_of_mem _ hd')
    refine ⟨((missionTopic name d.mission).getD c.topic, s.height, s.width, s.channels.getD 1) :: out, ?_, by simp [h3], ?_⟩
    · simp only [setPaths, h1, h2, bind, Except.bind]
    · intro k d' o hk ho
      cases k with
      | zero =>
        simp only [List.getElem?_cons_zero, Option.some.injEq] at hk ho
        subst hk ho
        exact ⟨s, hs, sizeOf_self s⟩
      | succ k =>
        simp only [List.getElem?_cons_succ] at hk ho
        exact h4 k d' o hk ho

/-- C238: in a parse of several dives all dives have the size of one image: the first of the first dive, as it is in the file
when the dive comes; what the folder holds by then has no effect. -/
theorem C238_dives {I : Type} [LinearOrder I] (name extension topic : String) (d : DiveSetup I) (ds : List (DiveSetup I)) (l : List I)
    (hl : ImagesOf d.folder l) (hne : l ≠ []) (he : extension ∈ ["tif", "jpg", "JPG", "png", "PNG"])
    (hr : ∀ e ∈ d :: ds, ∀ i ∈ l, (e.files.image i).isSome) :
    ∃ out i, setPaths name extension 1 ⟨[], topic, []⟩ (d :: ds) = .ok out ∧ out.length = ds.length + 1 ∧ FirstOf l i ∧
      ∀ (k : ℕ) (e : DiveSetup I) (o : String × ℕ × ℕ × ℕ), (d :: ds)[k]? = some e → out[k]? = some o → ∃ s, e.files.image i = some s ∧ SizeOf s o.2.1 o.2.2.1 o.2.2.2 := by
  obtain ⟨i, r, hs, hf⟩ := sorted_first l hne
  obtain ⟨s, hi⟩ := Option.isSome_iff_exists.1 (hr d List.mem_cons_self i hf.1)
  have h1 := setPath_image name extension 1 ⟨[], topic, []⟩ d _ i r (imageList_new _ l hl) hs he s hi
  obtain ⟨out, h2, h3, h4⟩ := setPaths_kept name extension 1 he ds ⟨l.insertionSort (· ≤ ·), (missionTopic name d.mission).getD topic, s.size⟩
    i r hs fun e he => hr e (List.mem_cons_of_mem _ he) i hf.1
  refine ⟨((missionTopic name d.mission).getD topic, s.height, s.width, s.channels.getD 1) :: out, i, ?_, by simp [h3], hf, ?_⟩
  · simp only [setPaths, h1, h2, bind, Except.bind]
  · intro k e o hk ho
    cases k with
    | zero =>
      simp only [List.getElem?_cons_zero, Option.some.injEq] at hk ho
      subst hk ho
      exact ⟨s, hi, sizeOf_self s⟩
    | succ k =>
      simp only [List.getElem?_cons_succ] at hk ho
      exact h4 k e o hk ho

example : (setPaths "a" "png" 1 ⟨[], "a", []⟩ [⟨[], ⟨[2, 1], [], []⟩, ⟨fun i => some ⟨i, 10 * i, none⟩, fun _ => []⟩⟩,
    ⟨[("a", some "t")], ⟨[7], [], []⟩, ⟨fun i => some ⟨i, 10 * i, none⟩, fun _ => []⟩⟩]).toOption = some [("a", 1, 10, 1), ("t", 1, 10, 1)] := by
  decide +kernel

private theorem setPath_topic {I : Type} [LinearOrder I] (name extension : String) (parts : ℕ) (c : SizedCamera I) (d : DiveSetup I)
    (r : SizedCamera I × ℕ × ℕ × ℕ) (h : setPath name extension parts c d = .ok r) :
    r.1.topic = (missionTopic name d.mission).getD c.topic := by
  simp only [setPath, bind, Except.bind] at h
  split at h
  · cases h
  · rename_i c' hc
    have hc' : c'.topic = (missionTopic name d.mission).getD c.topic := by
      simp only [imageProperties, bind, Except.bind] at hc
      repeat' split at hc
      all_goals first
        | cases hc; done
        | (cases hc; rfl)
    repeat' split at h
    all_goals first
      | cases h; done
      | (cases h; exact hc')

/-- C238: the topic in use for a dive is that of the last mission, up to this dive, that has one for the camera; the
name of the camera in camera.yaml if there is none. -/
theorem C238_topic {I : Type} [LinearOrder I] (name extension topic : String) (parts : ℕ) : ∀ (ds : List (DiveSetup I))
    (c : SizedCamera I) (out : List (String × ℕ × ℕ × ℕ)), c.topic = topic → setPaths name extension parts c ds = .ok out →
    ∀ (k : ℕ) (o : String × ℕ × ℕ × ℕ), out[k]? = some o →
      (∃ (j : ℕ) (d : DiveSetup I), j ≤ k ∧ ds[j]? = some d ∧ TopicIn name d.mission o.1 ∧ ∀ (j' : ℕ) (d' : DiveSetup I), j < j' → j' ≤ k → ds[j']? = some d' → NoTopicIn name d'.mission) ∨
      (o.1 = topic ∧ ∀ (j : ℕ) (d : DiveSetup I), j ≤ k → ds[j]? = some d → NoTopicIn name d.mission)
  | [], c, out, hc, h, k, o, ho => by
    simp only [setPaths, Except.ok.injEq] at h
    subst h
    simp at ho
  | d :: ds, c, out, hc, h, k, o, ho => by
    simp only [setPaths, bind, Except.bind] at h
    split at h
    · cases h
    rename_i r hr
    split at h
    · cases h
    rename_i rest hrest
    simp only [Except.ok.injEq] at h
    subst h
    have ht := setPath_topic name extension parts c d r hr
    rw [hc] at ht
    cases k with
    | zero =>
      simp only [List.getElem?_cons_zero, Option.some.injEq] at ho
      subst ho
      rcases missionTopic_spec name d.mission with ⟨t, h1, h2⟩ | ⟨h1, h2⟩
      · rw [h1] at ht
        refine .inl ⟨0, d, le_refl _, rfl, by rw [ht]; exact h2, fun j' d' h3 h4 => by omega⟩
      · rw [h1] at ht
        refine .inr ⟨ht, fun j d' hj hd => ?_⟩
        have : j = 0 := by omega
        subst this
        simp only [List.getElem?_cons_zero, Option.some.injEq] at hd
        subst hd
        exact h2
    | succ k =>
      simp only [List.getElem?_cons_succ] at ho
      rcases C238_topic name extension r.1.topic parts ds r.1 rest rfl hrest k o ho with ⟨j, e, h1, h2, h3, h4⟩ | ⟨h1, h2⟩
      · refine .inl ⟨j + 1, e, by omega, h2, h3, fun j' d' g1 g2 g3 => ?_⟩
        cases j' with
        | zero => omega
        | succ j' => exact h4 j' d' (by omega) (by omega) (by simpa using g3)
      · rcases missionTopic_spec name d.mission with ⟨t, g1, g2⟩ | ⟨g1, g2⟩
        · rw [g1] at ht
          refine .inl ⟨0, d, by omega, rfl, by rw [h1, ht]; exact g2, fun j' d' g3 g4 g5 => ?_⟩
          cases j' with
          | zero => omega
          | succ j' => exact h2 j' d' (by omega) (by simpa using g5)
        · rw [g1] at ht
          refine .inr ⟨by rw [h1, ht]; rfl, fun j d' hj hd => ?_⟩
          cases j with
          | zero =>
            simp only [List.getElem?_cons_zero, Option.some.injEq] at hd
            subst hd
            exact g2
          | succ j => exact h2 j d' (by omega) (by simpa using hd)

/-- The full statement: a dive has the topic of its own mission, or that of camera.yaml. -/
def OwnTopic : Prop := ∀ (ds : List (DiveSetup ℕ)) (out : List (String × ℕ × ℕ × ℕ)), setPaths "a" "png" 1 ⟨[], "a", []⟩ ds = .ok out →
  ∀ (k : ℕ) (d : DiveSetup ℕ) (o : String × ℕ × ℕ × ℕ), ds[k]? = some d → out[k]? = some o → NoTopicIn "a" d.mission → o.1 = "a"

/-- It is false: a dive whose mission has no topic for the camera has that of the dive before. -/
theorem C238_topic_false : ¬ OwnTopic := by
  intro h
  have := h [⟨[("a", some "t")], ⟨[1], [], []⟩, ⟨fun _ => some ⟨1, 1, none⟩, fun _ => []⟩⟩,
    ⟨[], ⟨[1], [], []⟩, ⟨fun _ => some ⟨1, 1, none⟩, fun _ => []⟩⟩] [("t", 1, 1, 1), ("t", 1, 1, 1)] rfl 1 _ _ rfl rfl (by simp [NoTopicIn])
  exact absurd this (by decide)

end Oplab.Props
