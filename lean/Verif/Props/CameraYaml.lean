import Verif.Spec.CameraYaml

/-! C261: reading camera.yaml. -/

namespace Oplab.Props
open Oplab Oplab.Spec

private theorem bind_ok {α β : Type} {x : Res α} {f : α → Res β} {c : β} (h : (x >>= f) = .ok c) :
    ∃ a, x = .ok a ∧ f a = .ok c := by
  cases x with
  | error e => exact absurd h (by intro h; cases h)
  | ok a => exact ⟨a, rfl, h⟩

private theorem ok_bind {α β : Type} (a : α) (f : α → Res β) : ((Except.ok a : Res α) >>= f) = f a := rfl

private theorem req_ok {n : Node} {k : String} {v : Y} : n.req k = .ok v ↔ Has n k v := by
  unfold Node.req Has
  cases n.lookup k <;> simp

private theorem text_ok {v : Y} {s : String} : v.asText = .ok s ↔ v = .str s := by
  cases v <;> simp [Y.asText]

private theorem type_ok {v : Y} {s : String} : cameraType v = .ok s ↔ v = .str s ∧ s ∈ cameraTypes := by
  cases v <;> simp [cameraType]
  rename_i t
  by_cases h : cameraTypeOk t = true
  · have ht : t ∈ cameraTypes := by simpa [cameraTypeOk, cameraTypes] using h
    simp only [h, if_true, Except.ok.injEq]
    constructor
    · intro e; exact ⟨e, e ▸ ht⟩
    · exact fun e => e.1
  · have ht : t ∉ cameraTypes := by simpa [cameraTypeOk, cameraTypes] using h
    simp only [h]
    constructor
    · intro e; simp at e
    · rintro ⟨rfl, e⟩; exact absurd e ht

private theorem null_iff {v : Y} : v.isNull = true ↔ v = .null := by cases v <;> simp [Y.isNull]

private theorem bag_iff {v : Y} : v.isBag = true ↔ v = .str "bag" := by cases v <;> simp [Y.isBag]

private theorem given_iff {n : Node} {k : String} : (n.getD k .null).isNull = false ↔ Given n k := by
  unfold Given Node.getD
  cases h : n.lookup k with
  | none => simp [Y.isNull]
  | some v =>
    simp only [Option.getD_some]
    constructor
    · intro hv
      refine ⟨v, rfl, ?_⟩
      rintro rfl
      simp [Y.isNull] at hv
    · rintro ⟨w, hw, hn⟩
      cases hw
      cases v <;> simp_all [Y.isNull]

private theorem times_ok {os : Y → Y → Res Unit} {n : Node} {ext : Y} {b : Bool} (he : Has n "extension" ext) :
    cameraTimes os ext (n.getD "timestamp_file" .null) (n.getD "columns" .null) (n.getD "filename_to_date" .null) = .ok b ↔
      (Has n "extension" (.str "bag") ∨
        (Given n "timestamp_file" ∨ Given n "filename_to_date") ∧
        ∀ f c, Has n "timestamp_file" f → Has n "columns" c → f ≠ .null → c ≠ .null → ∃ u, os f c = .ok u) ∧
      (b = false ↔ Has n "extension" (.str "bag")) := by
  have hb : Has n "extension" (.str "bag") ↔ ext.isBag = true := by
    rw [bag_iff]
    unfold Has at *
    rw [he]
    simp
  unfold cameraTimes
  by_cases h1 : ext.isBag = true
  · rw [if_pos h1]
    simp only [hb.2 h1, Except.ok.injEq, true_or, true_and, iff_true]
    exact eq_comm
  · rw [if_neg h1]
    have nb : ¬ Has n "extension" (.str "bag") := fun h => h1 (hb.1 h)
    simp only [nb, false_or, iff_false]
    by_cases h2 : (n.getD "timestamp_file" .null).isNull = true ∧ (n.getD "filename_to_date" .null).isNull = true
    · rw [if_pos h2]
      have a : ¬ Given n "timestamp_file" := by rw [← given_iff, h2.1]; simp
      have c : ¬ Given n "filename_to_date" := by rw [← given_iff, h2.2]; simp
      simp [a, c]
    · rw [if_neg h2]
      have hg : Given n "timestamp_file" ∨ Given n "filename_to_date" := by
        rw [← given_iff, ← given_iff]
        by_contra hc
        push Not at hc
        exact h2 ⟨by simpa using hc.1, by simpa using hc.2⟩
      by_cases h3 : (n.getD "timestamp_file" .null).isNull = false ∧ (n.getD "columns" .null).isNull = false
      · rw [if_pos h3]
        obtain ⟨f, hf, fn⟩ := given_iff.1 h3.1
        obtain ⟨c, hc, cn⟩ := given_iff.1 h3.2
        have ef : n.getD "timestamp_file" .null = f := by simp [Node.getD, hf]
        have ec : n.getD "columns" .null = c := by simp [Node.getD, hc]
        rw [ef, ec]
        constructor
        · intro h
          cases ho : os f c with
          | error e => rw [ho] at h; simp at h
          | ok u =>
            rw [ho] at h
            refine ⟨⟨hg, ?_⟩, ?_⟩
            · intro f' c' hf' hc' _ _
              unfold Has at hf' hc'
              rw [hf] at hf'; rw [hc] at hc'
              cases hf'; cases hc'
              exact ⟨u, ho⟩
            · simp at h
              simp [← h]
        · rintro ⟨⟨_, h⟩, hbt⟩
          obtain ⟨u, hu⟩ := h f c hf hc fn cn
          rw [hu]
          simpa using hbt
      · rw [if_neg h3]
        constructor
        · intro h
          refine ⟨⟨hg, ?_⟩, ?_⟩
          · intro f c hf hc fn cn
            exact absurd ⟨given_iff.2 ⟨f, hf, fn⟩, given_iff.2 ⟨c, hc, cn⟩⟩ h3
          · simp at h
            simp [← h]
        · rintro ⟨_, hbt⟩
          simpa using hbt

/-- **C261**: an entry of camera.yaml is accepted exactly if it describes a camera, and then the camera is the one it describes. -/
theorem C261_camera (openStamps : Y → Y → Res Unit) (n : Node) (c : CameraInfo) :
    cameraInfoDict openStamps n = .ok c ↔
      DescribesCamera openStamps n ∧ IsOf n c ∧ c.name = String.ofList (cameraLabel c.topic.toList) := by
  constructor
  · intro h
    unfold cameraInfoDict at h
    obtain ⟨y, hy, h⟩ := bind_ok h
    obtain ⟨name, hn, h⟩ := bind_ok h
    obtain ⟨t, ht, h⟩ := bind_ok h
    obtain ⟨type, hty, h⟩ := bind_ok h
    obtain ⟨depth, hd, h⟩ := bind_ok h
    obtain ⟨path, hp, h⟩ := bind_ok h
    obtain ⟨ext, he, h⟩ := bind_ok h
    obtain ⟨times, hti, h⟩ := bind_ok h
    cases h
    rw [text_ok] at hn
    rw [type_ok] at hty
    rw [req_ok] at hy ht hd hp he
    obtain ⟨hty, hmem⟩ := hty
    subst hn hty
    obtain ⟨h1, h2⟩ := (times_ok he).1 hti
    exact ⟨⟨⟨_, hy⟩, ⟨_, hmem, ht⟩, ⟨_, hd⟩, ⟨_, hp⟩, ⟨_, he⟩, h1⟩, ⟨hy, ht, hd, hp, he, rfl, rfl, rfl, h2⟩, rfl⟩
  · rintro ⟨⟨_, ⟨t, hmem, ht⟩, _, _, _, h1⟩, ⟨hy, hty, hd, hp, he, hf, hc, hfo, h2⟩, hname⟩
    have et : t = c.type := by
      unfold Has at ht hty
      rw [ht] at hty
      simpa using hty
    subst et
    have hti := (times_ok (b := c.times) he).2 ⟨h1, h2⟩
    unfold cameraInfoDict
    rw [req_ok.2 hy, ok_bind, text_ok.2 rfl, ok_bind, req_ok.2 hty, ok_bind, type_ok.2 ⟨rfl, hmem⟩, ok_bind, req_ok.2 hd, ok_bind,
      req_ok.2 hp, ok_bind, req_ok.2 he, ok_bind, hti, ok_bind]
    cases c
    simp only [Node.getD] at *
    subst hf hc hfo hname
    rfl

private theorem info_ok {os : Y → Y → Res Unit} {y : Y} {c : Option CameraInfo} :
    cameraInfo os y = .ok c ↔ ReadFrom os y c := by
  constructor
  · intro h
    cases y with
    | null => cases h; exact .empty
    | dict n =>
      obtain ⟨d, hd, h⟩ := bind_ok h
      cases h
      obtain ⟨a, b, e⟩ := (C261_camera os n d).1 hd
      exact .camera n d a b e
    | bool b => cases h
    | num q => cases h
    | str s => cases h
    | list l => cases h
  · intro h
    cases h with
    | empty => rfl
    | camera n d a b e =>
      change (cameraInfoDict os n >>= _) = _
      rw [(C261_camera os n d).2 ⟨a, b, e⟩]
      rfl

private theorem loop_ok {os : Y → Y → Res Unit} (l : List Y) (cs : List (Option CameraInfo)) :
    cameraLoop os l = .ok cs ↔ List.Forall₂ (ReadFrom os) l cs := by
  induction l generalizing cs with
  | nil =>
    constructor
    · intro h; cases h; exact .nil
    · intro h; cases h; rfl
  | cons y l ih =>
    constructor
    · intro h
      obtain ⟨c, hc, h⟩ := bind_ok h
      obtain ⟨ds, hd, h⟩ := bind_ok h
      cases h
      exact .cons (info_ok.1 hc) ((ih ds).1 hd)
    · intro h
      cases h with
      | cons a b =>
        change (cameraInfo os y >>= _) = _
        rw [info_ok.2 a]
        change (cameraLoop os l >>= _) = _
        rw [(ih _).2 b]
        rfl

private theorem texts_only {os : Y → Y → Res Unit} {l : List Y} {cs : List (Option CameraInfo)}
    (hl : ∀ y ∈ l, ∃ s, y = .str s) (h : cameraLoop os l = .ok cs) : l = [] ∧ cs = [] := by
  cases l with
  | nil => cases h; exact ⟨rfl, rfl⟩
  | cons y l =>
    obtain ⟨s, rfl⟩ := hl y (by simp)
    obtain ⟨c, hc, _⟩ := bind_ok h
    cases hc

/-- **C261**: a camera.yaml with a list of cameras is read exactly if it names the system and every item describes a camera or is
empty; there is then one entry for every item, in the same order, and it is the one described. -/
theorem C261_read (openStamps : Y → Y → Res Unit) (d : Node) (l : List Y) (hl : Has d "cameras" (.list l)) (s : CameraSystemInfo) :
    parseCameraSystem openStamps (.dict d) = .ok s ↔
      (∃ sys, Has d "camera_system" sys ∧ s.system = some sys) ∧ List.Forall₂ (ReadFrom openStamps) l s.cameras := by
  unfold Has at hl
  unfold parseCameraSystem Has
  dsimp only
  cases hs : d.lookup "camera_system" with
  | none => simp
  | some sys =>
    rw [hl]
    dsimp only
    constructor
    · intro h
      obtain ⟨items, hi, h⟩ := bind_ok h
      obtain ⟨cs, hcs, h⟩ := bind_ok h
      cases h
      cases hi
      exact ⟨⟨sys, rfl, rfl⟩, (loop_ok _ _).1 hcs⟩
    · rintro ⟨⟨sys', h1, h2⟩, h3⟩
      cases h1
      change (cameraLoop openStamps l >>= _) = _
      rw [(loop_ok _ _).2 h3, ok_bind]
      obtain ⟨a, b⟩ := s
      cases h2
      rfl

/-- **C261**: nothing else than a mapping with a list of cameras gives cameras. -/
theorem C261_only (openStamps : Y → Y → Res Unit) (file : Option YamlFile) (folder : Bool) (s : CameraSystemInfo)
    (h : openCameraSystem openStamps file folder = .ok s) (hc : s.cameras ≠ []) :
    ∃ d l, file = some (.holds (.dict d)) ∧ Has d "cameras" (.list l) := by
  unfold openCameraSystem at h
  cases file with
  | none =>
    simp only at h
    split at h
    · cases h; exact absurd rfl hc
    · cases h
  | some f =>
    cases f with
    | missing => cases h
    | forbidden => cases h
    | holds doc =>
      cases doc with
      | dict d =>
        refine ⟨d, ?_⟩
        simp only at h
        unfold parseCameraSystem at h
        cases hs : d.lookup "camera_system" with
        | none => simp [hs] at h
        | some sys =>
          cases hm : d.lookup "cameras" with
          | none => simp [hs, hm] at h
          | some y =>
            simp only [hs, hm] at h
            obtain ⟨items, hi, h⟩ := bind_ok h
            obtain ⟨cs, hcs, h⟩ := bind_ok h
            cases h
            cases y with
            | list l => exact ⟨l, rfl, hm⟩
            | dict m =>
              cases hi
              exact absurd (texts_only (by intro y hy; simp at hy; obtain ⟨a, b, _, rfl⟩ := hy; exact ⟨a, rfl⟩) hcs).2 hc
            | str m =>
              cases hi
              exact absurd (texts_only (by intro y hy; simp at hy; obtain ⟨a, _, rfl⟩ := hy; exact ⟨_, rfl⟩) hcs).2 hc
            | null => cases hi
            | bool b => cases hi
            | num q => cases hi
      | null => cases h
      | bool b => cases h
      | num q => cases h
      | str m =>
        obtain ⟨b, _, h⟩ := bind_ok h
        split at h <;> cases h
      | list m =>
        obtain ⟨b, _, h⟩ := bind_ok h
        split at h <;> cases h

/-- **C261**: without a file and a folder the system is empty; a file that is missing or cannot be opened ends the program; a
folder without a file is an exception. -/
theorem C261_files (openStamps : Y → Y → Res Unit) (folder : Bool) :
    openCameraSystem openStamps none false = .ok ⟨none, []⟩ ∧
    openCameraSystem openStamps none true = .error .attributeError ∧
    openCameraSystem openStamps (some .missing) folder = .error .quit ∧
    openCameraSystem openStamps (some .forbidden) folder = .error .quit := ⟨rfl, rfl, rfl, rfl⟩

private theorem label_plain {l : List Char} (h : '/' ∉ l) : cameraLabel l = l := by simp [cameraLabel, h]

/-- **C261**: among cameras that all have a name, a camera of mission.yaml is found exactly if one has its name; a name in mission.yaml that is
not a text is not found. -/
theorem C261_found (name : Y) (cs : List CameraInfo) (b : Bool) :
    findsCamera name (cs.map some) = .ok b ↔ (b = true ↔ ∃ c ∈ cs, name = .str c.name) := by
  induction cs generalizing b with
  | nil => cases b <;> simp [findsCamera]
  | cons c cs ih =>
    obtain ⟨r, hr⟩ : ∃ r, findsCamera name (cs.map some) = .ok r := by
      by_cases h : ∃ c ∈ cs, name = .str c.name
      · exact ⟨true, (ih true).2 (by simpa using h)⟩
      · exact ⟨false, (ih false).2 (by simpa using h)⟩
    have h1 := (ih r).1 hr
    have h2 : name.isText c.name = true ↔ name = .str c.name := by
      cases name <;> simp [Y.isText]
    have : findsCamera name ((c :: cs).map some) = .ok (name.isText c.name || r) := by
      simp only [List.map_cons, findsCamera, hr, bind, Except.bind]
    rw [this]
    simp only [Except.ok.injEq, List.mem_cons, exists_eq_or_imp]
    rw [← h1, ← h2, ← Bool.or_eq_true]
    cases b <;> cases (name.isText c.name || r) <;> simp

example (c d : CameraInfo) (hc : c.name = "Cam51707923") : findsCamera (.str "Cam51707923") ([d, c].map some) = .ok true := by
  rw [C261_found]
  simp [hc]

/-- **C261**: the name of a camera with a topic: its first character is left out, and slashes become underscores. -/
theorem C261_label (topic : List Char) :
    ('/' ∉ topic → cameraLabel topic = topic) ∧
    ('/' ∈ topic → (cameraLabel topic).length + 1 = topic.length ∧
      ∀ i, (cameraLabel topic)[i]? = (topic[i + 1]?).map fun c => if c = '/' then '_' else c) := by
  refine ⟨label_plain, fun h => ?_⟩
  simp only [cameraLabel, h, if_true]
  cases topic with
  | nil => simp at h
  | cons a l => simp

private theorem map_inj {l m : List Char} (hl : '_' ∉ l) (hm : '_' ∉ m)
    (h : (l.map fun c => if c = '/' then '_' else c) = m.map fun c => if c = '/' then '_' else c) : l = m := by
  induction l generalizing m with
  | nil => cases m <;> simp_all
  | cons a l ih =>
    cases m with
    | nil => simp at h
    | cons b m =>
      simp only [List.map_cons, List.cons.injEq] at h
      simp only [List.mem_cons, not_or] at hl hm
      rw [ih hl.2 hm.2 h.2]
      have e : a = b := by
        have := h.1
        split at this <;> split at this <;> simp_all
      rw [e]

/-- **C261** (partial: names without a slash): such a camera keeps its name. -/
theorem C261_names_partial (openStamps : Y → Y → Res Unit) (n : Node) (c : CameraInfo) (h : cameraInfoDict openStamps n = .ok c)
    (hs : '/' ∉ c.topic.toList) : Has n "name" (.str c.name) := by
  obtain ⟨_, h1, h2⟩ := (C261_camera _ _ _).1 h
  rw [label_plain hs, String.ofList_toList] at h2
  rw [h2]
  exact h1.1

/-- **C261** (partial: names without a slash, or topics that start with a slash and have no underscore): cameras with different
names stay apart. -/
theorem C261_apart_partial (openStamps : Y → Y → Res Unit) (n m : Node) (c d : CameraInfo)
    (hc : cameraInfoDict openStamps n = .ok c) (hd : cameraInfoDict openStamps m = .ok d)
    (hs : ('/' ∉ c.topic.toList ∧ '/' ∉ d.topic.toList) ∨
      (c.topic.toList.head? = some '/' ∧ d.topic.toList.head? = some '/' ∧ '_' ∉ c.topic.toList ∧ '_' ∉ d.topic.toList))
    (hne : n.lookup "name" ≠ m.lookup "name") : c.name ≠ d.name := by
  obtain ⟨_, h1, h2⟩ := (C261_camera _ _ _).1 hc
  obtain ⟨_, k1, k2⟩ := (C261_camera _ _ _).1 hd
  have ht : c.topic ≠ d.topic := by
    intro e
    apply hne
    rw [h1.1, k1.1, e]
  intro e
  rw [h2, k2] at e
  have e := congrArg String.toList e
  simp only [String.toList_ofList] at e
  apply ht
  rw [← String.toList_inj]
  rcases hs with ⟨a, b⟩ | ⟨a, b, a', b'⟩
  · rwa [label_plain a, label_plain b] at e
  · generalize c.topic.toList = l at *
    generalize d.topic.toList = k at *
    cases l with
    | nil => simp at a
    | cons x l =>
      cases k with
      | nil => simp at b
      | cons y k =>
        simp only [List.head?_cons, Option.some.injEq] at a b
        subst a b
        simp only [cameraLabel, List.mem_cons, true_or, if_true, List.drop_succ_cons, List.drop_zero] at e
        simp only [List.mem_cons, not_or] at a' b'
        rw [map_inj a'.2 b'.2 e]

private theorem finds {cs : List (Option CameraInfo)} {name : String} (hn : none ∉ cs)
    (h : ∃ c, some c ∈ cs ∧ c.name = name) : findsCamera (.str name) cs = .ok true := by
  have total : ∀ cs : List (Option CameraInfo), none ∉ cs → ∃ b, findsCamera (.str name) cs = .ok b := by
    intro cs
    induction cs with
    | nil => exact fun _ => ⟨false, rfl⟩
    | cons a l ih =>
      intro h
      simp only [List.mem_cons, not_or] at h
      cases a with
      | none => exact absurd rfl h.1
      | some c =>
        obtain ⟨b, hb⟩ := ih h.2
        refine ⟨(Y.str name).isText c.name || b, ?_⟩
        unfold findsCamera
        rw [hb]
        rfl
  induction cs with
  | nil => simp at h
  | cons a l ih =>
    simp only [List.mem_cons, not_or] at hn
    cases a with
    | none => exact absurd rfl hn.1
    | some c =>
      unfold findsCamera
      by_cases e : c.name = name
      · obtain ⟨b, hb⟩ := total l hn.2
        rw [hb]
        change Except.ok ((Y.str name).isText c.name || b) = _
        simp [Y.isText, e]
      · rw [ih hn.2 (by
          obtain ⟨d, hd, he⟩ := h
          simp only [List.mem_cons, Option.some.injEq] at hd
          rcases hd with rfl | hd
          · exact absurd he e
          · exact ⟨d, hd, he⟩)]
        change Except.ok ((Y.str name).isText c.name || true) = _
        simp

/-- **C261** (partial: no slash in the name, no empty item): a camera that has the same name in mission.yaml and in camera.yaml
is found. -/
theorem C261_finds_partial (openStamps : Y → Y → Res Unit) (items : List Y) (cs : List (Option CameraInfo)) (n m : Node)
    (e : CamEntry) (name : String) (hcs : cameraLoop openStamps items = .ok cs) (hi : Y.dict n ∈ items)
    (hn : Has n "name" (.str name)) (he : camLoadDict m = .ok e) (hm : Has m "name" (.str name)) (hs : '/' ∉ name.toList)
    (hnull : Y.null ∉ items) : findsCamera e.name cs = .ok true := by
  have en : e.name = .str name := by
    unfold camLoadDict at he
    obtain ⟨y, hy, he⟩ := bind_ok he
    obtain ⟨_, _, he⟩ := bind_ok he
    obtain ⟨_, _, he⟩ := bind_ok he
    obtain ⟨_, _, he⟩ := bind_ok he
    cases he
    rw [req_ok] at hy
    unfold Has at hy hm
    rw [hm] at hy
    simpa using hy.symm
  rw [en]
  have hf := (loop_ok _ _).1 hcs
  clear hcs
  apply finds
  · induction hf with
    | nil => simp
    | cons a b ih =>
      simp only [List.mem_cons, not_or] at hnull ⊢
      refine ⟨?_, ?_⟩
      · rintro rfl
        cases a
        exact hnull.1 rfl
      · rename_i x y l1 l2
        clear ih hi a
        induction b with
        | nil => simp
        | cons a b ih =>
          simp only [List.mem_cons, not_or] at hnull ⊢
          refine ⟨?_, ih ⟨hnull.1, hnull.2.2⟩⟩
          rintro rfl
          cases a
          exact hnull.2.1 rfl
  · clear hnull
    induction hf with
    | nil => simp at hi
    | cons a b ih =>
      simp only [List.mem_cons] at hi
      rcases hi with rfl | hi
      · cases a with
        | camera _ c h1 h2 h3 =>
          refine ⟨c, by simp, ?_⟩
          have : c.topic = name := by
            have := h2.1
            unfold Has at this hn
            rw [hn] at this
            simpa using this.symm
          rw [h3, this, label_plain hs, String.ofList_toList]
      · obtain ⟨c, h1, h2⟩ := ih hi
        exact ⟨c, by simp [h1], h2⟩

/-- An entry of camera.yaml with images in bags. -/
private def bagNode (name : String) : Node :=
  [("name", .str name), ("type", .str "rggb"), ("bit_depth", .num 8), ("path", .str "images/bagfiles"), ("extension", .str "bag")]

private def bagInfo (name label : String) : CameraInfo :=
  ⟨label, name, "rggb", .num 8, .str "images/bagfiles", .str "bag", .null, .null, .null, false⟩

private theorem bag_read (os : Y → Y → Res Unit) (name label : String) (h : String.ofList (cameraLabel name.toList) = label) :
    cameraInfoDict os (bagNode name) = .ok (bagInfo name label) := by
  rw [C261_camera]
  refine ⟨⟨⟨name, rfl⟩, ⟨"rggb", by simp [cameraTypes], rfl⟩, ⟨_, rfl⟩, ⟨_, rfl⟩, ⟨_, rfl⟩, Or.inl rfl⟩,
    ⟨rfl, rfl, rfl, rfl, rfl, rfl, rfl, rfl, ⟨fun _ => rfl, fun _ => rfl⟩⟩, h.symm⟩

/-- **C261**: the first letter of a name with a slash is lost, whatever it is. -/
theorem C261_names_false : ¬ KeepsNames := by
  intro h
  have e := h (fun _ _ => .ok ()) _ _ (bag_read _ "left/raw" "eft_raw" (by decide +kernel))
  have e' : (some (Y.str "left/raw")) = some (Y.str "eft_raw") := e
  simp at e'

/-- **C261**: cameras called `left/raw` and `teft/raw`, or `/a/b` and `/a_b`, get the same name. -/
theorem C261_apart_false : ¬ NamesApart := by
  intro h
  refine h (fun _ _ => .ok ()) _ _ _ _ (bag_read _ "/a/b" "a_b" (by decide +kernel)) (bag_read _ "/a_b" "a_b" (by decide +kernel)) ?_ rfl
  change some (Y.str "/a/b") ≠ some (Y.str "/a_b")
  simp

/-- **C261**: a topic that is written in the same way in both files is not found: the name in mission.yaml keeps its slashes. -/
theorem C261_finds_false : ¬ FindsItself := by
  intro h
  have hr := bag_read (fun _ _ => .ok ()) "/a/b" "a_b" (by decide +kernel)
  have hl : cameraLoop (fun _ _ => .ok ()) [.dict (bagNode "/a/b")] = .ok [some (bagInfo "/a/b" "a_b")] := by
    change ((cameraInfoDict (fun _ _ => .ok ()) (bagNode "/a/b") >>= _) >>= _) = _
    rw [hr]
    rfl
  have e := h (fun _ _ => .ok ()) [.dict (bagNode "/a/b")] _ (bagNode "/a/b") [("name", .str "/a/b"), ("path", .str "images")]
    ⟨.str "/a/b", .bool false, .null, .str "images", .null, .num 0, .null⟩ "/a/b" hl (by simp) rfl rfl rfl
  have e2 : (Except.ok ((Y.str "/a/b").isText "a_b" || false) : Res Bool) = .ok true := e
  simp [Y.isText] at e2

/-- **C261**: an empty item of the list is read as a camera without a name. -/
theorem C261_named_false : ¬ AllNamed := by
  intro h
  have e := h (fun _ _ => .ok ()) (.dict [("camera_system", .str "rosbag"), ("cameras", .list [.null])]) ⟨some (.str "rosbag"), [none]⟩ rfl
    none (by simp)
  simp at e

-- The camera.yaml of the rosbag default: two cameras, with the names of their topics without slashes.
example : parseCameraSystem (fun _ _ => .ok ()) (.dict [("camera_system", .str "rosbag"),
      ("cameras", .list [.dict (bagNode "/left/raw"), .dict (bagNode "right")])]) =
    .ok ⟨some (.str "rosbag"), [some (bagInfo "/left/raw" "left_raw"), some (bagInfo "right" "right")]⟩ := by
  refine (C261_read _ [("camera_system", .str "rosbag"), ("cameras", .list [.dict (bagNode "/left/raw"), .dict (bagNode "right")])]
    [.dict (bagNode "/left/raw"), .dict (bagNode "right")] rfl _).2 ?_
  have h1 := (C261_camera _ _ _).1 (bag_read (fun _ _ => .ok ()) "/left/raw" "left_raw" (by decide +kernel))
  have h2 := (C261_camera _ _ _).1 (bag_read (fun _ _ => .ok ()) "right" "right" (by decide +kernel))
  exact ⟨⟨_, rfl, rfl⟩, .cons (.camera _ _ h1.1 h1.2.1 h1.2.2) (.cons (.camera _ _ h2.1 h2.2.1 h2.2.2) .nil)⟩

-- A camera with a file of times that cannot be read is refused; with the format of its file names only, it is accepted.
example : ¬ DescribesCamera (fun _ _ => .error .quit) [("name", .str "LM165"), ("type", .str "grayscale"), ("bit_depth", .num 8),
    ("path", .str "image"), ("extension", .str "tif"), ("timestamp_file", .str "FileTime.csv"), ("columns", .list [])] := by
  rintro ⟨_, _, _, _, _, h | ⟨_, h⟩⟩
  · have : some (Y.str "tif") = some (Y.str "bag") := h
    simp at this
  · obtain ⟨u, hu⟩ := h (.str "FileTime.csv") (.list []) rfl rfl (by simp) (by simp)
    cases hu

example : DescribesCamera (fun _ _ => .error .quit) [("name", .str "LM165"), ("type", .str "grayscale"), ("bit_depth", .num 8),
    ("path", .str "image"), ("extension", .str "tif"), ("filename_to_date", .str "YYYYMMDD")] :=
  ⟨⟨_, rfl⟩, ⟨"grayscale", by simp [cameraTypes], rfl⟩, ⟨_, rfl⟩, ⟨_, rfl⟩, ⟨_, rfl⟩, Or.inr ⟨Or.inr ⟨_, rfl, by simp⟩, by
    intro f c hf; cases hf⟩⟩

end Oplab.Props
