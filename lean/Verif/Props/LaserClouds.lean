import Verif.Spec.LaserClouds
import Mathlib.Tactic.Linarith

/-! C258: clouds of points and pictures of a laser calibration. -/

namespace Oplab.Props
open Oplab Oplab.Spec

private theorem lines_split (ls : List Text) (h : ∀ l ∈ ls, '\n' ∉ l) :
    (ls.flatMap (· ++ ['\n'])).splitOn '\n' = ls ++ [[]] := by
  induction ls with
  | nil => simp
  | cons l ls ih =>
    rw [List.flatMap_cons, List.append_assoc, List.singleton_append,
      List.splitOn_append_cons_self_of_not_mem (h l (by simp)), ih fun x hx => h x (by simp [hx])]
    rfl

private theorem words_append (a b : Text) : plyWords (a ++ ' ' :: b) = plyWords a ++ plyWords b := by
  unfold plyWords
  rw [List.splitOn_append_cons_self, List.filter_append]

private theorem words_single (w : Text) (h : ' ' ∉ w) (h0 : w ≠ []) : plyWords w = [w] := by
  unfold plyWords
  rw [List.splitOn_eq_singleton h]
  simp [h0]

private theorem digits_no (n : ℕ) (c : Char) (hc : c.isDigit = false) : c ∉ Nat.toDigits 10 n := by
  intro h
  have := Nat.isDigit_of_mem_toDigits (by decide) (by decide) h
  simp [hc] at this

private theorem digits_ne (n : ℕ) : Nat.toDigits 10 n ≠ [] := by
  intro h
  have := Nat.length_toDigits_pos (b := 10) (n := n)
  rw [h] at this
  simp at this

private theorem vertex_point {K : Type} (fmt : K → Text) (parse : Text → Option K) (round : K → K)
    (hf : Formats fmt parse round) (p : V3 K) :
    plyVertex parse (plyPoint fmt p) = some ⟨round p.x, round p.y, round p.z⟩ := by
  have hw : plyWords (plyPoint fmt p) = [fmt p.x, fmt p.y, fmt p.z] := by
    unfold plyPoint
    rw [List.append_assoc, List.cons_append, words_append, words_append,
      words_single _ (hf.word _).2.1 (hf.word _).1, words_single _ (hf.word _).2.1 (hf.word _).1,
      words_single _ (hf.word _).2.1 (hf.word _).1]
    rfl
  unfold plyVertex
  rw [hw]
  simp only [hf.reads]
  rfl

/-- **C258**: a file with a cloud of points says how many points it holds and holds exactly them, in order, with coordinates
as they are written. -/
theorem C258_cloud {K : Type} (fmt : K → Text) (parse : Text → Option K) (round : K → K) (hf : Formats fmt parse round)
    (cloud : List (V3 K)) :
    readPly parse (plyText fmt cloud) = some (cloud.map fun p => ⟨round p.x, round p.y, round p.z⟩) := by
  have hl : ∀ l ∈ plyHeader cloud.length ++ cloud.map (plyPoint fmt), '\n' ∉ l := by
    intro l hl
    rcases List.mem_append.1 hl with h | h
    · simp only [plyHeader, List.mem_cons, List.not_mem_nil, or_false] at h
      rcases h with h | h | h | h | h | h | h
      · rw [h]; decide +kernel
      · rw [h]; decide +kernel
      · rw [h]
        intro hm
        rcases List.mem_append.1 hm with hm | hm
        · revert hm; decide +kernel
        · exact digits_no _ _ (by decide) hm
      · rw [h]; decide +kernel
      · rw [h]; decide +kernel
      · rw [h]; decide +kernel
      · rw [h]; decide +kernel
    · obtain ⟨p, -, rfl⟩ := List.mem_map.1 h
      unfold plyPoint
      intro hm
      simp only [List.mem_append, List.mem_cons] at hm
      rcases hm with (hm | hm | hm) | hm | hm
      · exact (hf.word _).2.2 hm
      · revert hm; decide
      · exact (hf.word _).2.2 hm
      · revert hm; decide
      · exact (hf.word _).2.2 hm
  unfold readPly plyText
  rw [lines_split _ hl]
  simp only [plyHeader, List.cons_append, List.nil_append]
  rw [if_pos (by refine ⟨?_, ?_, ?_, ?_, ?_, ?_⟩ <;> decide +kernel)]
  have hc : plyWords (plyIndent ++ "element vertex ".toList ++ Nat.toDigits 10 cloud.length) =
      ["element".toList, "vertex".toList, Nat.toDigits 10 cloud.length] := by
    have e : plyIndent ++ "element vertex ".toList = (plyIndent ++ "element vertex".toList) ++ [' '] := by decide +kernel
    have e2 : plyWords (plyIndent ++ "element vertex".toList) = ["element".toList, "vertex".toList] := by decide +kernel
    rw [e, List.append_assoc, List.singleton_append, words_append, e2,
      words_single _ (digits_no _ _ (by decide)) (digits_ne _)]
    rfl
  rw [hc]
  simp only [Nat.ofDigitChars_ten_toDigits]
  rw [if_pos ⟨trivial, trivial, by simp⟩]
  have ht : (cloud.map (plyPoint fmt) ++ [[]]).take cloud.length = cloud.map (plyPoint fmt) := by
    rw [List.take_append_of_le_length (by simp)]
    simp
  rw [ht]
  clear ht hc hl
  induction cloud with
  | nil => rfl
  | cons p ps ih =>
    rw [List.map_cons, List.mapM_cons, vertex_point fmt parse round hf, ih]
    rfl

/-- Non-vacuity: digits for natural numbers. -/
example : Formats (K := ℕ) (fun n => Nat.toDigits 10 n) (fun t => some (Nat.ofDigitChars 10 t 0)) id :=
  ⟨fun _ => ⟨digits_ne _, digits_no _ _ (by decide), digits_no _ _ (by decide)⟩,
    fun _ => by simp⟩

private theorem bind_ok {α β : Type} {x : Res α} {f : α → Res β} {c : β} (h : (x >>= f) = .ok c) :
    ∃ a, x = .ok a ∧ f a = .ok c := by
  cases x with
  | error e => cases h
  | ok a => exact ⟨a, rfl, h⟩

private theorem cloudFit_ok {V : Type} {m : ℕ} {strat : List V → Res (List V)} {sample : ℕ → List V → List V}
    {c : List V} {a : List V × List V} (h : cloudFit m strat sample c = .ok a) :
    strat c = .ok a.1 ∧ a.2 = sample (min a.1.length m) a.1 := by
  unfold cloudFit at h
  obtain ⟨f, h1, h⟩ := bind_ok h
  injection h with h
  subst h
  exact ⟨h1, rfl⟩

/-- **C258**: the files hold the clouds of the line they are named after; those marked `rs` hold points that the plane is
fitted to, no more of them than set. -/
theorem C258_files {V : Type} (two : Bool) (maxCloud : ℕ) (strat : List V → Res (List V))
    (sample : ℕ → List V → List V) (hs : DrawsFrom sample) (top bottom : List V) (r : CloudRun V)
    (h : cloudRun two maxCloud strat sample top bottom = .ok r) :
    (r.files.map Prod.fst = if two then [.points, .pointsB, .pointsRs, .pointsBRs] else [.points, .pointsRs]) ∧
    strat top = .ok r.fitted ∧ (two = true → ∃ b, strat bottom = .ok b ∧ r.fittedB = some b) ∧
    (∀ c, (CloudFile.points, c) ∈ r.files → c = top) ∧ (∀ c, (CloudFile.pointsB, c) ∈ r.files → c = bottom) ∧
    (∀ c, (CloudFile.pointsRs, c) ∈ r.files →
      c.length = min r.fitted.length maxCloud ∧ ∃ s, List.Sublist s r.fitted ∧ c.Perm s) ∧
    (∀ c, (CloudFile.pointsBRs, c) ∈ r.files → ∃ b, r.fittedB = some b ∧
      c.length = min b.length maxCloud ∧ ∃ s, List.Sublist s b ∧ c.Perm s) := by
  have key : ∀ l : List V, (sample (min l.length maxCloud) l).length = min l.length maxCloud ∧
      ∃ s, List.Sublist s l ∧ (sample (min l.length maxCloud) l).Perm s := by
    intro l
    obtain ⟨s, h1, h2, h3⟩ := hs (min l.length maxCloud) l (Nat.min_le_left _ _)
    exact ⟨by rw [h3.length_eq, h2], s, h1, h3⟩
  unfold cloudRun at h
  obtain ⟨a, ha, h⟩ := bind_ok h
  obtain ⟨ha1, ha2⟩ := cloudFit_ok ha
  cases two with
  | false =>
    simp only [Bool.false_eq_true, if_false] at h
    injection h with h
    subst h
    refine ⟨rfl, ha1, by simp, ?_, ?_, ?_, ?_⟩
    · intro c hc; simpa using hc
    · intro c hc; simp at hc
    · intro c hc
      have : c = a.2 := by simpa using hc
      rw [this, ha2]; exact key _
    · intro c hc; simp at hc
  | true =>
    simp only [if_true] at h
    obtain ⟨b, hb, h⟩ := bind_ok h
    obtain ⟨hb1, hb2⟩ := cloudFit_ok hb
    injection h with h
    subst h
    refine ⟨rfl, ha1, fun _ => ⟨b.1, hb1, rfl⟩, ?_, ?_, ?_, ?_⟩
    · intro c hc; simpa using hc
    · intro c hc; simpa using hc
    · intro c hc
      have : c = a.2 := by simpa using hc
      rw [this, ha2]; exact key _
    · intro c hc
      have : c = b.2 := by simpa using hc
      rw [this, hb2]; exact ⟨b.1, rfl, key _⟩

private theorem draws_take : DrawsFrom (fun n (l : List ℕ) => l.take n) :=
  fun n l h => ⟨l.take n, List.take_sublist _ _, by simpa using h, List.Perm.refl _⟩

/-- Non-vacuity: two lines, at most two points in a file. -/
example : cloudRun true 2 (fun l => .ok l) (fun n (l : List ℕ) => l.take n) [1, 2, 3] [4] =
    .ok ⟨[(.points, [1, 2, 3]), (.pointsB, [4]), (.pointsRs, [1, 2]), (.pointsBRs, [4])], [1, 2, 3], some [4]⟩ := by
  simp [cloudRun, cloudFit, bind, Except.bind]

/-- **C258**: files of one camera have different names. -/
theorem C258_names (camera : Text) (f g : CloudFile) (h : f.name camera = g.name camera) : f = g := by
  have e1 : "points_".toList.length = 7 := by decide +kernel
  have e2 : "points_b_".toList.length = 9 := by decide +kernel
  have e3 : "points_rs_".toList.length = 10 := by decide +kernel
  have e4 : "points_b_rs_".toList.length = 12 := by decide +kernel
  unfold CloudFile.name at h
  have := congrArg List.length h
  rw [List.length_append, List.length_append, List.length_append, List.length_append] at this
  cases f <;> cases g <;> first | rfl | (exfalso; simp only [e1, e2, e3, e4] at this; omega)

/-- **C258**: the files are PLY files of the camera. -/
theorem C258_extension (camera : Text) (f : CloudFile) :
    ∃ start : Text, start.take 7 = "points_".toList ∧ f.name camera = start ++ camera ++ ".ply".toList := by
  cases f
  · exact ⟨"points_".toList, by decide +kernel, rfl⟩
  · exact ⟨"points_b_".toList, by decide +kernel, rfl⟩
  · exact ⟨"points_rs_".toList, by decide +kernel, rfl⟩
  · exact ⟨"points_b_rs_".toList, by decide +kernel, rfl⟩

/-- **C258** fails: the largest size of a cloud bounds what is saved, not what is fitted. -/
theorem C258_limit_false : ¬ FitLimited := by
  intro h
  have := h ℕ false 1 (fun l => .ok l) (fun n l => l.take n) [1, 2, 3] [] ⟨[(.points, [1, 2, 3]), (.pointsRs, [1])], [1, 2, 3], none⟩
    draws_take rfl
  simp at this

private theorem pixels_ok {P : Type} {two : Bool} {f fb : List P} {file : Option (LaserFile P)}
    {l : (List P × List P) × LaserFile P} (h : laserPixels false two f fb file = .ok l) :
    (file = none ∧ l = detectAndWrite two f fb) ∨ (∃ g, file = some g ∧ l.2 = g ∧ readLaser two g = .ok l.1) := by
  cases file with
  | none =>
    injection h with h
    exact Or.inl ⟨rfl, h.symm⟩
  | some g =>
    refine Or.inr ⟨g, rfl, ?_⟩
    unfold laserPixels at h
    simp only [Bool.false_eq_true, if_false] at h
    cases hr : readLaser two g with
    | error e => rw [hr] at h; cases h
    | ok r =>
      rw [hr] at h
      injection h with h
      subst h
      exact ⟨rfl, rfl⟩

private theorem items_back {P : Type} (ps l : List P) (h : readItems (yamlItems ps) = .ok l) : l = ps := by
  unfold yamlItems at h
  by_cases hp : ps = []
  · rw [if_pos hp] at h
    cases h
  · rw [if_neg hp] at h
    clear hp
    induction ps generalizing l with
    | nil => injection h with h; exact h.symm
    | cons p ps ih =>
      simp only [List.map_cons, readItems] at h
      obtain ⟨r, h1, h⟩ := bind_ok h
      injection h with h
      rw [← h, ih r h1]

private theorem read_back {P : Type} (two : Bool) (f fb : List P) (l : List P × List P)
    (h : readLaser two (detectAndWrite two f fb).2 = .ok l) : l = (detectAndWrite two f fb).1 := by
  cases two with
  | false =>
    change (readItems (yamlItems f) >>= fun a => Except.ok (a, [])) = _ at h
    obtain ⟨a, h1, h⟩ := bind_ok h
    injection h with h
    rw [← h, items_back _ _ h1]
    rfl
  | true =>
    change (readItems (yamlItems f) >>= fun a => readItems (yamlItems fb) >>= fun b => Except.ok (a, b)) = _ at h
    obtain ⟨a, h1, h⟩ := bind_ok h
    obtain ⟨b, h2, h⟩ := bind_ok h
    injection h with h
    rw [← h, items_back _ _ h1, items_back _ _ h2]
    rfl

/-- What a file of detections says agrees with the picture. -/
private def Agree {P : Type} (two : Bool) (s : PairFilesSt P) : Prop :=
  (s = ⟨none, none, none, none⟩) ∨ ∃ fl fr : List P × List P,
    s = ⟨some (detectAndWrite two fl.1 fl.2).2, some (detectAndWrite two fr.1 fr.2).2,
      some (detectAndWrite two fl.1 fl.2).1, some (detectAndWrite two fr.1 fr.2).1⟩

private theorem agree_step {P : Type} {two : Bool} {fl fr : List P × List P} {s s' : PairFilesSt P}
    {d : (List P × List P) × (List P × List P)} (hs : Agree two s)
    (h : pairRun false two fl fr s = .ok (d, s')) : Agree two s' ∧ s'.leftPic = some d.1 ∧ s'.rightPic = some d.2 := by
  unfold pairRun at h
  obtain ⟨l, hl, h⟩ := bind_ok h
  obtain ⟨r, hr, h⟩ := bind_ok h
  have hd : (l.1, r.1) = d := congrArg Prod.fst (Except.ok.inj h)
  have hs' := congrArg Prod.snd (Except.ok.inj h)
  simp only at hs'
  subst hd
  subst hs'
  rcases hs with rfl | ⟨gl, gr, rfl⟩
  · rcases pixels_ok hl with ⟨-, rfl⟩ | ⟨g, hg, -⟩
    · rcases pixels_ok hr with ⟨-, rfl⟩ | ⟨g, hg, -⟩
      · exact ⟨Or.inr ⟨fl, fr, rfl⟩, rfl, rfl⟩
      · cases hg
    · cases hg
  · rcases pixels_ok hl with ⟨hg, -⟩ | ⟨g, hg, hl2, hl1⟩
    · cases hg
    · rcases pixels_ok hr with ⟨hg', -⟩ | ⟨g', hg', hr2, hr1⟩
      · cases hg'
      · injection hg with hg
        injection hg' with hg'
        subst hg
        subst hg'
        have e1 := read_back _ _ _ _ hl1
        have e2 := read_back _ _ _ _ hr1
        refine ⟨Or.inr ⟨gl, gr, ?_⟩, ?_, ?_⟩
        · rw [hl2, hr2]; rfl
        · rw [e1]; rfl
        · rw [e2]; rfl

/-- **C258**, partial: as long as detections are not overwritten and the number of lasers does not change, the pictures of
a pair show after every run the detections that the run works with. -/
theorem C258_pictures_partial {P : Type} (two : Bool) (rs : List (DetRun P)) (s s' : PairFilesSt P) (r : DetRun P)
    (d : (List P × List P) × (List P × List P)) (hh : PairHistory rs s)
    (hrs : ∀ q ∈ r :: rs, q.overwrite = false ∧ q.two = two)
    (h : pairRun r.overwrite r.two r.left r.right s = .ok (d, s')) :
    s'.leftPic = some d.1 ∧ s'.rightPic = some d.2 := by
  have inv : ∀ (rs : List (DetRun P)) (s : PairFilesSt P), PairHistory rs s →
      (∀ q ∈ rs, q.overwrite = false ∧ q.two = two) → Agree two s := by
    intro rs s hh
    induction hh with
    | nil => intro _; exact Or.inl rfl
    | cons rs s s' r d _ hr ih =>
      intro hq
      obtain ⟨h1, h2⟩ := hq r (by simp)
      rw [h1, h2] at hr
      exact (agree_step (ih fun q hq' => hq q (by simp [hq'])) hr).1
  obtain ⟨h1, h2⟩ := hrs r (by simp)
  rw [h1, h2] at h
  exact (agree_step (inv rs s hh fun q hq => hrs q (by simp [hq])) h).2

/-- Non-vacuity: a second run reads what the first has found. -/
example : pairRun false true ([7], [8]) ([9], []) ⟨some ⟨[some 1], some [some 2]⟩, some ⟨[some 3], some [some 4]⟩,
      some ([1], [2]), some ([3], [4])⟩ =
    .ok ((([1], [2]), ([3], [4])), ⟨some ⟨[some 1], some [some 2]⟩, some ⟨[some 3], some [some 4]⟩,
      some ([1], [2]), some ([3], [4])⟩) := rfl

/-- **C258** fails: if detections are overwritten, the pictures still show the old ones. -/
theorem C258_pictures_false : ¬ PicturesCurrent := by
  intro h
  have h1 : PairHistory (P := ℕ) [⟨false, false, ([1], []), ([2], [])⟩]
      ⟨some ⟨[some 1], none⟩, some ⟨[some 2], none⟩, some ([1], []), some ([2], [])⟩ :=
    PairHistory.cons [] _ _ _ (([1], []), ([2], [])) PairHistory.nil rfl
  have := h ℕ _ _ ⟨some ⟨[some 5], none⟩, some ⟨[some 2], none⟩, some ([1], []), some ([2], [])⟩
    ⟨true, false, ([5], []), ([2], [])⟩ (([5], []), ([2], [])) h1 rfl
  simp at this

end Oplab.Props
