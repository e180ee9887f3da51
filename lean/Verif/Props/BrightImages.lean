import Verif.Spec.BrightImages
import Mathlib.Tactic

/-! # C250: lists of images with artefacts -/

namespace Oplab.Props
open Oplab Oplab.Spec

section
variable {K : Type} [Field K] [LinearOrder K]

omit [Field K] in
private theorem foldl_max (ms : List K) (m : K) :
    (ms.foldl max m = m ∨ ms.foldl max m ∈ ms) ∧ m ≤ ms.foldl max m ∧ ∀ x ∈ ms, x ≤ ms.foldl max m := by
  induction ms generalizing m with
  | nil => simp
  | cons a ms ih =>
    obtain ⟨h1, h2, h3⟩ := ih (max m a)
    rw [List.foldl_cons]
    refine ⟨?_, le_trans (le_max_left _ _) h2, ?_⟩
    · rcases h1 with h1 | h1
      · rw [h1]
        rcases max_choice m a with h | h
        · exact Or.inl h
        · rw [h]
          exact Or.inr (List.mem_cons_self ..)
      · exact Or.inr (List.mem_cons_of_mem _ h1)
    · intro x hx
      rcases List.mem_cons.mp hx with rfl | hx
      · exact le_trans (le_max_right _ _) h2
      · exact h3 x hx

private theorem max_iff (img : BrightImg K) (m : K) : brightMax img = .ok m ↔ ∃ rows, img = .colour rows ∧ Brightest rows m := by
  cases img with
  | grey r => simp [brightMax]
  | colour rows =>
    have hmem : ∀ x, x ∈ rows.flatten.map channelMean ↔ ∃ row ∈ rows, ∃ px ∈ row, px.sum / px.length = x := by
      intro x
      simp only [List.mem_map, List.mem_flatten, channelMean]
      constructor
      · rintro ⟨px, ⟨row, h1, h2⟩, h3⟩
        exact ⟨row, h1, px, h2, h3⟩
      · rintro ⟨row, h1, px, h2, h3⟩
        exact ⟨px, ⟨row, h1, h2⟩, h3⟩
    have hB : ∀ m, Brightest rows m ↔ m ∈ rows.flatten.map channelMean ∧ ∀ x ∈ rows.flatten.map channelMean, x ≤ m := by
      intro m
      unfold Brightest
      rw [← hmem]
      refine and_congr_right fun _ => ⟨fun h x hx => ?_, fun h row hr px hp => h _ ((hmem _).mpr ⟨row, hr, px, hp, rfl⟩)⟩
      obtain ⟨row, hr, px, hp, rfl⟩ := (hmem x).mp hx
      exact h row hr px hp
    simp only [brightMax, BrightImg.colour.injEq, exists_eq_left', hB]
    cases rows.flatten.map channelMean with
    | nil => simp
    | cons a ms =>
      simp only [Except.ok.injEq]
      obtain ⟨h1, h2, h3⟩ := foldl_max ms a
      constructor
      · rintro rfl
        refine ⟨?_, ?_⟩
        · rcases h1 with h1 | h1
          · rw [h1]
            exact List.mem_cons_self ..
          · exact List.mem_cons_of_mem _ h1
        · intro x hx
          rcases List.mem_cons.mp hx with rfl | hx
          · exact h2
          · exact h3 x hx
      · rintro ⟨h4, h5⟩
        apply le_antisymm
        · rcases h1 with h1 | h1
          · rw [h1]
            exact h5 a (List.mem_cons_self ..)
          · exact h5 _ (List.mem_cons_of_mem _ h1)
        · rcases List.mem_cons.mp h4 with rfl | h4
          · exact h2
          · exact h3 m h4

/-- C250: the table has one row for each jpg file and then one for each png file, in the order of the listing, with the brightness of the brightest
pixel; it is written exactly if every image can be read, has colour channels and has pixels. -/
theorem C250_table (load : String → Res (BrightImg K)) (jpgs pngs : List String) (t : List (String × K)) :
    brightTable load jpgs pngs = .ok t ↔
      List.Forall₂ (fun p r => r.1 = p ∧ ∃ rows, load p = .ok (.colour rows) ∧ Brightest rows r.2) (jpgs ++ pngs) t := by
  unfold brightTable
  generalize jpgs ++ pngs = ps
  induction ps generalizing t with
  | nil =>
    simp only [brightLoop, List.forall₂_nil_left_iff, Except.ok.injEq]
    exact eq_comm
  | cons p ps ih =>
    rw [List.forall₂_cons_left_iff]
    constructor
    · intro h
      cases h0 : load p with
      | error e => rw [brightLoop, h0] at h; cases h
      | ok img =>
        cases h1 : brightMax img with
        | error e => simp only [brightLoop, h0, h1, bind, Except.bind] at h; cases h
        | ok m =>
          cases h2 : brightLoop load ps with
          | error e => simp only [brightLoop, h0, h1, h2, bind, Except.bind] at h; cases h
          | ok rest =>
            simp only [brightLoop, h0, h1, h2, bind, Except.bind] at h
            cases h
            obtain ⟨rows, rfl, hb⟩ := (max_iff img m).mp h1
            exact ⟨(p, m), rest, ⟨rfl, rows, rfl, hb⟩, (ih rest).mp h2, rfl⟩
    · rintro ⟨⟨q, m⟩, rest, ⟨rfl, rows, h0, hb⟩, h2, rfl⟩
      have h1 := (max_iff (.colour rows) m).mpr ⟨rows, rfl, hb⟩
      simp only [brightLoop, h0, h1, (ih rest).mpr h2, bind, Except.bind]

private theorem plain_text {p : String} (h : PlainPath p) : csvText p = p := by
  unfold csvText
  rw [if_neg]
  rw [List.any_eq_true]
  rintro ⟨c, hc, h'⟩
  obtain ⟨h1, h2, h3, h4⟩ := h c hc
  simp [h1, h2, h3, h4] at h'

/-- C250 (part of: an image with a value above the threshold is listed): the images listed are exactly those of the folder in which the mean of the
channels of some pixel is above the threshold. For paths that need no quotes. -/
theorem C250_listed_partial {load : String → Res (BrightImg K)} {jpgs pngs : List String} {t : List (String × K)}
    (ht : brightTable load jpgs pngs = .ok t) (hp : ∀ p ∈ jpgs ++ pngs, PlainPath p) (threshold : K) (p : String) :
    p ∈ brightList threshold t ↔ p ∈ jpgs ++ pngs ∧ HasBright load threshold p := by
  have hF := (C250_table load jpgs pngs t).mp ht
  generalize jpgs ++ pngs = ps at hp hF
  clear ht
  unfold brightList
  induction hF with
  | nil => simp
  | @cons q r ps t h hF ih =>
    obtain ⟨rfl, rows, h0, hb⟩ := h
    have ih' : p ∈ List.map (fun r => csvText r.1) (List.filter (fun r => decide (threshold < r.2)) t) ↔ p ∈ ps ∧ HasBright load threshold p :=
      ih (fun p hp' => hp p (List.mem_cons_of_mem _ hp'))
    have hq := plain_text (hp _ (List.mem_cons_self ..))
    have hbr : HasBright load threshold r.1 ↔ threshold < r.2 := by
      constructor
      · rintro ⟨rows', h0', row, hr, px, hpx, hlt⟩
        rw [h0] at h0'
        cases h0'
        exact lt_of_lt_of_le hlt (hb.2 row hr px hpx)
      · intro hlt
        obtain ⟨row, hr, px, hpx, he⟩ := hb.1
        exact ⟨rows, h0, row, hr, px, hpx, he ▸ hlt⟩
    rw [List.filter_cons]
    split_ifs with hc
    · rw [decide_eq_true_eq] at hc
      rw [List.map_cons, List.mem_cons, List.mem_cons, ih', hq]
      constructor
      · rintro (rfl | ⟨h1, h2⟩)
        · exact ⟨Or.inl rfl, hbr.mpr hc⟩
        · exact ⟨Or.inr h1, h2⟩
      · rintro ⟨rfl | h1, h2⟩
        · exact Or.inl rfl
        · exact Or.inr ⟨h1, h2⟩
    · rw [decide_eq_true_eq] at hc
      rw [List.mem_cons, ih']
      constructor
      · rintro ⟨h1, h2⟩
        exact ⟨Or.inr h1, h2⟩
      · rintro ⟨rfl | h1, h2⟩
        · exact absurd (hbr.mp h2) hc
        · exact ⟨h1, h2⟩

omit [Field K] in
/-- C250: the list keeps the order of the table, and a higher threshold gives a part of the list of a lower one. -/
theorem C250_order (a b : K) (hab : a ≤ b) (t : List (String × K)) :
    (brightList b t).Sublist (brightList a t) ∧ (brightList a t).Sublist (t.map fun r => csvText r.1) := by
  unfold brightList
  refine ⟨List.Sublist.map _ ?_, List.Sublist.map _ List.filter_sublist⟩
  have : t.filter (fun r => decide (b < r.2)) = (t.filter fun r => decide (a < r.2)).filter fun r => decide (b < r.2) := by
    rw [List.filter_filter]
    refine List.filter_congr fun r _ => ?_
    by_cases h : b < r.2
    · simp [h, lt_of_le_of_lt hab h]
    · simp [h]
  rw [this]
  exact List.filter_sublist

end

private theorem dot_self (l : List Char) : dotPrefix l l = true := by
  induction l with
  | nil => rfl
  | cons c l ih => simp [dotPrefix, ih]

private theorem finds_self (p : String) : grepFinds p p = true := by
  unfold grepFinds
  rw [List.any_eq_true]
  refine ⟨p.toList, ?_, dot_self _⟩
  rw [List.mem_tails]

/-- C250: the printed command removes every line that is on the list, and adds none. -/
theorem C250_removes (patterns lines : List String) (l : String) (h : l ∈ grepWithout patterns lines) : l ∈ lines ∧ l ∉ patterns := by
  unfold grepWithout at h
  rw [List.mem_filter] at h
  refine ⟨h.1, fun hp => ?_⟩
  have : (patterns.any fun p => grepFinds p l) = true := List.any_eq_true.mpr ⟨l, hp, finds_self l⟩
  rw [this] at h
  exact absurd h.2 (by decide)

/-- C250 (part of: the printed command keeps exactly the images that are not bright): so it is if no path needs quotes and no path of a bright image
is found in another path. -/
theorem C250_keeps_partial {K : Type} [Field K] [LinearOrder K] (table : List (String × K)) (threshold : K)
    (hn : (table.map Prod.fst).Nodup) (hp : ∀ r ∈ table, PlainPath r.1)
    (hf : ∀ r ∈ table, ∀ q ∈ table, threshold < r.2 → grepFinds r.1 q.1 = true → q.1 = r.1) (p : String) :
    p ∈ grepWithout (brightList threshold table) (table.map Prod.fst) ↔ ∃ m, (p, m) ∈ table ∧ ¬ threshold < m := by
  have huniq : ∀ r ∈ table, ∀ q ∈ table, r.1 = q.1 → r = q := fun r hr q hq h => List.inj_on_of_nodup_map hn hr hq h
  have hb : ∀ l, l ∈ brightList threshold table ↔ ∃ m, (l, m) ∈ table ∧ threshold < m := by
    intro l
    unfold brightList
    simp only [List.mem_map, List.mem_filter, decide_eq_true_eq]
    constructor
    · rintro ⟨r, ⟨hr, hlt⟩, rfl⟩
      rw [plain_text (hp r hr)]
      exact ⟨r.2, hr, hlt⟩
    · rintro ⟨m, hm, hlt⟩
      exact ⟨(l, m), ⟨hm, hlt⟩, plain_text (hp _ hm)⟩
  constructor
  · intro h
    obtain ⟨h1, h2⟩ := C250_removes _ _ _ h
    obtain ⟨⟨q, m⟩, hr, rfl⟩ := List.mem_map.mp h1
    exact ⟨m, hr, fun hlt => h2 ((hb q).mpr ⟨m, hr, hlt⟩)⟩
  · rintro ⟨m, hm, hlt⟩
    unfold grepWithout
    rw [List.mem_filter]
    refine ⟨List.mem_map.mpr ⟨(p, m), hm, rfl⟩, ?_⟩
    rw [Bool.not_eq_true', List.any_eq_false]
    intro l hl hfound
    obtain ⟨m', hm', hlt'⟩ := (hb l).mp hl
    have he := hf (l, m') hm' (p, m) hm hlt' hfound
    have := huniq _ hm' _ hm he.symm
    cases this
    exact hlt hlt'

/-- C250 (part of: the attenuation parameters are computed without the bright images): with a list made by the printed command from the paths of the
table, no row of the navigation is used whose path is that of a bright image, if no other image has the same name without its extension. -/
theorem C250_training_partial {K : Type} [Field K] [LinearOrder K] (stem : String → String) (table : List (String × K)) (threshold : K)
    (rows : List (NavRow K)) (hp : ∀ r ∈ table, PlainPath r.1) (hs : ∀ r ∈ table, ∀ q ∈ table, stem r.1 = stem q.1 → r.1 = q.1) :
    ∀ r ∈ trimRows stem (grepWithout (brightList threshold table) (table.map Prod.fst)) rows,
      ∀ p m, (p, m) ∈ table → stem r.path = stem p → ¬ threshold < m := by
  intro r hr p m hm hst hlt
  unfold trimRows at hr
  simp only [List.mem_filter, List.contains_iff_mem, List.mem_map] at hr
  obtain ⟨-, ⟨-, l, hl, hls⟩⟩ := hr
  obtain ⟨h1, h2⟩ := C250_removes _ _ _ hl
  obtain ⟨⟨q, m'⟩, hq, rfl⟩ := List.mem_map.mp h1
  have : q = p := hs (q, m') hq (p, m) hm (by rw [hls, hst])
  subst this
  apply h2
  unfold brightList
  simp only [List.mem_map, List.mem_filter, decide_eq_true_eq]
  exact ⟨(q, m), ⟨hm, hlt⟩, plain_text (hp _ hm)⟩

/-- C250: it is not so that every folder of readable images is processed: a grey image ends the script before anything is written. -/
theorem C250_grey_false : ¬ AllProcessed := by
  intro h
  obtain ⟨t, ht⟩ := h (fun _ => .ok (.grey [[1]])) ["a.jpg"] [] (fun p _ => ⟨_, rfl⟩)
  cases ht

/-- C250: it is not so that every image with a value above the threshold is listed: the channels are averaged, so a saturated red spot is not. -/
theorem C250_spot_false : ¬ SpotsListed := by
  intro h
  have := h (fun _ => .ok (.colour [[[255, 0, 0]]])) ["a.jpg"] [] [("a.jpg", 85)] 200
    ((C250_table _ _ _ _).mpr (List.Forall₂.cons ⟨rfl, _, rfl, ⟨⟨_, List.mem_singleton.mpr rfl, _, List.mem_singleton.mpr rfl, by norm_num⟩, by simp; norm_num⟩⟩ List.Forall₂.nil))
    "a.jpg" (by simp) [[[255, 0, 0]]] rfl ⟨_, List.mem_singleton.mpr rfl, _, List.mem_singleton.mpr rfl, 255, by simp, by norm_num⟩
  revert this
  decide +kernel

/-- C250: it is not so that the printed command keeps exactly the images that are not bright: a path is also found inside longer ones. -/
theorem C250_keeps_false : ¬ KeepsOthers := by
  intro h
  have := (h [("1.png", 250), ("11.png", 10)] 200 (by decide +kernel) "11.png").mpr ⟨10, by simp, by norm_num⟩
  revert this
  decide +kernel

/-- C250: a bright image whose path has a comma is kept, since its line on the list is in quotes. -/
theorem C250_comma_false : ¬ (∀ (table : List (String × ℚ)) (threshold : ℚ), (table.map Prod.fst).Nodup →
    ∀ p ∈ grepWithout (brightList threshold table) (table.map Prod.fst), ∀ m, (p, m) ∈ table → ¬ threshold < m) := by
  intro h
  exact h [("a,b.png", 250)] 200 (by decide +kernel) "a,b.png" (by decide +kernel) 250 (by simp) (by norm_num)

private def sampleStem (s : String) : String := String.ofList (s.toList.takeWhile (· ≠ '.'))

/-- C250: it is not so that the attenuation parameters are computed without the bright images: correct_images compares names without extension, so a
bright image is used if another with that name is kept. -/
theorem C250_training_false : ¬ BrightUnused := by
  intro h
  have hpl : ∀ r ∈ [("a.png", (250 : ℚ)), ("a.jpg", 10)], PlainPath r.1 := by
    intro r hr
    rcases List.mem_cons.mp hr with rfl | hr
    · unfold PlainPath
      decide +kernel
    · rw [List.mem_singleton] at hr
      subst hr
      unfold PlainPath
      decide +kernel
  have hm : (⟨"a.png", .val 3, 0⟩ : NavRow ℚ) ∈ trimRows sampleStem
      (grepWithout (brightList 200 [("a.png", (250 : ℚ)), ("a.jpg", 10)]) ([("a.png", (250 : ℚ)), ("a.jpg", 10)].map Prod.fst))
      [⟨"a.png", .val 3, 0⟩] := by
    have e1 : grepWithout (brightList 200 [("a.png", (250 : ℚ)), ("a.jpg", 10)]) ([("a.png", (250 : ℚ)), ("a.jpg", 10)].map Prod.fst) = ["a.jpg"] := by
      decide +kernel
    rw [e1]
    have e2 : sampleStem "a.jpg" = sampleStem "a.png" := by decide +kernel
    simp [trimRows, e2]
  exact h sampleStem [("a.png", 250), ("a.jpg", 10)] 200 [⟨"a.png", .val 3, 0⟩] (by decide +kernel) hpl _ hm 250 (by simp) (by norm_num)

/-- The hypotheses of `C250_keeps_partial` and `C250_training_partial` hold for two files of a folder. -/
example : let table : List (String × ℚ) := [("d/1.png", 250), ("d/11.png", 10)]
    (table.map Prod.fst).Nodup ∧ (∀ r ∈ table, PlainPath r.1) ∧
    (∀ r ∈ table, ∀ q ∈ table, (200 : ℚ) < r.2 → grepFinds r.1 q.1 = true → q.1 = r.1) ∧
    (∀ r ∈ table, ∀ q ∈ table, sampleStem r.1 = sampleStem q.1 → r.1 = q.1) := by
  refine ⟨by decide +kernel, ?_, by decide +kernel, by decide +kernel⟩
  unfold PlainPath
  decide +kernel

example : grepWithout (brightList 200 [("d/1.png", (250 : ℚ)), ("d/11.png", 10)]) ["d/1.png", "d/11.png"] = ["d/11.png"] := by decide +kernel

private theorem in_quotes (s : List Char) : inQuotes (s.flatMap (fun c => if c == '"' then ['"', '"'] else [c]) ++ ['"']) = some s := by
  induction s with
  | nil => rfl
  | cons c s ih =>
    by_cases h : c = '"'
    · subst h
      simpa [inQuotes] using ih
    · rw [List.flatMap_cons, if_neg (by simpa using h)]
      simp only [List.cons_append, List.nil_append]
      rw [inQuotes.eq_def]
      split
      · rename_i h1; cases h1
      · rename_i h1; injection h1 with h1 _; exact absurd h1 h
      · rename_i h1; injection h1 with h1 _; exact absurd h1 h
      · rename_i h1; injection h1 with h1 _; exact absurd h1 h
      · rename_i h1
        injection h1 with h1 h2
        subst h1 h2
        rw [ih]
        rfl

/-- C250: a reader of csv files gets every path of the list back, whatever characters it has. -/
theorem C250_read_back (p : String) : csvReads (csvText p).toList = some p.toList := by
  unfold csvText
  split
  · rw [String.toList_ofList]
    exact in_quotes p.toList
  · rename_i h
    have h' : ∀ c ∈ p.toList, c ≠ ',' ∧ c ≠ '"' ∧ c ≠ '\n' ∧ c ≠ '\r' := by
      intro c hc
      simp only [List.any_eq_true, not_exists, not_and, Bool.or_eq_true, beq_iff_eq, not_or] at h
      obtain ⟨⟨⟨a, b⟩, d⟩, e⟩ := h c hc
      exact ⟨a, b, d, e⟩
    rw [csvReads.eq_def]
    split
    · rename_i cs hcs
      exact absurd rfl (h' '"' (by rw [hcs]; simp)).2.1
    · rw [if_neg]
      rintro (h1 | h1 | h1)
      · exact (h' _ h1).1 rfl
      · exact (h' _ h1).2.2.1 rfl
      · exact (h' _ h1).2.2.2 rfl

example : (csvText "a,\"b\".png") = "\"a,\"\"b\"\".png\"" := by decide +kernel

end Oplab.Props
