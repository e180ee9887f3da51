import Mathlib.Tactic.Linarith
import Mathlib.Tactic.Ring
import Mathlib.Tactic.NormNum
import Verif.Model.Sonardyne
import Verif.Spec.Sonardyne
import Verif.Lemmas.Seek
import Verif.Lemmas.Digits

/-! C155-C160: logs of the Sonardyne USBL. -/

namespace Oplab.Props
open Oplab Oplab.Spec

/-! ## C155 the values of a line -/

private theorem split_ne (sep : Char → Bool) : ∀ l, splitAtSep sep l ≠ []
  | [] => by simp [splitAtSep]
  | c :: cs => by
    rw [splitAtSep]; split <;> simp

private theorem split_append (sep : Char → Bool) (c : Char) (hc : sep c = true) (rest : List Char) :
    ∀ f, splitAtSep sep (f ++ c :: rest) = splitAtSep sep f ++ splitAtSep sep rest
  | [] => by simp [splitAtSep, hc]
  | d :: f => by
    have ih := split_append sep c hc rest f
    rw [List.cons_append, splitAtSep, splitAtSep, ih]
    by_cases h : sep d = true
    · rw [if_pos h, if_pos h]; rfl
    · rw [if_neg h, if_neg h]
      obtain ⟨a, as, e⟩ := List.exists_cons_of_ne_nil (split_ne sep f)
      rw [e]; rfl

private theorem split_none (sep : Char → Bool) : ∀ f, (∀ c ∈ f, sep c = false) → splitAtSep sep f = [f]
  | [], _ => rfl
  | d :: f, h => by
    have ih := split_none sep f fun c hc => h c (List.mem_cons_of_mem _ hc)
    have hd : ¬ sep d = true := by rw [h d (by simp)]; simp
    rw [splitAtSep, if_neg hd, ih]; rfl

private theorem join_cons (x : List Char) (r : List (List Char)) :
    commaText (x :: r) = x ++ r.flatMap fun p => ',' :: p := by
  induction r generalizing x with
  | nil => simp [commaText]
  | cons y r ih => rw [commaText, ih]; simp

private theorem join_snoc (a : List (List Char)) (ha : a ≠ []) (x : List Char) :
    commaText (a ++ [x]) = commaText a ++ ',' :: x := by
  obtain ⟨y, r, rfl⟩ := List.exists_cons_of_ne_nil ha
  rw [List.cons_append, join_cons, join_cons]; simp

private theorem join_split : ∀ l, commaText (splitAtSep (· = ',') l) = l
  | [] => rfl
  | c :: cs => by
    have ih := join_split cs
    obtain ⟨a, as, e⟩ := List.exists_cons_of_ne_nil (split_ne (· = ',') cs)
    rw [splitAtSep]
    by_cases h : c = ','
    · subst h
      simp only [decide_true, if_true]
      rw [join_cons, e, List.flatMap_cons, ← ih, e, join_cons]; simp
    · simp only [h, decide_false, Bool.false_eq_true, if_false]
      rw [e] at ih ⊢
      rw [join_cons] at ih ⊢
      simp [ih]

/-- Pieces after the first of a value that can be written begin with a blank. -/
private theorem split_tail_blank : ∀ f, CommaBlank f → ∀ p ∈ (splitAtSep (· = ',') f).tail, p.head? = some ' '
  | [], _ => by simp [splitAtSep]
  | [c], h => by
    have : c ≠ ',' := h
    simp [splitAtSep, this]
  | c :: d :: r, h => by
    have ih := split_tail_blank (d :: r) h.2
    rw [splitAtSep]
    by_cases hc : c = ','
    · simp only [hc, decide_true, if_true, List.tail_cons]
      intro p hp
      have hd : d = ' ' := h.1 hc
      obtain ⟨a, as, e⟩ := List.exists_cons_of_ne_nil (split_ne (· = ',') (d :: r))
      rw [e] at hp ih
      rcases List.mem_cons.1 hp with rfl | hp
      · rw [splitAtSep] at e
        subst hd
        simp at e
        rw [← e.1]; rfl
      · exact ih p hp
    · simp only [hc, decide_false, Bool.false_eq_true, if_false, List.tail_cons]
      exact ih

private theorem split_head : ∀ f : List Char, f.head? ≠ some ' ' →
    ∀ a as, splitAtSep (· = ',') f = a :: as → a.head? ≠ some ' '
  | [], _, a, as, e => by
    simp [splitAtSep] at e; simp [e.1]
  | c :: cs, h, a, as, e => by
    rw [splitAtSep] at e
    by_cases hc : c = ','
    · simp only [hc, decide_true, if_true, List.cons.injEq] at e
      rw [← e.1]; simp
    · simp only [hc, decide_false, Bool.false_eq_true, if_false, List.cons.injEq] at e
      rw [← e.1]; simpa using h

private theorem merge_blank (acc : List (List Char)) : ∀ (ps : List (List Char)) (v : List Char),
    (∀ p ∈ ps, p.head? = some ' ') →
    ps.foldlM mrtMerge (acc ++ [v]) = .ok (acc ++ [v ++ ps.flatMap fun p => ',' :: p])
  | [], v, _ => by simp [pure, Except.pure]
  | p :: ps, v, h => by
    have hp := h p (by simp)
    have ih := merge_blank acc ps (v ++ ',' :: p) fun q hq => h q (List.mem_cons_of_mem _ hq)
    rw [List.foldlM_cons, mrtMerge, if_pos hp]
    simp only [List.getLast?_concat, List.dropLast_concat, bind, Except.bind]
    rw [ih]; simp

private theorem merge_field (acc : List (List Char)) (f : List Char) (h : Writable f) :
    (splitAtSep (· = ',') f).foldlM mrtMerge acc = .ok (acc ++ [f]) := by
  obtain ⟨a, as, e⟩ := List.exists_cons_of_ne_nil (split_ne (· = ',') f)
  have h1 := split_head f h.1 a as e
  have h2 := split_tail_blank f h.2
  have h3 := join_split f
  rw [e] at h2 h3 ⊢
  rw [List.foldlM_cons, mrtMerge, if_neg h1]
  simp only [bind, Except.bind]
  rw [merge_blank acc as a h2, ← h3, join_cons]

/-- C155: the values of a line written from values are those values, also when a value contains commas followed by blanks. -/
theorem C155_values_read_back (fields : List (List Char)) (hne : fields ≠ []) (h : ∀ f ∈ fields, Writable f) :
    mrtFields (commaText fields) = .ok fields := by
  have gen : ∀ (fs : List (List Char)) (x : List Char) (acc : List (List Char)), Writable x → (∀ f ∈ fs, Writable f) →
      (splitAtSep (· = ',') (commaText (x :: fs))).foldlM mrtMerge acc = .ok (acc ++ x :: fs) := by
    intro fs
    induction fs with
    | nil => intro x acc hx _; rw [commaText]; exact merge_field acc x hx
    | cons y fs ih =>
      intro x acc hx hf
      rw [commaText, split_append _ _ (by simp), List.foldlM_append, merge_field acc x hx]
      simp only [bind, Except.bind]
      rw [ih y _ (hf y (by simp)) fun f hq => hf f (List.mem_cons_of_mem _ hq)]
      simp
  obtain ⟨x, xs, rfl⟩ := List.exists_cons_of_ne_nil hne
  have := gen xs x [] (h x (by simp)) fun f hf => h f (List.mem_cons_of_mem _ hf)
  simpa [mrtFields] using this

private theorem merge_text : ∀ (ps : List (List Char)) (acc vs : List (List Char)),
    ps.foldlM mrtMerge acc = .ok vs → commaText vs = commaText (acc ++ ps)
  | [], acc, vs, h => by
    simp [pure, Except.pure] at h; simp [h]
  | p :: ps, acc, vs, h => by
    rw [List.foldlM_cons, mrtMerge] at h
    by_cases hp : p.head? = some ' '
    · rw [if_pos hp] at h
      rcases List.eq_nil_or_concat acc with rfl | ⟨a, v, rfl⟩
      · simp [bind, Except.bind] at h
      · simp only [List.concat_eq_append, List.getLast?_concat, List.dropLast_concat, bind, Except.bind] at h
        rw [merge_text ps _ vs h]
        simp only [List.concat_eq_append, List.append_assoc, List.cons_append, List.nil_append]
        cases a with
        | nil => simp only [List.nil_append]; rw [join_cons, join_cons]; simp
        | cons b a => simp only [List.cons_append]; rw [join_cons, join_cons]; simp
    · rw [if_neg hp] at h
      simp only [bind, Except.bind] at h
      rw [merge_text ps _ vs h]; simp

/-- C155: no character of a line is lost or moved: joining the values by commas gives the line. -/
theorem C155_nothing_lost (line : List Char) (vs : List (List Char)) (h : mrtFields line = .ok vs) : commaText vs = line := by
  have := merge_text _ _ _ h
  rw [List.nil_append, join_split] at this
  exact this

private theorem merge_ok : ∀ (ps acc : List (List Char)), acc ≠ [] → ∃ vs, ps.foldlM mrtMerge acc = .ok vs
  | [], acc, _ => ⟨acc, rfl⟩
  | p :: ps, acc, h => by
    rw [List.foldlM_cons, mrtMerge]
    by_cases hp : p.head? = some ' '
    · rw [if_pos hp]
      obtain ⟨a, v, rfl⟩ : ∃ a v, acc = a ++ [v] := by
        rcases List.eq_nil_or_concat acc with h' | ⟨a, v, h'⟩
        · exact absurd h' h
        · exact ⟨a, v, by rw [h', List.concat_eq_append]⟩
      simp only [List.getLast?_concat, List.dropLast_concat, bind, Except.bind]
      exact merge_ok ps _ (by simp)
    · rw [if_neg hp]
      simp only [bind, Except.bind]
      exact merge_ok ps _ (by simp)

/-- C155: exactly the lines that begin with a blank are rejected. -/
theorem C155_rejected_iff (line : List Char) : (∃ e, mrtFields line = .error e) ↔ line.head? = some ' ' := by
  obtain ⟨a, as, e⟩ := List.exists_cons_of_ne_nil (split_ne (· = ',') line)
  by_cases h : line.head? = some ' '
  · refine ⟨fun _ => h, fun _ => ⟨.indexError, ?_⟩⟩
    cases line with
    | nil => simp at h
    | cons c cs =>
      simp at h
      subst h
      rw [mrtFields, splitAtSep]
      simp [mrtMerge, bind, Except.bind]
  · refine ⟨fun ⟨x, hx⟩ => ?_, fun h' => absurd h' h⟩
    have h1 := split_head line h a as e
    rw [mrtFields, e, List.foldlM_cons, mrtMerge, if_neg h1] at hx
    simp only [bind, Except.bind, List.nil_append] at hx
    obtain ⟨vs, hv⟩ := merge_ok as [a] (by simp)
    rw [hv] at hx; cases hx

example : Writable "beam 1, 2".toList ∧ Writable "".toList ∧
    mrtFields (commaText ["Event".toList, "beam 1, 2".toList, "".toList]) =
      .ok ["Event".toList, "beam 1, 2".toList, "".toList] := by
  refine ⟨?_, ?_, ?_⟩
  · simp [Writable, CommaBlank]
  · simp [Writable, CommaBlank]
  · exact C155_values_read_back _ (by simp) (by simp [Writable, CommaBlank])

example : mrtFields " Event,1".toList = .error .indexError := by
  simp [mrtFields, splitAtSep, mrtMerge, bind, Except.bind]

/-! ## C156 the observations of a log -/

/-- What a line of a log says: an observation or nothing. -/
def obsOf : MrtLine → Option MrtObs
  | .obs o => some o
  | _ => none

/-- What C156 asks for: the observations of a log are those of its lines, in order, and job lines are ignored. -/
def C156_full : Prop := ∀ ls : List MrtLine, mrtRecords ls = .ok (ls.filterMap obsOf)

/-- C156 fails: a job line repeats the previous observation, and at the beginning of the log it stops the parser. -/
theorem C156_job_false : ¬ C156_full := by
  intro h
  have := h [.job]
  simp [mrtRecords, mrtStep, bind, Except.bind, obsOf] at this

private theorem records_run (ls : List MrtLine) (hj : ∀ l ∈ ls, l ≠ .job) : ∀ s : Option MrtObs × List MrtObs,
    ∃ o, ls.foldlM mrtStep s = .ok (o, s.2 ++ ls.filterMap obsOf) := by
  induction ls with
  | nil => intro s; exact ⟨s.1, by simp [pure, Except.pure]⟩
  | cons l ls ih =>
    intro s
    have ih := ih fun x hx => hj x (List.mem_cons_of_mem _ hx)
    rw [List.foldlM_cons]
    cases l with
    | job => exact absurd rfl (hj .job (by simp))
    | unknown =>
      simp only [mrtStep, bind, Except.bind]
      obtain ⟨o, ho⟩ := ih s
      exact ⟨o, by rw [ho]; rfl⟩
    | obs x =>
      simp only [mrtStep, bind, Except.bind]
      obtain ⟨o, ho⟩ := ih (some x, s.2 ++ [x])
      exact ⟨o, by rw [ho]; simp [obsOf]⟩

/-- C156 (partial): right for a log without job lines. Missing: logs with job lines. -/
theorem C156_records_partial (ls : List MrtLine) (hj : ∀ l ∈ ls, l ≠ .job) : mrtRecords ls = .ok (ls.filterMap obsOf) := by
  obtain ⟨o, ho⟩ := records_run ls hj (none, [])
  rw [mrtRecords, ho]; simp [bind, Except.bind]

/-- C156: every job line after an observation adds a copy of that observation. -/
theorem C156_job_repeats (pre post : List MrtLine) (o : MrtObs) (h1 : ∀ l ∈ pre, l ≠ .job) (h2 : ∀ l ∈ post, l ≠ .job) :
    mrtRecords (pre ++ .obs o :: .job :: post) = .ok (pre.filterMap obsOf ++ o :: o :: post.filterMap obsOf) := by
  obtain ⟨x, hx⟩ := records_run pre h1 (none, [])
  rw [mrtRecords, List.foldlM_append, hx]
  simp only [bind, Except.bind, List.foldlM_cons, mrtStep]
  obtain ⟨y, hy⟩ := records_run post h2 (some o, ([] ++ pre.filterMap obsOf ++ [o]) ++ [o])
  rw [hy]; simp

/-- C156: a record of one of the plain types is accepted exactly when it has the number of values of its type, which are kept
in order. -/
theorem C156_plain_record (kind : String) (n : Nat) (hk : mrtArity.lookup kind = some n) (args : List (List Char)) :
    mrtLine (kind.toList :: args) = if args.length = n then .ok (.obs ⟨kind, args⟩) else .error .typeError := by
  simp only [mrtLine, String.ofList_toList, hk]

/-- C156 fails for range records: the record with all its 91 values (or more) is always rejected. -/
theorem C156_usbl_range_rejected (values : List (List Char)) (hn : values.head? = some "USBLRangeObs".toList)
    (hl : 91 ≤ values.length) : mrtLine values = .error .typeError := by
  cases values with
  | nil => simp at hn
  | cons name args =>
    simp only [List.head?_cons, Option.some.injEq] at hn
    subst hn
    have e : mrtArity.lookup "USBLRangeObs" = none := by decide +kernel
    simp only [mrtLine, String.ofList_toList, e, if_true]
    have : usblRangeObs ("USBLRangeObs".toList :: args) = .error .typeError := by
      rw [usblRangeObs]
      simp only []
      split
      · rw [if_neg]
        simp only [List.length_append, List.length_drop, List.length_take, List.length_cons, List.length_nil, usblRangeArity]
        simp only [List.length_cons] at hl
        omega
      · rfl
    rw [this]; rfl

private theorem mapM_error {α β : Type} (f : α → Res β) : ∀ (l : List α) (a : α), a ∈ l → (∃ e, f a = .error e) →
    ∃ e, l.mapM f = .error e
  | [], _, h, _ => by simp at h
  | x :: l, a, h, he => by
    rw [List.mapM_cons]
    cases hx : f x with
    | error e => exact ⟨e, by simp [bind, Except.bind]⟩
    | ok y =>
      rcases List.mem_cons.1 h with rfl | h
      · obtain ⟨e, he⟩ := he; rw [he] at hx; cases hx
      · obtain ⟨e, he⟩ := mapM_error f l a h he
        exact ⟨e, by simp [bind, Except.bind, he]⟩

/-- C156: one complete range record in the log and nothing of the log is read. -/
theorem C156_range_record_stops (l0 : List Char) (header body : List (List Char)) (hh : header.length = 35)
    (line : List Char) (values : List (List Char)) (hl : line ∈ body) (hv : mrtValues line = .ok values)
    (hn : values.head? = some "USBLRangeObs".toList) (h91 : 91 ≤ values.length) :
    ∃ e, parseMrtCsv (l0 :: header ++ body) = .error e := by
  have hb : line ∈ mrtBody (l0 :: header ++ body) := by
    have : (l0 :: header ++ body).drop 36 = body := by
      rw [List.drop_left' (by simp [hh])]
    rw [mrtBody, this]; simp [hl]
  obtain ⟨e, he⟩ := mapM_error (fun line => mrtValues line >>= mrtLine) _ line hb
    ⟨.typeError, by simp only [hv, bind, Except.bind]; exact C156_usbl_range_rejected values hn h91⟩
  exact ⟨e, by simp only [parseMrtCsv, bind, Except.bind] at *; rw [he]⟩

/-- C156: the lines 1 to 35 of the file (its header) do not matter; line 0 and the lines from 36 on do. -/
theorem C156_header_skipped (l0 : List Char) (h1 h2 body : List (List Char)) (e1 : h1.length = 35) (e2 : h2.length = 35) :
    parseMrtCsv (l0 :: h1 ++ body) = parseMrtCsv (l0 :: h2 ++ body) ∧ mrtBody (l0 :: h1 ++ body) = l0 :: body := by
  have d : ∀ h : List (List Char), h.length = 35 → mrtBody (l0 :: h ++ body) = l0 :: body := by
    intro h e
    rw [mrtBody, List.drop_left' (by simp [e])]; simp
  exact ⟨by rw [parseMrtCsv, parseMrtCsv, d h1 e1, d h2 e2], d h1 e1⟩

example : mrtRecords [.obs ⟨"Event", [['a']]⟩, .job, .unknown, .obs ⟨"Time", [['b']]⟩] =
    .ok [⟨"Event", [['a']]⟩, ⟨"Event", [['a']]⟩, ⟨"Time", [['b']]⟩] :=
  C156_job_repeats [] [.unknown, .obs ⟨"Time", [['b']]⟩] _ (by simp) (by simp)

example : ("USBLRangeObs".toList :: List.replicate 90 ['1']).head? = some "USBLRangeObs".toList ∧
    91 ≤ ("USBLRangeObs".toList :: List.replicate 90 ['1']).length := by
  refine ⟨rfl, ?_⟩
  simp

/-! ## C157 the ship position stored with a fix -/

section Closest
variable {K : Type} [LinearOrder K]

private theorem shipSeek_spec (ts : List K) (t : K) (j : Nat) (hj : j < ts.length) :
    j ≤ shipSeek ts t j ∧ shipSeek ts t j < ts.length ∧
    (∀ k s, j ≤ k → k < shipSeek ts t j → ts[k]? = some s → s < t) ∧
    (shipSeek ts t j + 1 < ts.length → ∀ s, ts[shipSeek ts t j]? = some s → t ≤ s) := by
  have h := Seek.seekIdx_spec (ts.length - 1) (fun k => (ts[k]?).any fun s => s < t) ts.length j (by omega)
  rw [show seekIdx (ts.length - 1) (fun k => (ts[k]?).any fun s => s < t) ts.length j = shipSeek ts t j from rfl] at h
  obtain ⟨h1, h2, h3, h4⟩ := h
  refine ⟨h1, by omega, fun k s ha hb hs => ?_, fun hl s hs => ?_⟩
  · have := h3 k ha hb
    simpa [hs] using this
  · have := h4 (by omega)
    simpa [hs] using this

private theorem seek_next (ts : List K) (hs : ts.Pairwise (· ≤ ·)) (t : K) (j : Nat) (hj : j < ts.length)
    (hlt : ∀ k s, k < j → ts[k]? = some s → s < t) :
    ∃ a, ts[shipSeek ts t j]? = some a ∧ NextOrLast ts t a := by
  obtain ⟨h1, h2, h3, h4⟩ := shipSeek_spec ts t j hj
  have before : ∀ k s, k < shipSeek ts t j → ts[k]? = some s → s < t := by
    intro k s hk he
    rcases Nat.lt_or_ge k j with h | h
    · exact hlt k s h he
    · exact h3 k s h hk he
  have mono : ∀ (m n : Nat) (x y : K), m ≤ n → ts[m]? = some x → ts[n]? = some y → x ≤ y := by
    intro m n x y hmn hx hy
    obtain ⟨hm, rfl⟩ := List.getElem?_eq_some_iff.1 hx
    obtain ⟨hn, rfl⟩ := List.getElem?_eq_some_iff.1 hy
    rcases Nat.lt_or_ge m n with h | h
    · exact List.pairwise_iff_getElem.1 hs m n hm hn h
    · have : m = n := by omega
      subst this; exact le_rfl
  have ha : ts[shipSeek ts t j]? = some (ts[shipSeek ts t j]'h2) := List.getElem?_eq_getElem h2
  generalize ts[shipSeek ts t j]'h2 = a at ha
  refine ⟨a, ha, List.mem_of_getElem? ha, ?_⟩
  by_cases hta : t ≤ a
  · left
    refine ⟨hta, fun s hs' hts => ?_⟩
    obtain ⟨k, hk⟩ := List.mem_iff_getElem?.1 hs'
    rcases Nat.lt_or_ge k (shipSeek ts t j) with h | h
    · exact absurd (before k s h hk) (not_lt.2 hts)
    · exact mono _ _ _ _ h ha hk
  · right
    have hlast : ¬ shipSeek ts t j + 1 < ts.length := fun h => hta (h4 h a ha)
    have top : ∀ s ∈ ts, s ≤ a := by
      intro s hs'
      obtain ⟨k, hk⟩ := List.mem_iff_getElem?.1 hs'
      have : k < ts.length := (List.getElem?_eq_some_iff.1 hk).1
      exact mono _ _ _ _ (by omega) hk ha
    exact ⟨fun s hs' => lt_of_le_of_lt (top s hs') (not_le.1 hta), top⟩

theorem closestLoop_spec (sh hd : List K) (hs : sh.Pairwise (· ≤ ·)) (hh : hd.Pairwise (· ≤ ·)) :
    ∀ (au : List K) (i j : Nat), au.Pairwise (· ≤ ·) → i < sh.length → j < hd.length →
      (∀ t ∈ au, ∀ k s, k < i → sh[k]? = some s → s < t) → (∀ t ∈ au, ∀ k s, k < j → hd[k]? = some s → s < t) →
      List.Forall₂ (fun t o => ∃ p a b, o = some p ∧ sh[p.1]? = some a ∧ hd[p.2]? = some b ∧ NextOrLast sh t a ∧
        NextOrLast hd t b) au (closestLoop sh hd i j au)
  | [], _, _, _, _, _, _, _ => by simp [closestLoop]
  | t :: au, i, j, ha, hi, hj, h1, h2 => by
    rw [closestLoop, if_neg (by omega)]
    obtain ⟨a, ea, na⟩ := seek_next sh hs t i hi (h1 t (by simp))
    obtain ⟨b, eb, nb⟩ := seek_next hd hh t j hj (h2 t (by simp))
    obtain ⟨p1, p2, p3, _⟩ := shipSeek_spec sh t i hi
    obtain ⟨q1, q2, q3, _⟩ := shipSeek_spec hd t j hj
    rw [List.pairwise_cons] at ha
    refine .cons ⟨_, a, b, rfl, ea, eb, na, nb⟩ (closestLoop_spec sh hd hs hh au _ _ ha.2 p2 q2 ?_ ?_)
    · intro t' ht' k s hk he
      refine lt_of_lt_of_le ?_ (ha.1 t' ht')
      rcases Nat.lt_or_ge k i with h | h
      · exact h1 t (by simp) k s h he
      · exact p3 k s h hk he
    · intro t' ht' k s hk he
      refine lt_of_lt_of_le ?_ (ha.1 t' ht')
      rcases Nat.lt_or_ge k j with h | h
      · exact h2 t (by simp) k s h he
      · exact q3 k s h hk he

private theorem sortStamps_sorted (ts : List K) : (sortStamps ts).Pairwise (· ≤ ·) := by
  exact List.pairwise_insertionSort _ ts

private theorem sortStamps_perm (ts : List K) : (sortStamps ts).Perm ts := List.perm_insertionSort _ _

private theorem nextOrLast_perm {l l' : List K} (h : l.Perm l') {t a : K} : NextOrLast l t a ↔ NextOrLast l' t a := by
  simp only [NextOrLast, h.mem_iff]

private theorem loop_length (sh hd : List K) : ∀ (au : List K) (i j : Nat), (closestLoop sh hd i j au).length = au.length
  | [], _, _ => rfl
  | t :: au, i, j => by
    rw [closestLoop]
    split
    · simp
    · simp [loop_length]

private theorem findClosest_times (auv ships headings : List K) :
    (findClosest auv ships headings).map Prod.fst = sortStamps auv := by
  rw [findClosest]
  exact List.map_fst_zip (by simp [loop_length])

/-- C157: the positions of the vehicle come out in time order, each exactly once. -/
theorem C157_each_once_in_order (auv ships headings : List K) :
    ((findClosest auv ships headings).map Prod.fst).Perm auv ∧
      ((findClosest auv ships headings).map Prod.fst).Pairwise (· ≤ ·) := by
  rw [findClosest_times]
  exact ⟨sortStamps_perm _, sortStamps_sorted _⟩

/-- C157 (partial): every position gets a ship position and a heading, each the earliest one not before the position, or the
last of the log. Missing: the one closest in time, see `C157_closest_false`. -/
theorem C157_next_or_last_partial (auv ships headings : List K) (h1 : ships ≠ []) (h2 : headings ≠ [])
    (r : K × Option (K × K)) (hr : r ∈ findClosest auv ships headings) :
    ∃ a b, r.2 = some (a, b) ∧ NextOrLast ships r.1 a ∧ NextOrLast headings r.1 b := by
  have l1 : 0 < (sortStamps ships).length := by
    rw [(sortStamps_perm ships).length_eq]; exact List.length_pos_iff.2 h1
  have l2 : 0 < (sortStamps headings).length := by
    rw [(sortStamps_perm headings).length_eq]; exact List.length_pos_iff.2 h2
  have h := closestLoop_spec (sortStamps ships) (sortStamps headings) (sortStamps_sorted _) (sortStamps_sorted _) (sortStamps auv)
    0 0 (sortStamps_sorted _) l1 l2 (by intro _ _ k s hk; omega) (by intro _ _ k s hk; omega)
  rw [findClosest] at hr
  simp only [List.zip_map_right, List.mem_map] at hr
  obtain ⟨⟨t, o⟩, hz, rfl⟩ := hr
  obtain ⟨_, h⟩ := List.forall₂_iff_zip.1 h
  obtain ⟨p, a, b, rfl, ea, eb, na, nb⟩ := h hz
  exact ⟨a, b, by simp [ea, eb], (nextOrLast_perm (sortStamps_perm _)).1 na, (nextOrLast_perm (sortStamps_perm _)).1 nb⟩

/-- C157: without any ship position or heading nothing is stored with the positions. -/
theorem C157_none (auv ships headings : List K) (h : ships = [] ∨ headings = []) (r : K × Option (K × K))
    (hr : r ∈ findClosest auv ships headings) : r.2 = none := by
  have e : closestLoop (sortStamps ships) (sortStamps headings) 0 0 (sortStamps auv) = (sortStamps auv).map fun _ => none := by
    cases sortStamps auv with
    | nil => rfl
    | cons t rest =>
      rw [closestLoop, if_pos]
      · rfl
      · rcases h with rfl | rfl <;> simp [sortStamps]
  rw [findClosest] at hr
  simp only [e, List.zip_map_right, List.mem_map] at hr
  obtain ⟨⟨t, o⟩, ⟨⟨t', o'⟩, -, he⟩, rfl⟩ := hr
  simp at he
  simp [← he.2]

end Closest

/-- What C157 asks for: the ship position stored with a position of the vehicle is one closest in time to it. -/
def C157_full : Prop := ∀ auv ships headings : List ℚ, ships ≠ [] → headings ≠ [] →
  ∀ r ∈ findClosest auv ships headings, ∃ a b, r.2 = some (a, b) ∧ ClosestTo ships r.1 a

/-- C157 fails: with ship positions at 0 s and 10 s, the position at 1 s gets the one of 10 s. -/
theorem C157_closest_false : ¬ C157_full := by
  intro h
  have e : findClosest [1] [0, 10] [(0 : ℚ)] = [(1, some (10, 0))] := by decide +kernel
  obtain ⟨a, b, h1, h2, h3⟩ := h [1] [0, 10] [0] (by simp) (by simp) (1, some (10, 0)) (by rw [e]; simp)
  simp only [Option.some.injEq, Prod.mk.injEq] at h1
  have := h3 0 (by simp)
  rw [← h1.1] at this
  norm_num at this

/-- C157: if ship positions come at most `gap` apart and there is one before and one after the position, the one stored is
at most `gap` later. -/
theorem C157_gap {K : Type} [Field K] [LinearOrder K] [IsStrictOrderedRing K] (ships : List K) (t a gap : K)
    (h : NextOrLast ships t a) (hg : ∀ s ∈ ships, (∃ u ∈ ships, s < u) → ∃ u ∈ ships, s < u ∧ u ≤ s + gap)
    (hb : ∃ s ∈ ships, s ≤ t) (ha : ∃ s ∈ ships, t ≤ s) (h0 : 0 ≤ gap) : t ≤ a ∧ a ≤ t + gap := by
  obtain ⟨hm, h | h⟩ := h
  · refine ⟨h.1, ?_⟩
    obtain ⟨s0, hs0, hle⟩ := hb
    have hne : (ships.filter fun s => decide (s ≤ t)) ≠ [] := by
      intro e
      have : s0 ∈ ships.filter fun s => decide (s ≤ t) := by simp [hs0, hle]
      rw [e] at this; simp at this
    obtain ⟨m, hmf, hmax⟩ : ∃ m ∈ ships.filter (fun s => decide (s ≤ t)), ∀ s ∈ ships.filter (fun s => decide (s ≤ t)), s ≤ m := by
      generalize ships.filter (fun s => decide (s ≤ t)) = l at hne
      clear * - hne
      induction l with
      | nil => exact absurd rfl hne
      | cons x l ih =>
        by_cases hl : l = []
        · subst hl; exact ⟨x, by simp, by simp⟩
        · obtain ⟨m, h1, h2⟩ := ih hl
          rcases le_total m x with h | h
          · refine ⟨x, by simp, fun s hs => ?_⟩
            rcases List.mem_cons.1 hs with rfl | hs
            · exact le_rfl
            · exact le_trans (h2 s hs) h
          · refine ⟨m, List.mem_cons_of_mem _ h1, fun s hs => ?_⟩
            rcases List.mem_cons.1 hs with rfl | hs
            · exact h
            · exact h2 s hs
    simp only [List.mem_filter, decide_eq_true_eq] at hmf hmax
    rcases eq_or_lt_of_le hmf.2 with e | hlt
    · have := h.2 m hmf.1 (le_of_eq e.symm)
      linarith
    · obtain ⟨u, hu, hu1, hu2⟩ := hg m hmf.1 (by obtain ⟨s, hs, hts⟩ := ha; exact ⟨s, hs, lt_of_lt_of_le hlt hts⟩)
      have htu : t ≤ u := by
        by_contra hc
        have := hmax u ⟨hu, le_of_lt (not_le.1 hc)⟩
        linarith
      have := h.2 u hu htu
      linarith
  · obtain ⟨s, hs, hts⟩ := ha
    exact absurd (h.1 s hs) (not_lt.2 hts)

example : findClosest [(7 : ℚ), 1, 25] [20, 0, 10] [5, 6] = [(1, some (10, 5)), (7, some (10, 6)), (25, some (20, 6))] := by
  decide +kernel

/-! ## C158 the values of a fix -/

/-- C158: distance and depth of a fix: the depth is minus the altitude, and the distance to the ship is the hypotenuse of
the horizontal distance and the depth. -/
theorem C158_distance (inv dir) (factor offset tz toff lat0 lon0 stamp lat lon altitude latShip lonShip : ℝ) :
    let f := mrtFix inv dir factor offset tz toff lat0 lon0 stamp lat lon altitude latShip lonShip
    f.depth = -altitude ∧ 0 ≤ f.distance ∧
      f.distance ^ 2 = (inv lat lon latShip lonShip).1 ^ 2 + altitude ^ 2 ∧ |altitude| ≤ f.distance := by
  intro f
  have e : f.distance = Real.sqrt ((inv lat lon latShip lonShip).1 * (inv lat lon latShip lonShip).1 + -altitude * -altitude) := rfl
  have hn : 0 ≤ (inv lat lon latShip lonShip).1 * (inv lat lon latShip lonShip).1 + -altitude * -altitude :=
    add_nonneg (mul_self_nonneg _) (mul_self_nonneg _)
  refine ⟨rfl, by rw [e]; exact Real.sqrt_nonneg _, by rw [e, Real.sq_sqrt hn]; ring, ?_⟩
  rw [e]
  apply Real.le_sqrt_of_sq_le
  rw [sq_abs]
  nlinarith [mul_self_nonneg (inv lat lon latShip lonShip).1]

/-- C158: northings and eastings of the vehicle and of the ship are the north and east components of their distance and
bearing from the origin of the mission: they lie at that distance, and along the bearing. -/
theorem C158_north_east (inv dir) (factor offset tz toff lat0 lon0 stamp lat lon altitude latShip lonShip : ℝ) :
    let f := mrtFix inv dir factor offset tz toff lat0 lon0 stamp lat lon altitude latShip lonShip
    (∀ (d b n e : ℝ), ((d, b) = inv lat lon lat0 lon0 ∧ (n, e) = (f.northings, f.eastings)) ∨
        ((d, b) = inv latShip lonShip lat0 lon0 ∧ (n, e) = (f.northingsShip, f.eastingsShip)) →
      n ^ 2 + e ^ 2 = d ^ 2 ∧ n * Real.sin (b * Real.pi / 180) = e * Real.cos (b * Real.pi / 180) ∧
      (b = 0 → n = d ∧ e = 0) ∧ (b = 90 → n = 0 ∧ e = d)) := by
  intro f d b n e h
  have key : n = Real.cos (b * Real.pi / 180) * d ∧ e = Real.sin (b * Real.pi / 180) * d := by
    rcases h with ⟨h1, h2⟩ | ⟨h1, h2⟩
    · simp only [Prod.mk.injEq] at h2
      have e1 : f.northings = Real.cos ((inv lat lon lat0 lon0).2 * Real.pi / 180) * (inv lat lon lat0 lon0).1 := rfl
      have e2 : f.eastings = Real.sin ((inv lat lon lat0 lon0).2 * Real.pi / 180) * (inv lat lon lat0 lon0).1 := rfl
      rw [h2.1, h2.2, e1, e2, ← h1]; exact ⟨rfl, rfl⟩
    · simp only [Prod.mk.injEq] at h2
      have e1 : f.northingsShip = Real.cos ((inv latShip lonShip lat0 lon0).2 * Real.pi / 180) * (inv latShip lonShip lat0 lon0).1 := rfl
      have e2 : f.eastingsShip = Real.sin ((inv latShip lonShip lat0 lon0).2 * Real.pi / 180) * (inv latShip lonShip lat0 lon0).1 := rfl
      rw [h2.1, h2.2, e1, e2, ← h1]; exact ⟨rfl, rfl⟩
  obtain ⟨rfl, rfl⟩ := key
  refine ⟨?_, by ring, ?_, ?_⟩
  · have := Real.cos_sq_add_sin_sq (b * Real.pi / 180)
    linear_combination d ^ 2 * this
  · rintro rfl; simp
  · rintro rfl
    have : (90 : ℝ) * Real.pi / 180 = Real.pi / 2 := by ring
    rw [this]; simp

/-- C158: the standard deviation grows with the distance to the ship from the configured minimum, and those of latitude and
longitude are the distances to the point that far to the north-east, never negative. -/
theorem C158_std (inv dir) (factor offset tz toff lat0 lon0 stamp lat lon altitude latShip lonShip : ℝ) (hf : 0 ≤ factor) :
    let f := mrtFix inv dir factor offset tz toff lat0 lon0 stamp lat lon altitude latShip lonShip
    f.std = factor * f.distance + offset ∧ offset ≤ f.std ∧ 0 ≤ f.latitudeStd ∧ 0 ≤ f.longitudeStd ∧
      f.latitudeStd = |(|lat|) - (dir |lat| |lon| f.std f.std).1| ∧
      f.longitudeStd = |(|lon|) - (dir |lat| |lon| f.std f.std).2| := by
  intro f
  have hd := (C158_distance inv dir factor offset tz toff lat0 lon0 stamp lat lon altitude latShip lonShip).2.1
  have e : f.std = factor * f.distance + offset := rfl
  refine ⟨e, ?_, abs_nonneg _, abs_nonneg _, rfl, rfl⟩
  rw [e]
  have := mul_nonneg hf hd
  exact le_add_of_nonneg_left this

example : let f := mrtFix (fun _ _ _ _ => (30, 0)) (fun _ _ _ _ => (1, 1)) 2 5 0 0 50 (-1) 100 50 (-1) (-40) 50 (-1)
    f.distance = 50 ∧ f.std = 105 ∧ f.northings = 30 ∧ f.eastings = 0 := by
  intro f
  have hd : f.distance = 50 := by
    have : f.distance = Real.sqrt (30 * 30 + -(-40) * -(-40)) := rfl
    rw [this, show (30 * 30 + -(-40) * -(-40) : ℝ) = 50 ^ 2 by norm_num]
    exact Real.sqrt_sq (by norm_num)
  refine ⟨hd, ?_, ?_, ?_⟩
  · have : f.std = 2 * f.distance + 5 := rfl
    rw [this, hd]; norm_num
  · have : f.northings = Real.cos (0 * Real.pi / 180) * 30 := rfl
    rw [this]; simp
  · have : f.eastings = Real.sin (0 * Real.pi / 180) * 30 := rfl
    rw [this]; simp

/-! ## C159 the time of a fix -/

/-- What C159 asks for: with any of the formats, the time of a fix is the UTC time of the clock reading, whatever the time
zone of the computer. -/
def C159_full : Prop := ∀ here zone correction civil : ℚ,
  mrtTime here zone correction civil = utcOf zone correction civil ∧ ggaTime here zone correction civil = utcOf zone correction civil

/-- C159 fails, even on a computer set to UTC: the GGA formats subtract the correction that the MRT format adds. -/
theorem C159_false : ¬ C159_full := by
  intro h
  have := (h 0 0 1 0).2
  norm_num [ggaTime, utcOf] at this

section Times
variable {K : Type} [Field K] [LinearOrder K] [IsStrictOrderedRing K]

/-- C159 (partial) for MRT logs: right exactly on a computer set to UTC. Missing: other computers. -/
theorem C159_mrt_iff_partial (here zone correction civil : K) :
    mrtTime here zone correction civil = utcOf zone correction civil ↔ here = 0 := by
  simp only [mrtTime, utcOf]
  constructor
  · intro h; linarith
  · rintro rfl; ring

/-- C159 (partial) for GGA logs: right exactly when twice the correction cancels the zone of the computer, so on a computer
set to UTC only without a correction. Missing: other settings. -/
theorem C159_gga_iff_partial (here zone correction civil : K) :
    ggaTime here zone correction civil = utcOf zone correction civil ↔ here * 3600 + 2 * correction = 0 := by
  simp only [ggaTime, utcOf]
  constructor
  · intro h; linarith
  · intro h; linarith

omit [LinearOrder K] [IsStrictOrderedRing K] in
/-- C159: two fixes of a log keep their distance in time, in both formats. -/
theorem C159_differences (here zone correction a b : K) :
    mrtTime here zone correction a - mrtTime here zone correction b = a - b ∧
      ggaTime here zone correction a - ggaTime here zone correction b = a - b := by
  simp only [mrtTime, ggaTime]
  exact ⟨by ring, by ring⟩

end Times

/-- C159: the time written in a fix is the one computed from the record. -/
theorem C159_fix_time (inv dir) (factor offset tz toff lat0 lon0 here civil lat lon altitude latShip lonShip : ℝ) :
    (mrtFix inv dir factor offset tz toff lat0 lon0 (civil - here * 3600) lat lon altitude latShip lonShip).t =
      mrtTime here tz toff civil := rfl

example : mrtTime (0 : ℚ) 9 2 36000 = 3602 ∧ ggaTime (0 : ℚ) 9 2 36000 = 3598 ∧ utcOf (9 : ℚ) 2 36000 = 3602 := by
  norm_num [mrtTime, ggaTime, utcOf]

/-! ## C160 rows of the GGA formats -/

section Gga
variable {K : Type} [Field K] (toFloat : List Char → Res K) (toInt : List Char → Res Int)

private theorem rows_acc (f : GgaFormat) (fieldId : Int) (stem : List Char) : ∀ (rows : List (List (List Char))) (acc : List (GgaObs K)),
    ggaRows toFloat toInt f fieldId stem acc rows = acc ++ rows.flatMap fun d => ggaRows toFloat toInt f fieldId stem [] [d]
  | [], acc => by simp [ggaRows]
  | d :: rows, acc => by
    have ih := rows_acc f fieldId stem rows
    rw [List.flatMap_cons, ggaRows]
    rw [show ggaRows toFloat toInt f fieldId stem [] [d] = (match ggaRow toFloat toInt f fieldId stem d with
      | .ok (some o) => [o] | .ok none => [] | .error _ => []) by
        rw [ggaRows]; cases ggaRow toFloat toInt f fieldId stem d with
        | error e => rfl
        | ok o => cases o <;> rfl]
    cases ggaRow toFloat toInt f fieldId stem d with
    | error e => simp [ih acc]
    | ok o => cases o with
      | none => simp [ih acc]
      | some o => simp [ih (acc ++ [o])]

/-- C160: the rows of a file are read independently of each other: an unreadable row, or one of another beacon, loses only itself. -/
theorem C160_rows_independent (f : GgaFormat) (fieldId : Int) (stem : List Char) (lines : List (List Char)) :
    parseGga toFloat toInt f fieldId (stem, lines) =
      lines.flatMap fun l => parseGga toFloat toInt f fieldId (stem, [l]) := by
  simp only [parseGga, List.map_cons, List.map_nil]
  rw [rows_acc, List.nil_append, List.flatMap_map]

private theorem split_sepText (sep : Char → Bool) : ∀ (fields : List (List Char)) (seps : List Char),
    fields.length = seps.length + 1 → (∀ f ∈ fields, ∀ c ∈ f, sep c = false) → (∀ s ∈ seps, sep s = true) →
    splitAtSep sep (sepText fields seps) = fields
  | [], _, h, _, _ => by simp at h
  | [x], [], _, hf, _ => by rw [sepText]; exact split_none sep x (hf x (by simp))
  | x :: y :: r, [], h, _, _ => by simp at h
  | [x], s :: ss, h, _, _ => by simp at h
  | x :: y :: r, s :: ss, h, hf, hs => by
    rw [sepText, split_append sep s (hs s (by simp)), split_none sep x (hf x (by simp)),
      split_sepText sep (y :: r) ss (by simpa using h) (fun f h' => hf f (List.mem_cons_of_mem _ h'))
        (fun c h' => hs c (List.mem_cons_of_mem _ h'))]
    rfl

/-- Degrees and minutes with the sign of the hemisphere. -/
def hemisphereDegrees (deg : Nat) (minutes : K) (negative : Bool) : K :=
  if negative then -((deg : K) + minutes / 60) else (deg : K) + minutes / 60

private theorem degrees_eq (w deg : Nat) (minutes : K) (m : List Char) (neg : Prop) [Decidable neg]
    (h1 : toFloat (padDigits w deg) = .ok (deg : K)) (h2 : toFloat m = .ok minutes) :
    ggaDegrees toFloat w (padDigits w deg ++ m) (if neg then -1 else 1) = .ok (hemisphereDegrees deg minutes (decide neg)) := by
  have e1 : (padDigits w deg ++ m).take w = padDigits w deg := by
    rw [List.take_append_of_le_length (by rw [padDigits_length]), List.take_of_length_le (by rw [padDigits_length])]
  have e2 : (padDigits w deg ++ m).drop w = m := List.drop_left' (padDigits_length w deg)
  simp only [ggaDegrees, e1, e2, h1, h2, bind, Except.bind, hemisphereDegrees]
  by_cases h : neg <;> simp [h]

/-- C160: a row of the wanted beacon, written with any of the separators, gives one observation with the latitude and
longitude it states, signed by hemisphere, and the time text made from it. The four formats differ in the columns. -/
theorem C160_row_read (f : GgaFormat) (fieldId : Int) (stem : List Char) (fields : List (List Char)) (seps : List Char)
    (hlen : fields.length = seps.length + 1) (hclean : ∀ x ∈ fields, ∀ c ∈ x, ggaSep c = false) (hseps : ∀ s ∈ seps, ggaSep s = true)
    (idText ns ew latMin lonMin date time : List Char) (latDeg lonDeg : Nat) (latMinutes lonMinutes : K)
    (hid : fields[f.id]? = some idText) (hidv : toInt idText = .ok fieldId)
    (hlat : fields[f.lat]? = some (padDigits 2 latDeg ++ latMin)) (hns : fields[f.lat + 1]? = some ns)
    (hlon : fields[f.lat + 2]? = some (padDigits 3 lonDeg ++ lonMin)) (hew : fields[f.lat + 3]? = some ew)
    (hdate : fields[0]? = some date) (htime : fields[1]? = some time)
    (h1 : toFloat (padDigits 2 latDeg) = .ok (latDeg : K)) (h2 : toFloat latMin = .ok latMinutes)
    (h3 : toFloat (padDigits 3 lonDeg) = .ok (lonDeg : K)) (h4 : toFloat lonMin = .ok lonMinutes) :
    parseGga toFloat toInt f fieldId (stem, [sepText fields seps]) =
      [⟨hemisphereDegrees latDeg latMinutes (ns = ['S']), hemisphereDegrees lonDeg lonMinutes (ew = ['W']),
        ggaTimeText f stem date time⟩] := by
  have e : ggaRow toFloat toInt f fieldId stem fields = .ok (some ⟨hemisphereDegrees latDeg latMinutes (ns = ['S']),
      hemisphereDegrees lonDeg lonMinutes (ew = ['W']), ggaTimeText f stem date time⟩) := by
    have g : ∀ (i : Nat) (x : List Char), fields[i]? = some x → pyGet fields (i : Int) = .ok x := Seek.pyGet_nat fields
    have g0 : pyGet fields 0 = .ok date := g 0 date hdate
    have g1 : pyGet fields 1 = .ok time := g 1 time htime
    simp only [ggaRow, g _ _ hid, g _ _ hlat, g _ _ hns, g _ _ hlon, g _ _ hew, g0, g1, hidv, bind, Except.bind,
      ne_eq, not_true_eq_false, if_false, degrees_eq toFloat 2 latDeg latMinutes latMin _ h1 h2,
      degrees_eq toFloat 3 lonDeg lonMinutes lonMin _ h3 h4]
  simp only [parseGga, List.map_cons, List.map_nil, split_sepText ggaSep fields seps hlen hclean hseps, ggaRows, e,
    List.nil_append]

/-- C160: a row of another beacon gives nothing. -/
theorem C160_other_beacon (f : GgaFormat) (fieldId other : Int) (hne : other ≠ fieldId) (stem : List Char)
    (fields : List (List Char)) (seps : List Char) (hlen : fields.length = seps.length + 1)
    (hclean : ∀ x ∈ fields, ∀ c ∈ x, ggaSep c = false) (hseps : ∀ s ∈ seps, ggaSep s = true)
    (idText : List Char) (hid : fields[f.id]? = some idText) (hidv : toInt idText = .ok other) :
    parseGga toFloat toInt f fieldId (stem, [sepText fields seps]) = [] := by
  have e : ggaRow toFloat toInt f fieldId stem fields = .ok none := by
    simp only [ggaRow, Seek.pyGet_nat fields _ _ hid, hidv, bind, Except.bind, ne_eq, hne, not_false_iff, if_true]
  simp only [parseGga, List.map_cons, List.map_nil, split_sepText ggaSep fields seps hlen hclean hseps, ggaRows, e]

/-- C160: a row too short to hold the beacon's number gives nothing. -/
theorem C160_short_row (f : GgaFormat) (fieldId : Int) (stem line : List Char) (h : (splitAtSep ggaSep line).length ≤ f.id) :
    parseGga toFloat toInt f fieldId (stem, [line]) = [] := by
  have : pyGet (splitAtSep ggaSep line) (f.id : Int) = .error .indexError := by
    have h0 : ¬ ((f.id : Int) < 0) := by omega
    simp only [pyGet, if_neg h0, Int.toNat_natCast, List.getElem?_eq_none h]
  simp only [parseGga, List.map_cons, List.map_nil, ggaRows, ggaRow, this, bind, Except.bind]

/-- C160: the columns of the four formats. -/
theorem C160_columns : (gga1.id, gga1.lat) = (9, 5) ∧ (gga2.id, gga2.lat) = (19, 8) ∧ (gga3.id, gga3.lat) = (20, 8) ∧
    (gga4.id, gga4.lat) = (17, 5) := ⟨rfl, rfl, rfl, rfl⟩

/-- C160: in the formats with the date in the row, a date `YYYY?MM?DD` and a time `hh?mm?ss?fraction` become
`YYYY-MM-DD hh:mm:ss.fraction`, whatever the characters between. -/
theorem C160_time_from_row (f : GgaFormat) (hf : f.fileDate = false) (stem Y M D h m s frac : List Char) (a b c d e : Char)
    (hY : Y.length = 4) (hM : M.length = 2) (hD : D.length = 2) (hh : h.length = 2) (hm : m.length = 2) (hs : s.length = 2) :
    ggaTimeText f stem (Y ++ [a] ++ M ++ [b] ++ D) (h ++ [c] ++ m ++ [d] ++ s ++ [e] ++ frac) =
      Y ++ ['-'] ++ M ++ ['-'] ++ D ++ [' '] ++ h ++ [':'] ++ m ++ [':'] ++ s ++ ['.'] ++ frac := by
  match Y, hY, M, hM, D, hD, h, hh, m, hm, s, hs with
  | [_, _, _, _], _, [_, _], _, [_, _], _, [_, _], _, [_, _], _, [_, _], _ => simp [ggaTimeText, hf, slice]

/-- C160: in the formats without a date in the row, it is taken from the first eight digits of the name of the file. -/
theorem C160_time_from_file (f : GgaFormat) (hf : f.fileDate = true) (Y M D rest date time : List Char)
    (hY : Y.length = 4) (hM : M.length = 2) (hD : D.length = 2) :
    ggaTimeText f (Y ++ M ++ D ++ rest) date time = Y ++ ['-'] ++ M ++ ['-'] ++ D ++ [' '] ++ time := by
  match Y, hY, M, hM, D, hD with
  | [_, _, _, _], _, [_, _], _, [_, _], _ => simp [ggaTimeText, hf, slice]

/-- C160 (partial): when all times of the kept rows can be read, there is one fix per kept row, in the order of the files
and rows, with its time and position. Missing: rows whose time cannot be read, see `C160_unreadable_time_stops`. -/
theorem C160_fixes_partial (strptime : List Char → Option K) (here tz toff : K) (f : GgaFormat) (fieldId : Int)
    (files : List (List Char × List (List Char))) (civil : GgaObs K → K)
    (h : ∀ o ∈ files.flatMap (parseGga toFloat toInt f fieldId), strptime o.time = some (civil o)) :
    parseSonardyneGga toFloat toInt strptime here tz toff f fieldId files =
      .ok ((files.flatMap (parseGga toFloat toInt f fieldId)).map fun o => (ggaTime here tz toff (civil o), o.lat, o.lon)) := by
  rw [parseSonardyneGga]
  generalize files.flatMap (parseGga toFloat toInt f fieldId) = os at h
  induction os with
  | nil => rfl
  | cons o os ih =>
    simp only [ggaFixes, h o (by simp), ih fun x hx => h x (List.mem_cons_of_mem _ hx), bind, Except.bind, List.map_cons]

/-- C160 fails for times: one kept row whose time cannot be read and nothing of the dive is read. -/
theorem C160_unreadable_time_stops (strptime : List Char → Option K) (here tz toff : K) (f : GgaFormat) (fieldId : Int)
    (files : List (List Char × List (List Char))) (o : GgaObs K) (ho : o ∈ files.flatMap (parseGga toFloat toInt f fieldId))
    (h : strptime o.time = none) :
    parseSonardyneGga toFloat toInt strptime here tz toff f fieldId files = .error .valueError := by
  rw [parseSonardyneGga]
  generalize files.flatMap (parseGga toFloat toInt f fieldId) = os at ho
  induction os with
  | nil => simp at ho
  | cons x os ih =>
    rw [ggaFixes]
    cases hx : strptime x.time with
    | none => rfl
    | some c =>
      rcases List.mem_cons.1 ho with rfl | ho
      · rw [h] at hx; cases hx
      · simp only [ih ho, bind, Except.bind]

end Gga

/-- A row of the first format: 50°30' S, 1°06' W, beacon 7. -/
private def sampleRow : List (List Char) :=
  ["$PSIMSSB".toList, "12:00:00.5".toList, "x".toList, "x".toList, "GPGGA".toList, "5030.0".toList, "S".toList,
    "00106.0".toList, "W".toList, "7".toList]

private def sampleFloat (t : List Char) : Res ℚ :=
  if t = "50".toList then .ok 50 else if t = "30.0".toList then .ok 30
  else if t = "001".toList then .ok 1 else if t = "06.0".toList then .ok 6 else .error .valueError

private def sampleInt (t : List Char) : Res Int := (pyInt t).map fun n => (n : Int)

example : parseGga sampleFloat sampleInt gga1 7
    ("20200131_GGAlsq".toList, ["garbage".toList, sepText sampleRow (List.replicate 9 ',')]) =
    [⟨-(101 / 2), -(11 / 10), "2020-01-31 12:00:00.5".toList⟩] := by
  decide +kernel

/-- C160 is false: a file whose name has no date takes the fixes of all other files with it. -/
theorem C160_false :
    ¬ ∀ (strptime : List Char → Option ℚ) (f : GgaFormat) (files : List (List Char × List (List Char))),
      ∃ fixes, parseSonardyneGga sampleFloat sampleInt strptime 0 0 0 f 7 files = .ok fixes ∧
        ∀ o ∈ files.flatMap (parseGga sampleFloat sampleInt f 7), ∀ t, strptime o.time = some t → (ggaTime 0 0 0 t, o.lat, o.lon) ∈ fixes := by
  intro h
  obtain ⟨fixes, h1, -⟩ := h (fun l => if l = "2020-01-31 12:00:00.5".toList then some 0 else none) gga1
    [("20200131_GGAlsq".toList, [sepText sampleRow (List.replicate 9 ',')]), ("copy_of_GGAlsq".toList, [sepText sampleRow (List.replicate 9 ',')])]
  have hp : parseGga sampleFloat sampleInt gga1 7 ("copy_of_GGAlsq".toList, [sepText sampleRow (List.replicate 9 ',')]) =
      [⟨-(101 / 2), -(11 / 10), "copy-_o-f_ 12:00:00.5".toList⟩] := by decide +kernel
  rw [C160_unreadable_time_stops (o := ⟨-(101 / 2), -(11 / 10), "copy-_o-f_ 12:00:00.5".toList⟩)] at h1
  · cases h1
  · refine List.mem_flatMap.mpr ⟨("copy_of_GGAlsq".toList, [sepText sampleRow (List.replicate 9 ',')]), by simp, ?_⟩
    rw [hp]; exact List.mem_singleton.mpr rfl
  · decide +kernel

end Oplab.Props
