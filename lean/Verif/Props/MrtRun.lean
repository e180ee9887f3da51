import Verif.Model.MrtRun
import Verif.Spec.MrtRun
import Verif.Props.Sonardyne
import Verif.Lemmas.Split

/-! C233: from the folder of an MRT log to the USBL fixes. -/

namespace Oplab.Props
open Oplab Oplab.Spec

/-! ## Lines -/

private theorem commaText_last : ∀ (init : List (List Char)) (l x : List Char), commaText (init ++ [l]) ++ x = commaText (init ++ [l ++ x])
  | [], l, x => by simp [commaText]
  | [a], l, x => by simp [commaText]
  | a :: b :: r, l, x => by
    have := commaText_last (b :: r) l x
    simp only [List.cons_append] at this ⊢
    rw [commaText, commaText, ← this]; simp

private theorem commaBlank_newline : ∀ f : List Char, CommaBlank f → CommaBlank (f ++ ['\n'])
  | [], _ => by simp [CommaBlank]
  | [c], h => by simp only [CommaBlank] at h; simp [CommaBlank, h]
  | c :: d :: r, h => by
    simp only [CommaBlank] at h
    have := commaBlank_newline (d :: r) h.2
    simp only [List.cons_append] at this ⊢
    rw [CommaBlank]
    exact ⟨h.1, this⟩

private theorem writable_newline (f : List Char) (h : Writable f) : Writable (f ++ ['\n']) := by
  refine ⟨?_, commaBlank_newline f h.2⟩
  cases f with
  | nil => simp
  | cons c cs => simpa using h.1

private theorem strip_newline (s : List Char) (h1 : ∀ c ∈ s.head?, isBlank c = false) (h2 : ∀ c ∈ s.getLast?, isBlank c = false) :
    stripBlanks (s ++ ['\n']) = s := by
  cases s with
  | nil => decide
  | cons c cs => exact stripBlanks_line _ (by simp) h1 h2

/-- A text without blanks at its ends. -/
def Trimmed (s : List Char) : Prop := (∀ c ∈ s.head?, isBlank c = false) ∧ ∀ c ∈ s.getLast?, isBlank c = false

private theorem line_values (init : List (List Char)) (l : List Char) (hw : ∀ f ∈ init ++ [l], Writable f) (hl : Trimmed l) :
    mrtValues (commaText (init ++ [l]) ++ ['\n']) = .ok (init ++ [l]) := by
  rw [commaText_last, mrtValues, C155_values_read_back _ (by simp)]
  · simp only [bind, Except.bind, List.getLast?_concat, List.dropLast_concat, strip_newline l hl.1 hl.2]
  · intro f hf
    rw [List.mem_append, List.mem_singleton] at hf
    rcases hf with hf | rfl
    · exact hw f (by simp [hf])
    · exact writable_newline _ (hw l (by simp))

/-- What is asked of the text of an entry: its values can be carried by a line, the last one has no blanks at its ends, numbers
can be read (`num`), and so can times (`clock`); a record of another type is not a job, time or range record, and if its type is known
it has the number of values of the type. -/
def MrtReadable (num : List Char → Res ℝ) (clock : List Char → Option ℝ) (e : MrtEntry) : Prop :=
  (∀ f ∈ e.name :: e.values, Writable f) ∧ Trimmed ((e.name :: e.values).getLast (by simp)) ∧
  match e with
  | .position _ t lat lon alt _ => (clock t).isSome ∧ num lat.text = .ok lat.value ∧ num lon.text = .ok lon.value ∧
      num alt.text = .ok alt.value
  | .attitude _ t _ _ heading _ => (clock t).isSome ∧ num heading.text = .ok heading.value
  | .other name vs => String.ofList name ∉ ["LatLongObs", "PitchRollHeadingObs", "JobData", "Time", "USBLRangeObs"] ∧
      ∀ n, mrtArity.lookup (String.ofList name) = some n → vs.length = n

private def entryLine (e : MrtEntry) : MrtLine :=
  match e with
  | .position .. => .obs ⟨"LatLongObs", e.values⟩
  | .attitude .. => .obs ⟨"PitchRollHeadingObs", e.values⟩
  | .other name vs => if (mrtArity.lookup (String.ofList name)).isSome then .obs ⟨String.ofList name, vs⟩ else .unknown

private theorem entry_line (num clock) (e : MrtEntry) (h : MrtReadable num clock e) : (mrtValues e.line >>= mrtLine) = .ok (entryLine e) := by
  obtain ⟨hw, ht, h⟩ := h
  have hv : mrtValues e.line = .ok (e.name :: e.values) := by
    have e0 : e.name :: e.values = (e.name :: e.values).dropLast ++ [(e.name :: e.values).getLast (by simp)] :=
      (List.dropLast_append_getLast _).symm
    rw [MrtEntry.line]
    generalize hg : (e.name :: e.values).getLast (by simp) = l at *
    generalize hi : (e.name :: e.values).dropLast = init at *
    rw [e0] at hw ⊢
    exact line_values init l hw ht
  rw [hv]
  simp only [bind, Except.bind]
  cases e with
  | position s t lat lon alt r =>
    have hk : mrtArity.lookup "LatLongObs" = some 15 := by decide +kernel
    have e1 := C156_plain_record "LatLongObs" 15 hk (MrtEntry.position s t lat lon alt r).values
    rw [if_pos (show (MrtEntry.position s t lat lon alt r).values.length = 15 from rfl)] at e1
    exact e1
  | attitude s t p q hd r =>
    have hk : mrtArity.lookup "PitchRollHeadingObs" = some 15 := by decide +kernel
    have e1 := C156_plain_record "PitchRollHeadingObs" 15 hk (MrtEntry.attitude s t p q hd r).values
    rw [if_pos (show (MrtEntry.attitude s t p q hd r).values.length = 15 from rfl)] at e1
    exact e1
  | other name vs =>
    obtain ⟨h1, h2⟩ := h
    simp only [List.mem_cons, List.not_mem_nil, or_false, not_or] at h1
    obtain ⟨-, -, h3, h4, h5⟩ := h1
    show mrtLine (name :: vs) = .ok (if (mrtArity.lookup (String.ofList name)).isSome then .obs ⟨String.ofList name, vs⟩ else .unknown)
    rw [mrtLine]
    cases hl : mrtArity.lookup (String.ofList name) with
    | some n => rw [Option.isSome_some, if_pos rfl]; dsimp only; rw [if_pos (h2 n hl)]
    | none => dsimp only [Option.isSome_none]; rw [if_neg h5, if_neg h4, if_neg h3]; rfl

private theorem mapM_each {A B : Type} (f : A → Res B) (g : A → B) : ∀ l : List A, (∀ a ∈ l, f a = .ok (g a)) → l.mapM f = .ok (l.map g)
  | [], _ => rfl
  | a :: l, h => by
    rw [List.mapM_cons, h a (by simp), mapM_each f g l fun x hx => h x (by simp [hx])]
    rfl

private theorem file_read (num clock) (f : MrtLogFile) (hh : f.header.length = 35) (h : ∀ e ∈ f.entries, MrtReadable num clock e) :
    parseMrtCsv f.lines = .ok (f.entries.filterMap fun e => obsOf (entryLine e)) := by
  have hb : mrtBody f.lines = f.entries.map MrtEntry.line := by
    have : (f.first.line :: f.header ++ f.body.map MrtEntry.line).drop 36 = f.body.map MrtEntry.line := by
      rw [List.drop_left' (by simp [hh])]
    rw [mrtBody, MrtLogFile.lines, this]; simp [MrtLogFile.entries]
  have hm : (mrtBody f.lines).mapM (fun line => mrtValues line >>= mrtLine) = .ok (f.entries.map entryLine) := by
    rw [hb, List.mapM_map]
    exact mapM_each _ _ _ fun e he => entry_line num clock e (h e he)
  rw [parseMrtCsv, hm]
  simp only [bind, Except.bind]
  rw [C156_records_partial, List.filterMap_map]
  · rfl
  · intro l hl
    obtain ⟨e, he, rfl⟩ := List.mem_map.1 hl
    have := h e he
    cases e <;> simp only [entryLine, ne_eq, reduceCtorEq, not_false_eq_true]
    split <;> simp

/-! ## Selection -/

private def isPos (src : List Char) : MrtEntry → Bool
  | .position s .. => s = src
  | _ => false

private def isAtt (src : List Char) : MrtEntry → Bool
  | .attitude s .. => s = src
  | _ => false

private def entryObs (e : MrtEntry) : MrtObs := ⟨String.ofList e.name, e.values⟩

private noncomputable def entryTime (clock : List Char → Option ℝ) : MrtEntry → ℝ
  | .position _ t .. => (clock t).getD 0
  | .attitude _ t .. => (clock t).getD 0
  | .other .. => 0

private noncomputable def entryPoint (clock : List Char → Option ℝ) (e : MrtEntry) : MrtPoint :=
  match e with
  | .position _ _ lat lon alt _ => ⟨entryTime clock e, lat.value, lon.value, alt.value⟩
  | _ => ⟨0, 0, 0, 0⟩

private noncomputable def entryHeading (clock : List Char → Option ℝ) (e : MrtEntry) : ℝ × ℝ :=
  match e with
  | .attitude _ _ _ _ hd _ => (entryTime clock e, hd.value)
  | _ => (0, 0)

private theorem select_pos (num clock) (src : List Char) : ∀ es : List MrtEntry, (∀ e ∈ es, MrtReadable num clock e) →
    mrtSelect "LatLongObs" src (es.filterMap fun e => obsOf (entryLine e)) = (es.filter (isPos src)).map entryObs
  | [], _ => rfl
  | e :: es, h => by
    have ih := select_pos num clock src es fun x hx => h x (by simp [hx])
    rw [mrtSelect] at ih ⊢
    have he := (h e (by simp)).2.2
    cases e with
    | position s t lat lon alt r =>
      rw [List.filterMap_cons_some (f := fun e => obsOf (entryLine e)) (b := MrtObs.mk "LatLongObs" (MrtEntry.position s t lat lon alt r).values) rfl]
      have e1 : (MrtEntry.position s t lat lon alt r).values[2]? = some s := rfl
      by_cases hs : s = src
      · rw [List.filter_cons_of_pos (by simpa [e1] using hs), List.filter_cons_of_pos (by simpa [isPos] using hs), List.map_cons, ih]
        rfl
      · rw [List.filter_cons_of_neg (by simpa [e1] using hs), List.filter_cons_of_neg (by simpa [isPos] using hs), ih]
    | attitude s t p q hd r =>
      have e1 : ¬ "PitchRollHeadingObs" = "LatLongObs" := by decide
      rw [List.filterMap_cons_some (f := fun e => obsOf (entryLine e)) (b := MrtObs.mk "PitchRollHeadingObs" (MrtEntry.attitude s t p q hd r).values) rfl,
        List.filter_cons_of_neg (by simp only [e1, false_and, decide_false, Bool.false_eq_true, not_false_eq_true]),
        List.filter_cons_of_neg (by simp [isPos]), ih]
    | other name vs =>
      have he := he.1
      simp only [List.mem_cons, List.not_mem_nil, or_false, not_or] at he
      have e0 : obsOf (entryLine (.other name vs)) =
          if (mrtArity.lookup (String.ofList name)).isSome then some ⟨String.ofList name, vs⟩ else none := by
        rw [entryLine]; split <;> rfl
      rw [List.filter_cons_of_neg (a := MrtEntry.other name vs) (by simp [isPos])]
      by_cases hl : (mrtArity.lookup (String.ofList name)).isSome = true
      · rw [if_pos hl] at e0
        rw [List.filterMap_cons_some (f := fun e => obsOf (entryLine e)) e0,
          List.filter_cons_of_neg (by simp only [he.1, false_and, decide_false, Bool.false_eq_true, not_false_eq_true]), ih]
      · rw [if_neg hl] at e0
        rw [List.filterMap_cons_none (f := fun e => obsOf (entryLine e)) e0, ih]

private theorem select_att (num clock) (src : List Char) : ∀ es : List MrtEntry, (∀ e ∈ es, MrtReadable num clock e) →
    mrtSelect "PitchRollHeadingObs" src (es.filterMap fun e => obsOf (entryLine e)) = (es.filter (isAtt src)).map entryObs
  | [], _ => rfl
  | e :: es, h => by
    have ih := select_att num clock src es fun x hx => h x (by simp [hx])
    rw [mrtSelect] at ih ⊢
    have he := (h e (by simp)).2.2
    cases e with
    | attitude s t p q hd r =>
      rw [List.filterMap_cons_some (f := fun e => obsOf (entryLine e)) (b := MrtObs.mk "PitchRollHeadingObs" (MrtEntry.attitude s t p q hd r).values) rfl]
      have e1 : (MrtEntry.attitude s t p q hd r).values[2]? = some s := rfl
      by_cases hs : s = src
      · rw [List.filter_cons_of_pos (by simpa [e1] using hs), List.filter_cons_of_pos (by simpa [isAtt] using hs), List.map_cons, ih]
        rfl
      · rw [List.filter_cons_of_neg (by simpa [e1] using hs), List.filter_cons_of_neg (by simpa [isAtt] using hs), ih]
    | position s t lat lon alt r =>
      have e1 : ¬ "LatLongObs" = "PitchRollHeadingObs" := by decide
      rw [List.filterMap_cons_some (f := fun e => obsOf (entryLine e)) (b := MrtObs.mk "LatLongObs" (MrtEntry.position s t lat lon alt r).values) rfl,
        List.filter_cons_of_neg (by simp only [e1, false_and, decide_false, Bool.false_eq_true, not_false_eq_true]),
        List.filter_cons_of_neg (by simp [isAtt]), ih]
    | other name vs =>
      have he := he.1
      simp only [List.mem_cons, List.not_mem_nil, or_false, not_or] at he
      have e0 : obsOf (entryLine (.other name vs)) =
          if (mrtArity.lookup (String.ofList name)).isSome then some ⟨String.ofList name, vs⟩ else none := by
        rw [entryLine]; split <;> rfl
      rw [List.filter_cons_of_neg (a := MrtEntry.other name vs) (by simp [isAtt])]
      by_cases hl : (mrtArity.lookup (String.ofList name)).isSome = true
      · rw [if_pos hl] at e0
        rw [List.filterMap_cons_some (f := fun e => obsOf (entryLine e)) e0,
          List.filter_cons_of_neg (by simp only [he.2.1, false_and, decide_false, Bool.false_eq_true, not_false_eq_true]), ih]
      · rw [if_neg hl] at e0
        rw [List.filterMap_cons_none (f := fun e => obsOf (entryLine e)) e0, ih]

private theorem points_eq (num clock) (src : List Char) : ∀ es : List MrtEntry, (∀ e ∈ es, MrtReadable num clock e) →
    mrtPoints clock src es = (es.filter (isPos src)).map (entryPoint clock)
  | [], _ => rfl
  | e :: es, h => by
    have ih := points_eq num clock src es fun x hx => h x (by simp [hx])
    rw [mrtPoints] at ih ⊢
    have he := (h e (by simp)).2.2
    cases e with
    | position s t lat lon alt r =>
      obtain ⟨x, hx⟩ := Option.isSome_iff_exists.1 he.1
      by_cases hs : s = src
      · simp [isPos, ih, hs, hx, entryPoint, entryTime]
      · simp [isPos, ih, hs]
    | attitude s t p q hd r => simp [isPos, ih]
    | other name vs => simp [isPos, ih]

private theorem headings_eq (num clock) (src : List Char) : ∀ es : List MrtEntry, (∀ e ∈ es, MrtReadable num clock e) →
    mrtHeadings clock src es = (es.filter (isAtt src)).map (entryHeading clock)
  | [], _ => rfl
  | e :: es, h => by
    have ih := headings_eq num clock src es fun x hx => h x (by simp [hx])
    rw [mrtHeadings] at ih ⊢
    have he := (h e (by simp)).2.2
    cases e with
    | attitude s t p q hd r =>
      obtain ⟨x, hx⟩ := Option.isSome_iff_exists.1 he.1
      by_cases hs : s = src
      · simp [isAtt, ih, hs, hx, entryHeading, entryTime]
      · simp [isAtt, ih, hs]
    | position s t lat lon alt r => simp [isAtt, ih]
    | other name vs => simp [isAtt, ih]

/-! ## Times -/

private noncomputable def entrySort (clock : List Char → Option ℝ) (es : List MrtEntry) : List MrtEntry :=
  letI := Classical.decRel fun a b : MrtEntry => entryTime clock a ≤ entryTime clock b
  es.insertionSort fun a b => entryTime clock a ≤ entryTime clock b

private theorem sort_perm (clock) (es : List MrtEntry) : (entrySort clock es).Perm es := List.perm_insertionSort _ _

private theorem sort_sorted (clock) (es : List MrtEntry) : ((entrySort clock es).map (entryTime clock)).Pairwise (· ≤ ·) := by
  rw [List.pairwise_map]
  let _ := Classical.decRel fun a b : MrtEntry => entryTime clock a ≤ entryTime clock b
  have _ : Std.Total fun a b : MrtEntry => entryTime clock a ≤ entryTime clock b := ⟨fun a b => le_total _ _⟩
  have _ : IsTrans MrtEntry fun a b : MrtEntry => entryTime clock a ≤ entryTime clock b := ⟨fun _ _ _ => le_trans⟩
  exact List.pairwise_insertionSort _ _

private theorem timed_eq (num clock) (e : MrtEntry) (h : MrtReadable num clock e) (hp : ∃ src, isPos src e = true ∨ isAtt src e = true) :
    mrtTimed clock (entryObs e) = (some (entryTime clock e), entryObs e) := by
  have he := h.2.2
  obtain ⟨src, hp⟩ := hp
  cases e with
  | position s t lat lon alt r =>
    obtain ⟨x, hx⟩ := Option.isSome_iff_exists.1 he.1
    have e1 : (MrtEntry.position s t lat lon alt r).values[6]? = some t := by simp [MrtEntry.values, mrtLeading]
    simp [mrtTimed, entryObs, e1, entryTime, hx]
  | attitude s t p q hd r =>
    obtain ⟨x, hx⟩ := Option.isSome_iff_exists.1 he.1
    have e1 : (MrtEntry.attitude s t p q hd r).values[6]? = some t := by simp [MrtEntry.values, mrtLeading]
    simp [mrtTimed, entryObs, e1, entryTime, hx]
  | other name vs => simp [isPos, isAtt] at hp

private theorem sort_eq (num clock) (es : List MrtEntry) (h : ∀ e ∈ es, MrtReadable num clock e)
    (hp : ∀ e ∈ es, ∃ src, isPos src e = true ∨ isAtt src e = true) :
    mrtSort ((es.map entryObs).map (mrtTimed clock)) =
      .ok ((entrySort clock es).map fun e => (some (entryTime clock e), entryObs e)) := by
  have e1 : (es.map entryObs).map (mrtTimed clock) = es.map fun e => (some (entryTime clock e), entryObs e) := by
    rw [List.map_map]
    exact List.map_congr_left fun e he => timed_eq num clock e (h e he) (hp e he)
  rw [e1, mrtSort, if_neg]
  · congr 1
    let _ := Classical.decRel fun a b : MrtEntry => entryTime clock a ≤ entryTime clock b
    rw [entrySort]
    symm
    apply List.map_insertionSort
    intro a _ b _
    simp
  · rintro ⟨-, p, hp, he⟩
    obtain ⟨e, -, rfl⟩ := List.mem_map.1 hp
    simp at he

private theorem known_eq (clock) (es : List MrtEntry) :
    mrtKnown (es.map fun e => (some (entryTime clock e), entryObs e)) = .ok (es.map fun e => (entryTime clock e, entryObs e)) := by
  rw [mrtKnown, List.mapM_map]
  exact mapM_each _ _ _ fun _ _ => rfl

/-! ## Records -/

private theorem mapM_zip {A I R : Type} (f : A × I → Res R) (P : A → I → Prop) (S : A → R → Prop)
    (hf : ∀ a i, P a i → ∃ r, f (a, i) = .ok r ∧ S a r) : ∀ (as : List A) (is : List I), List.Forall₂ P as is →
    ∃ rs, (as.zip is).mapM f = .ok rs ∧ List.Forall₂ S as rs
  | _, _, .nil => ⟨[], rfl, .nil⟩
  | _, _, .cons (a := a) (b := i) (l₁ := as) (l₂ := is) h t => by
    obtain ⟨r, hr, hs⟩ := hf a i h
    obtain ⟨rs, hrs, hss⟩ := mapM_zip f P S hf as is t
    refine ⟨r :: rs, ?_, .cons hs hss⟩
    rw [List.zip_cons_cons, List.mapM_cons, hr, hrs]
    rfl

private theorem forall₂_mem {A I : Type} {P : A → I → Prop} : ∀ {as : List A} {is : List I}, List.Forall₂ P as is →
    List.Forall₂ (fun a i => a ∈ as ∧ P a i) as is
  | _, _, .nil => .nil
  | _, _, .cons h t => .cons ⟨by simp, h⟩ ((forall₂_mem t).imp fun _ _ h => ⟨by simp [h.1], h.2⟩)

private theorem pyGet_nat {α : Type} (l : List α) (i : Nat) (a : α) (h : l[i]? = some a) : pyGet l (i : Int) = .ok a :=
  pyGet_of_getElem? l i a h

private theorem pos_numbers (num clock) (src) (e : MrtEntry) (h : MrtReadable num clock e) (hp : isPos src e = true) :
    mrtNumber num (entryObs e) 9 = .ok (entryPoint clock e).lat ∧ mrtNumber num (entryObs e) 10 = .ok (entryPoint clock e).lon ∧
    mrtNumber num (entryObs e) 11 = .ok (entryPoint clock e).alt ∧ (entryPoint clock e).time = entryTime clock e := by
  have he := h.2.2
  cases e with
  | position s t lat lon alt r =>
    obtain ⟨-, h1, h2, h3⟩ := he
    refine ⟨?_, ?_, ?_, rfl⟩ <;>
      simp [mrtNumber, pyGet, entryObs, MrtEntry.values, mrtLeading, bind, Except.bind, h1, h2, h3, entryPoint]
  | attitude s t p q hd r => simp [isPos] at hp
  | other name vs => simp [isPos] at hp

private theorem att_numbers (num clock) (src) (e : MrtEntry) (h : MrtReadable num clock e) (hp : isAtt src e = true) :
    mrtNumber num (entryObs e) 11 = .ok (entryHeading clock e).2 ∧ (entryHeading clock e).1 = entryTime clock e := by
  have he := h.2.2
  cases e with
  | attitude s t p q hd r =>
    obtain ⟨-, h1⟩ := he
    refine ⟨?_, rfl⟩
    simp [mrtNumber, pyGet, entryObs, MrtEntry.values, mrtLeading, bind, Except.bind, h1, entryHeading]
  | position s t lat lon alt r => simp [isAtt] at hp
  | other name vs => simp [isAtt] at hp

/-- What is recorded for the position `p` of the vehicle, with the ship at `s` and the heading `h`: the position, its depth, its time
corrected by the time zone and offset of the settings, the position of the ship and the heading; the other values are those of `mrtFix`
(C158). -/
def MrtRecorded (inv dir : ℝ → ℝ → ℝ → ℝ → ℝ × ℝ) (su : MrtSetup) (ships : List MrtPoint) (headings : List (ℝ × ℝ)) (p : MrtPoint)
    (r : MrtData) : Prop :=
  ∃ s ∈ ships, ∃ h ∈ headings, NextOrLast (ships.map MrtPoint.time) p.time s.time ∧ NextOrLast (headings.map Prod.fst) p.time h.1 ∧
    r.fix.latitude = p.lat ∧ r.fix.longitude = p.lon ∧ r.fix.depth = -p.alt ∧
    r.fix.t = p.time - su.tzHours * 3600 + su.timeoffset ∧ r.latShip = s.lat ∧ r.lonShip = s.lon ∧ r.heading = h.2 ∧
    r.fix = mrtFix inv dir su.factor su.offset su.tzHours su.timeoffset su.lat0 su.lon0 p.time p.lat p.lon p.alt s.lat s.lon

private theorem nextOrLast_of_perm {l l' : List ℝ} (h : l.Perm l') {t a : ℝ} (hn : NextOrLast l t a) : NextOrLast l' t a := by
  simpa only [NextOrLast, h.mem_iff] using hn

private theorem fixes_eq (num clock inv dir su) (es : List MrtEntry) (h : ∀ e ∈ es, MrtReadable num clock e)
    (hs : mrtPoints clock "GNSS 1".toList es ≠ []) (hh : mrtHeadings clock "MRT-USBL".toList es ≠ []) :
    ∃ fixes points, mrtFixes clock num inv dir su (es.filterMap fun e => obsOf (entryLine e)) = .ok fixes ∧
      points.Perm (mrtPoints clock "AUV 1".toList es) ∧ (points.map MrtPoint.time).Pairwise (· ≤ ·) ∧
      List.Forall₂ (MrtRecorded inv dir su (mrtPoints clock "GNSS 1".toList es) (mrtHeadings clock "MRT-USBL".toList es))
        points fixes := by
  rw [points_eq num clock _ es h] at hs ⊢
  rw [points_eq num clock _ es h]
  rw [headings_eq num clock _ es h] at hh ⊢
  have hA : ∀ e ∈ es.filter (isPos "AUV 1".toList), MrtReadable num clock e ∧ isPos "AUV 1".toList e = true := fun e he =>
    ⟨h e (List.mem_of_mem_filter he), List.of_mem_filter he⟩
  have hS : ∀ e ∈ es.filter (isPos "GNSS 1".toList), MrtReadable num clock e ∧ isPos "GNSS 1".toList e = true := fun e he =>
    ⟨h e (List.mem_of_mem_filter he), List.of_mem_filter he⟩
  have hH : ∀ e ∈ es.filter (isAtt "MRT-USBL".toList), MrtReadable num clock e ∧ isAtt "MRT-USBL".toList e = true := fun e he =>
    ⟨h e (List.mem_of_mem_filter he), List.of_mem_filter he⟩
  rw [mrtFixes, select_pos num clock _ es h, select_pos num clock _ es h, select_att num clock _ es h]
  generalize es.filter (isPos "AUV 1".toList) = A at *
  generalize es.filter (isPos "GNSS 1".toList) = S at *
  generalize es.filter (isAtt "MRT-USBL".toList) = H at *
  rw [sort_eq num clock A (fun e he => (hA e he).1) (fun e he => ⟨_, .inl (hA e he).2⟩),
    sort_eq num clock S (fun e he => (hS e he).1) (fun e he => ⟨_, .inl (hS e he).2⟩),
    sort_eq num clock H (fun e he => (hH e he).1) (fun e he => ⟨_, .inr (hH e he).2⟩)]
  simp only [bind, Except.bind, known_eq]
  have pA := sort_perm clock A
  have pS := sort_perm clock S
  have pH := sort_perm clock H
  have sA := sort_sorted clock A
  have sS := sort_sorted clock S
  have sH := sort_sorted clock H
  have gA : ∀ e ∈ entrySort clock A, MrtReadable num clock e ∧ isPos "AUV 1".toList e = true := fun e he => hA e (pA.mem_iff.1 he)
  have gS : ∀ e ∈ entrySort clock S, MrtReadable num clock e ∧ isPos "GNSS 1".toList e = true := fun e he => hS e (pS.mem_iff.1 he)
  have gH : ∀ e ∈ entrySort clock H, MrtReadable num clock e ∧ isAtt "MRT-USBL".toList e = true := fun e he => hH e (pH.mem_iff.1 he)
  have tS : (S.map (entryPoint clock)).map MrtPoint.time = S.map (entryTime clock) := by
    rw [List.map_map]
    exact List.map_congr_left fun e he => (pos_numbers num clock _ e (hS e he).1 (hS e he).2).2.2.2
  have tH : (H.map (entryHeading clock)).map Prod.fst = H.map (entryTime clock) := by
    rw [List.map_map]
    exact List.map_congr_left fun e he => (att_numbers num clock _ e (hH e he).1 (hH e he).2).2
  have tA : ((entrySort clock A).map (entryPoint clock)).map MrtPoint.time = (entrySort clock A).map (entryTime clock) := by
    rw [List.map_map]
    exact List.map_congr_left fun e he => (pos_numbers num clock _ e (gA e he).1 (gA e he).2).2.2.2
  have lS : 0 < (entrySort clock S).length := by
    rw [pS.length_eq]; rw [ne_eq, List.map_eq_nil_iff] at hs; exact List.length_pos_iff.2 hs
  have lH : 0 < (entrySort clock H).length := by
    rw [pH.length_eq]; rw [ne_eq, List.map_eq_nil_iff] at hh; exact List.length_pos_iff.2 hh
  by_cases hA0 : entrySort clock A = []
  · refine ⟨[], [], by simp [hA0], ?_, by simp, .nil⟩
    have : A = [] := by rw [hA0] at pA; exact List.nil_perm.1 pA
    simp [this]
  rw [if_neg (by simpa using hA0)]
  have key := closestLoop_spec ((entrySort clock S).map (entryTime clock)) ((entrySort clock H).map (entryTime clock)) sS sH
    ((entrySort clock A).map (entryTime clock)) 0 0 sA (by simpa using lS) (by simpa using lH)
    (by intro _ _ k s hk; omega) (by intro _ _ k s hk; omega)
  simp only [List.map_map, Function.comp_def] at key ⊢
  generalize closestLoop ((entrySort clock S).map fun e => entryTime clock e) ((entrySort clock H).map fun e => entryTime clock e) 0 0
    ((entrySort clock A).map fun e => entryTime clock e) = idx at key ⊢
  rw [List.forall₂_map_left_iff] at key
  rw [List.zip_map_left, List.mapM_map]
  have key3 := forall₂_mem key
  obtain ⟨rs, h1, h2⟩ := mapM_zip
    (fun q => mrtRecord num inv dir su ((entrySort clock S).map fun e => (entryTime clock e, entryObs e))
      ((entrySort clock H).map fun e => (entryTime clock e, entryObs e)) ((entryTime clock q.1, entryObs q.1), q.2)) _
    (fun e r => MrtRecorded inv dir su (S.map (entryPoint clock)) (H.map (entryHeading clock)) (entryPoint clock e) r)
    (by
      rintro e o ⟨he, ⟨i, j⟩, a, b, rfl, ha, hb, na, nb⟩
      rw [List.getElem?_map, Option.map_eq_some_iff] at ha hb
      obtain ⟨es', hs1, rfl⟩ := ha
      obtain ⟨eh, hh1, rfl⟩ := hb
      have ms := gS es' (List.mem_of_getElem? hs1)
      have mh := gH eh (List.mem_of_getElem? hh1)
      obtain ⟨x1, x2, x3, x4⟩ := pos_numbers num clock _ e (gA e he).1 (gA e he).2
      obtain ⟨y1, y2, y3, y4⟩ := pos_numbers num clock _ es' ms.1 ms.2
      obtain ⟨z1, z2⟩ := att_numbers num clock _ eh mh.1 mh.2
      have q1 := pyGet_nat ((entrySort clock S).map fun e => (entryTime clock e, entryObs e)) i (entryTime clock es', entryObs es') (by
        simp [hs1])
      have q2 := pyGet_nat ((entrySort clock H).map fun e => (entryTime clock e, entryObs e)) j (entryTime clock eh, entryObs eh) (by
        simp [hh1])
      apply Exists.intro
      apply And.intro
      · simp only [mrtRecord, x1, x2, x3, bind, Except.bind, q1, q2, y1, y2, z1]
        rfl
      · refine ⟨entryPoint clock es', List.mem_map_of_mem (pS.mem_iff.1 (List.mem_of_getElem? hs1)), entryHeading clock eh,
          List.mem_map_of_mem (pH.mem_iff.1 (List.mem_of_getElem? hh1)), ?_, ?_, rfl, rfl, rfl, ?_, rfl, rfl, rfl, ?_⟩
        · rw [tS, x4, y4]; exact nextOrLast_of_perm (pS.map _) na
        · rw [tH, x4, z2]; exact nextOrLast_of_perm (pH.map _) nb
        · rw [x4]; simp only [mrtFix]; ring
        · rw [x4])
    _ _ key3
  refine ⟨rs, (entrySort clock A).map (entryPoint clock), h1, pA.map _, by rw [tA]; exact sA, ?_⟩
  rw [List.forall₂_map_left_iff]
  exact h2

/-! ## C233 the run -/

private theorem stem_eq (stem ext : List Char) (h1 : stem ≠ []) (h2 : ext ≠ []) (h3 : '.' ∉ ext) : pyStem (stem ++ '.' :: ext) = stem := by
  have e1 : (stem ++ '.' :: ext).reverse = ext.reverse ++ '.' :: stem.reverse := by simp
  have e2 : (stem ++ '.' :: ext).reverse.dropWhile (· ≠ '.') = '.' :: stem.reverse := by
    rw [e1, List.dropWhile_append_of_pos]
    · simp
    · intro c hc
      rw [List.mem_reverse] at hc
      simpa using fun e : c = '.' => h3 (e ▸ hc)
  have e3 : ¬ (stem.reverse = [] ∨ (stem ++ '.' :: ext).reverse.head? = some '.') := by
    rintro (h | h)
    · exact h1 (by simpa using h)
    · rw [e1, List.head?_append_of_ne_nil _ (by simpa using h2)] at h
      exact h3 (by simpa using List.mem_of_mem_head? h)
  rw [pyStem, e2]
  dsimp only
  rw [if_neg e3, List.reverse_reverse]

private theorem points_perm (clock src) {es es' : List MrtEntry} (h : es.Perm es') : (mrtPoints clock src es).Perm (mrtPoints clock src es') :=
  h.filterMap _

private theorem headings_perm (clock src) {es es' : List MrtEntry} (h : es.Perm es') :
    (mrtHeadings clock src es).Perm (mrtHeadings clock src es') := h.filterMap _

private theorem recorded_perm {inv dir su} {s s' : List MrtPoint} {h h' : List (ℝ × ℝ)} (hs : s.Perm s') (hh : h.Perm h') {p r}
    (hr : MrtRecorded inv dir su s h p r) : MrtRecorded inv dir su s' h' p r := by
  obtain ⟨x, hx, y, hy, n1, n2, rest⟩ := hr
  exact ⟨x, hs.mem_iff.1 hx, y, hh.mem_iff.1 hy, nextOrLast_of_perm (hs.map _) n1, nextOrLast_of_perm (hh.map _) n2, rest⟩

private theorem files_eq (stem ext : List Char) (h1 : stem ≠ []) (h2 : ext ≠ []) (h3 : '.' ∉ ext)
    (others : List (List Char × List (List Char))) (files : List (List Char × MrtLogFile))
    (ho : ∀ f ∈ others, ¬ (stem ++ ['_']) <+: f.1) (hf : ∀ f ∈ files, (stem ++ ['_']) <+: f.1) :
    ∃ files' : List (List Char × MrtLogFile), files'.Perm files ∧
      mrtFiles (others ++ files.map fun f => (f.1, f.2.lines)) (stem ++ '.' :: ext) = files'.map fun f => (f.1, f.2.lines) := by
  refine ⟨files.mergeSort fun a b => lexLe (a.1.map Char.toNat) (b.1.map Char.toNat), List.mergeSort_perm _ _, ?_⟩
  rw [mrtFiles, stem_eq stem ext h1 h2 h3, List.filter_append, List.filter_eq_nil_iff.2, List.nil_append, List.filter_eq_self.2]
  · symm
    apply List.map_mergeSort
    intro a _ b _
    rfl
  · intro f hf'
    obtain ⟨g, hg, rfl⟩ := List.mem_map.1 hf'
    exact List.isPrefixOf_iff_prefix.2 (hf g hg)
  · intro f hf' hp
    exact ho f hf' (List.isPrefixOf_iff_prefix.1 hp)

/-- C233 (partial): with the file `stem.ext` configured, every position of the vehicle ("AUV 1") in the files `stem_…` becomes exactly
one fix, in time order, recorded with the position of the ship ("GNSS 1") and the heading ("MRT-USBL") that are the next in time or the
last of the log. Missing: the configured file itself is not read (`C233_configured_false`), positions flagged as invalid become fixes as
well (`C233_invalid_false`), job lines repeat a position (C156), and there has to be a position of the ship and a heading
(`C233_no_ship`). -/
theorem C233_run_partial (num : List Char → Res ℝ) (clock : List Char → Option ℝ) (inv dir : ℝ → ℝ → ℝ → ℝ → ℝ × ℝ) (su : MrtSetup)
    (stem ext : List Char) (h1 : stem ≠ []) (h2 : ext ≠ []) (h3 : '.' ∉ ext)
    (others : List (List Char × List (List Char))) (files : List (List Char × MrtLogFile))
    (hc : stem ++ '.' :: ext ∈ others.map Prod.fst)
    (ho : ∀ f ∈ others, ¬ (stem ++ ['_']) <+: f.1) (hf : ∀ f ∈ files, (stem ++ ['_']) <+: f.1)
    (hl : ∀ f ∈ files, f.2.header.length = 35) (h : ∀ f ∈ files, ∀ e ∈ f.2.entries, MrtReadable num clock e)
    (hs : mrtPoints clock "GNSS 1".toList (files.flatMap fun f => f.2.entries) ≠ [])
    (hh : mrtHeadings clock "MRT-USBL".toList (files.flatMap fun f => f.2.entries) ≠ []) :
    ∃ fixes points, mrtRun clock num inv dir su (others ++ files.map fun f => (f.1, f.2.lines)) (stem ++ '.' :: ext) = .ok (some fixes) ∧
      points.Perm (mrtPoints clock "AUV 1".toList (files.flatMap fun f => f.2.entries)) ∧
      (points.map MrtPoint.time).Pairwise (· ≤ ·) ∧
      List.Forall₂ (MrtRecorded inv dir su (mrtPoints clock "GNSS 1".toList (files.flatMap fun f => f.2.entries))
        (mrtHeadings clock "MRT-USBL".toList (files.flatMap fun f => f.2.entries))) points fixes := by
  obtain ⟨files', hp, he⟩ := files_eq stem ext h1 h2 h3 others files ho hf
  have hm : (mrtFiles (others ++ files.map fun f => (f.1, f.2.lines)) (stem ++ '.' :: ext)).mapM (fun f => parseMrtCsv f.2) =
      .ok (files'.map fun f => f.2.entries.filterMap fun e => obsOf (entryLine e)) := by
    rw [he, List.mapM_map]
    exact mapM_each _ _ _ fun f hf' => file_read num clock f.2 (hl f (hp.mem_iff.1 hf')) (h f (hp.mem_iff.1 hf'))
  have hflat : (files'.map fun f => f.2.entries.filterMap fun e => obsOf (entryLine e)).flatten =
      (files'.flatMap fun f => f.2.entries).filterMap fun e => obsOf (entryLine e) := by
    rw [List.filterMap_flatMap, List.flatMap_def]
  have hpe : (files'.flatMap fun f => f.2.entries).Perm (files.flatMap fun f => f.2.entries) := hp.flatMap_right _
  obtain ⟨fixes, points, r1, r2, r3, r4⟩ := fixes_eq num clock inv dir su (files'.flatMap fun f => f.2.entries)
    (by
      intro e he
      obtain ⟨f, hf', he'⟩ := List.mem_flatMap.1 he
      exact h f (hp.mem_iff.1 hf') e he')
    (fun e => hs (by have := (points_perm clock "GNSS 1".toList hpe); rw [e] at this; exact List.nil_perm.1 this))
    (fun e => hh (by have := (headings_perm clock "MRT-USBL".toList hpe); rw [e] at this; exact List.nil_perm.1 this))
  refine ⟨fixes, points, ?_, r2.trans (points_perm clock _ hpe), r3, r4.imp fun p r hr =>
    recorded_perm (points_perm clock _ hpe) (headings_perm clock _ hpe) hr⟩
  rw [mrtRun, if_neg, hm]
  · simp only [bind, Except.bind, hflat, r1]
  · simp only [List.map_append, List.mem_append, not_not]
    exact .inl hc

/-- C233: the configured file is not read: whatever it holds, the result is the same. -/
theorem C233_configured_not_read (num : List Char → Res ℝ) (clock : List Char → Option ℝ) (inv dir : ℝ → ℝ → ℝ → ℝ → ℝ × ℝ) (su : MrtSetup)
    (stem ext : List Char) (h1 : stem ≠ []) (h2 : ext ≠ []) (h3 : '.' ∉ ext) (a b : List (List Char × List (List Char)))
    (content content' : List (List Char)) :
    mrtRun clock num inv dir su (a ++ (stem ++ '.' :: ext, content) :: b) (stem ++ '.' :: ext) =
      mrtRun clock num inv dir su (a ++ (stem ++ '.' :: ext, content') :: b) (stem ++ '.' :: ext) := by
  have hn : ¬ (stem ++ ['_']).isPrefixOf (stem ++ '.' :: ext) = true := by
    rw [List.isPrefixOf_iff_prefix, List.prefix_append_right_inj]
    simp
  have e : ∀ c, mrtFiles (a ++ (stem ++ '.' :: ext, c) :: b) (stem ++ '.' :: ext) = mrtFiles (a ++ b) (stem ++ '.' :: ext) := by
    intro c
    rw [mrtFiles, mrtFiles, stem_eq stem ext h1 h2 h3, List.filter_append,
      List.filter_cons_of_neg (p := fun f : List Char × List (List Char) => (stem ++ ['_']).isPrefixOf f.1) hn, List.filter_append]
  rw [mrtRun, mrtRun, if_neg (by simp), if_neg (by simp), e, e]

/-- What C233 asks for first: with a ship position and a heading in the log, positions of the vehicle in the configured file become
fixes. -/
def C233_configured_full : Prop := ∀ (num : List Char → Res ℝ) (clock : List Char → Option ℝ) (inv dir : ℝ → ℝ → ℝ → ℝ → ℝ × ℝ)
  (su : MrtSetup) (name : List Char) (f : MrtLogFile), f.header.length = 35 → (∀ e ∈ f.entries, MrtReadable num clock e) →
  mrtPoints clock "AUV 1".toList f.entries ≠ [] → mrtPoints clock "GNSS 1".toList f.entries ≠ [] →
  mrtHeadings clock "MRT-USBL".toList f.entries ≠ [] →
  ∃ x fixes, mrtRun clock num inv dir su [(name, f.lines)] name = .ok (some (x :: fixes))

/-- The values of the examples that are not used. -/
private def anyRest : MrtRest := ⟨"1".toList, "2".toList, "3".toList, "4".toList, "5".toList, "6".toList, "7".toList,
  "False".toList, "False".toList, "False".toList⟩

private def zeroAt (t : String) : Numeral := ⟨t.toList, 0⟩

/-- A log of a position of the vehicle, flagged as invalid, a position of the ship and a heading. -/
private def smallLog : MrtLogFile where
  first := .position "AUV 1".toList "T".toList (zeroAt "0") (zeroAt "0") (zeroAt "0") anyRest
  header := List.replicate 35 []
  body := [.position "GNSS 1".toList "T".toList (zeroAt "0") (zeroAt "0") (zeroAt "0") anyRest,
    .attitude "MRT-USBL".toList "T".toList (zeroAt "0") (zeroAt "0") (zeroAt "0") anyRest]

private theorem writable_plain (s : List Char) (h : s.all (fun c => c ≠ ' ' ∧ c ≠ ',') = true ∨ s = "AUV 1".toList ∨ s = "GNSS 1".toList) :
    Writable s := by
  rcases h with h | rfl | rfl
  · refine ⟨?_, ?_⟩
    · cases s with
      | nil => simp
      | cons c cs => simp at h; simpa using h.1.1
    · have : ∀ s : List Char, (∀ c ∈ s, c ≠ ',') → CommaBlank s := by
        intro s
        induction s with
        | nil => simp [CommaBlank]
        | cons c cs ih =>
          intro h
          cases cs with
          | nil => simpa [CommaBlank] using h c (by simp)
          | cons d r => exact ⟨fun e => absurd e (h c (by simp)), ih fun x hx => h x (by simp [hx])⟩
      exact this s fun c hc => by
        have := List.all_eq_true.1 h c hc
        simp at this
        exact this.2
  · simp [Writable, CommaBlank]
  · simp [Writable, CommaBlank]

private theorem smallLog_ok : ∀ e ∈ smallLog.entries, MrtReadable (fun _ => .ok 0) (fun _ => some 0) e := by
  intro e he
  have he' : e = .position "AUV 1".toList "T".toList (zeroAt "0") (zeroAt "0") (zeroAt "0") anyRest ∨
      e = .position "GNSS 1".toList "T".toList (zeroAt "0") (zeroAt "0") (zeroAt "0") anyRest ∨
      e = .attitude "MRT-USBL".toList "T".toList (zeroAt "0") (zeroAt "0") (zeroAt "0") anyRest := by
    simpa [smallLog, MrtLogFile.entries] using he
  have ht : Trimmed "False".toList := by
    refine ⟨?_, ?_⟩ <;> decide
  rcases he' with rfl | rfl | rfl
  · refine ⟨fun f hf => writable_plain f ?_, ht, rfl, rfl, rfl, rfl⟩
    revert f; decide
  · refine ⟨fun f hf => writable_plain f ?_, ht, rfl, rfl, rfl, rfl⟩
    revert f; decide
  · refine ⟨fun f hf => writable_plain f ?_, ht, rfl, rfl⟩
    revert f; decide

private theorem smallLog_points (src : List Char) (hs : src = "AUV 1".toList ∨ src = "GNSS 1".toList) :
    mrtPoints (fun _ => some 0) src smallLog.entries = [⟨0, 0, 0, 0⟩] := by
  have e1 : ¬ "GNSS 1".toList = "AUV 1".toList := by decide
  have e2 : ¬ "AUV 1".toList = "GNSS 1".toList := by decide
  rcases hs with rfl | rfl
  · simp only [mrtPoints, smallLog, MrtLogFile.entries, List.filterMap_cons, List.filterMap_nil, if_neg e1, if_true, Option.map_some, zeroAt]
  · simp only [mrtPoints, smallLog, MrtLogFile.entries, List.filterMap_cons, List.filterMap_nil, if_neg e2, if_true, Option.map_some, zeroAt]

private theorem smallLog_headings : mrtHeadings (fun _ => some 0) "MRT-USBL".toList smallLog.entries = [(0, 0)] := by
  simp only [mrtHeadings, smallLog, MrtLogFile.entries, List.filterMap_cons, List.filterMap_nil, if_true, Option.map_some, zeroAt]

private theorem fixes_none (num clock inv dir su) : mrtFixes clock num inv dir su [] = .ok [] := by
  have e : mrtSort [] = .ok [] := by
    rw [mrtSort, if_neg (by simp)]; rfl
  simp only [mrtFixes, mrtSelect, List.filter_nil, List.map_nil, e, bind, Except.bind, List.isEmpty_nil, if_true]

private theorem single_file (num clock inv dir su) (stem ext : List Char) (h1 : stem ≠ []) (h2 : ext ≠ []) (h3 : '.' ∉ ext)
    (content : List (List Char)) :
    mrtRun clock num inv dir su [(stem ++ '.' :: ext, content)] (stem ++ '.' :: ext) = .ok (some []) := by
  have hn : ¬ (stem ++ ['_']).isPrefixOf (stem ++ '.' :: ext) = true := by
    rw [List.isPrefixOf_iff_prefix, List.prefix_append_right_inj]
    simp
  have e : mrtFiles [(stem ++ '.' :: ext, content)] (stem ++ '.' :: ext) = [] := by
    rw [mrtFiles, stem_eq stem ext h1 h2 h3,
      List.filter_cons_of_neg (p := fun f : List Char × List (List Char) => (stem ++ ['_']).isPrefixOf f.1) hn]
    simp
  rw [mrtRun, if_neg (by simp), e]
  simp only [List.mapM_nil, pure, Except.pure, bind, Except.bind, List.flatten_nil, fixes_none]

/-- C233 fails: of a log that is one file, `dive.csv`, nothing is read. -/
theorem C233_configured_false : ¬ C233_configured_full := by
  intro h
  obtain ⟨x, fixes, hx⟩ := h (fun _ => .ok 0) (fun _ => some 0) (fun _ _ _ _ => (0, 0)) (fun _ _ _ _ => (0, 0)) ⟨0, 0, 0, 0, 0, 0⟩
    ("dive".toList ++ '.' :: "csv".toList) smallLog (by rfl) smallLog_ok (by rw [smallLog_points _ (.inl rfl)]; simp)
    (by rw [smallLog_points _ (.inr rfl)]; simp) (by rw [smallLog_headings]; simp)
  rw [single_file _ _ _ _ _ _ _ (by decide) (by decide) (by decide)] at hx
  cases hx

/-- What C233 asks for next: positions whose flags say that they are not valid do not become fixes. -/
def C233_invalid_full : Prop := ∀ (num : List Char → Res ℝ) (clock : List Char → Option ℝ) (inv dir : ℝ → ℝ → ℝ → ℝ → ℝ × ℝ)
  (su : MrtSetup) (folder : List (List Char × MrtLogFile)) (name : List Char),
  (∀ f ∈ folder, ∀ e ∈ f.2.entries, ∀ s t lat lon alt r, e = MrtEntry.position s t lat lon alt r → r.valid1 = "False".toList) →
  ∀ x fixes, mrtRun clock num inv dir su (folder.map fun f => (f.1, f.2.lines)) name ≠ .ok (some (x :: fixes))

/-- C233 fails: a position flagged as invalid becomes a fix. -/
theorem C233_invalid_false : ¬ C233_invalid_full := by
  intro h
  obtain ⟨fixes, points, r1, r2, -, r4⟩ := C233_run_partial (fun _ => .ok 0) (fun _ => some 0) (fun _ _ _ _ => (0, 0))
    (fun _ _ _ _ => (0, 0)) ⟨0, 0, 0, 0, 0, 0⟩ "dive".toList "csv".toList (by decide) (by decide) (by decide)
    [("dive".toList ++ '.' :: "csv".toList, smallLog.lines)] [("dive_1.csv".toList, smallLog)] (by simp)
    (by intro f hf; rw [List.mem_singleton] at hf; subst hf; decide)
    (by intro f hf; rw [List.mem_singleton] at hf; subst hf; decide)
    (by intro f hf; rw [List.mem_singleton] at hf; subst hf; rfl)
    (by intro f hf; rw [List.mem_singleton] at hf; subst hf; exact smallLog_ok)
    (by rw [List.flatMap_singleton, smallLog_points _ (.inr rfl)]; simp)
    (by rw [List.flatMap_singleton, smallLog_headings]; simp)
  rw [List.flatMap_singleton, smallLog_points _ (.inl rfl)] at r2
  have hlen : fixes.length = 1 := by rw [← r4.length_eq, r2.length_eq]; rfl
  obtain ⟨x, rfl⟩ := List.length_eq_one_iff.1 hlen
  refine h (fun _ => .ok 0) (fun _ => some 0) (fun _ _ _ _ => (0, 0)) (fun _ _ _ _ => (0, 0)) ⟨0, 0, 0, 0, 0, 0⟩
    [("dive".toList ++ '.' :: "csv".toList, smallLog), ("dive_1.csv".toList, smallLog)] ("dive".toList ++ '.' :: "csv".toList) ?_ x [] r1
  intro f hf e he s t lat lon alt r hr
  have hf' : f.2 = smallLog := by
    simp only [List.mem_cons, List.not_mem_nil, or_false] at hf
    rcases hf with rfl | rfl <;> rfl
  rw [hf'] at he
  subst hr
  simp only [smallLog, MrtLogFile.entries, List.mem_cons, List.not_mem_nil, or_false, MrtEntry.position.injEq, reduceCtorEq] at he
  rcases he with he | he <;> (rw [he.2.2.2.2.2]; rfl)

/-- C233: without a position of the ship or without a heading the log is not read: the parser fails as soon as there is a position of the
vehicle. -/
theorem C233_no_ship (num : List Char → Res ℝ) (clock : List Char → Option ℝ) (inv dir : ℝ → ℝ → ℝ → ℝ → ℝ × ℝ) (su : MrtSetup)
    (stem ext : List Char) (h1 : stem ≠ []) (h2 : ext ≠ []) (h3 : '.' ∉ ext)
    (others : List (List Char × List (List Char))) (files : List (List Char × MrtLogFile))
    (hc : stem ++ '.' :: ext ∈ others.map Prod.fst)
    (ho : ∀ f ∈ others, ¬ (stem ++ ['_']) <+: f.1) (hf : ∀ f ∈ files, (stem ++ ['_']) <+: f.1)
    (hl : ∀ f ∈ files, f.2.header.length = 35) (h : ∀ f ∈ files, ∀ e ∈ f.2.entries, MrtReadable num clock e)
    (ha : mrtPoints clock "AUV 1".toList (files.flatMap fun f => f.2.entries) ≠ [])
    (hs : mrtPoints clock "GNSS 1".toList (files.flatMap fun f => f.2.entries) = [] ∨
      mrtHeadings clock "MRT-USBL".toList (files.flatMap fun f => f.2.entries) = []) :
    mrtRun clock num inv dir su (others ++ files.map fun f => (f.1, f.2.lines)) (stem ++ '.' :: ext) = .error .attributeError := by
  obtain ⟨files', hp, he⟩ := files_eq stem ext h1 h2 h3 others files ho hf
  have hm : (mrtFiles (others ++ files.map fun f => (f.1, f.2.lines)) (stem ++ '.' :: ext)).mapM (fun f => parseMrtCsv f.2) =
      .ok (files'.map fun f => f.2.entries.filterMap fun e => obsOf (entryLine e)) := by
    rw [he, List.mapM_map]
    exact mapM_each _ _ _ fun f hf' => file_read num clock f.2 (hl f (hp.mem_iff.1 hf')) (h f (hp.mem_iff.1 hf'))
  have hflat : (files'.map fun f => f.2.entries.filterMap fun e => obsOf (entryLine e)).flatten =
      (files'.flatMap fun f => f.2.entries).filterMap fun e => obsOf (entryLine e) := by
    rw [List.filterMap_flatMap, List.flatMap_def]
  have hpe : (files'.flatMap fun f => f.2.entries).Perm (files.flatMap fun f => f.2.entries) := hp.flatMap_right _
  have ha' : mrtPoints clock "AUV 1".toList (files'.flatMap fun f => f.2.entries) ≠ [] := fun e =>
    ha (by have := points_perm clock "AUV 1".toList hpe; rw [e] at this; exact List.nil_perm.1 this)
  have hs' : mrtPoints clock "GNSS 1".toList (files'.flatMap fun f => f.2.entries) = [] ∨
      mrtHeadings clock "MRT-USBL".toList (files'.flatMap fun f => f.2.entries) = [] := hs.imp
    (fun e => by have := points_perm clock "GNSS 1".toList hpe; rw [e] at this; exact List.perm_nil.1 this)
    (fun e => by have := headings_perm clock "MRT-USBL".toList hpe; rw [e] at this; exact List.perm_nil.1 this)
  have hok : ∀ e ∈ files'.flatMap fun f => f.2.entries, MrtReadable num clock e := by
    intro e he
    obtain ⟨f, hf', he'⟩ := List.mem_flatMap.1 he
    exact h f (hp.mem_iff.1 hf') e he'
  rw [mrtRun, if_neg (by simp only [List.map_append, List.mem_append, not_not]; exact .inl hc), hm]
  simp only [bind, Except.bind, hflat]
  generalize (files'.flatMap fun f => f.2.entries) = es at *
  rw [points_eq num clock _ es hok] at ha' hs'
  rw [headings_eq num clock _ es hok] at hs'
  rw [mrtFixes, select_pos num clock _ es hok, select_pos num clock _ es hok, select_att num clock _ es hok]
  have hA : ∀ e ∈ es.filter (isPos "AUV 1".toList), MrtReadable num clock e ∧ isPos "AUV 1".toList e = true := fun e he =>
    ⟨hok e (List.mem_of_mem_filter he), List.of_mem_filter he⟩
  have hS : ∀ e ∈ es.filter (isPos "GNSS 1".toList), MrtReadable num clock e ∧ isPos "GNSS 1".toList e = true := fun e he =>
    ⟨hok e (List.mem_of_mem_filter he), List.of_mem_filter he⟩
  have hH : ∀ e ∈ es.filter (isAtt "MRT-USBL".toList), MrtReadable num clock e ∧ isAtt "MRT-USBL".toList e = true := fun e he =>
    ⟨hok e (List.mem_of_mem_filter he), List.of_mem_filter he⟩
  generalize es.filter (isPos "AUV 1".toList) = A at *
  generalize es.filter (isPos "GNSS 1".toList) = S at *
  generalize es.filter (isAtt "MRT-USBL".toList) = H at *
  rw [sort_eq num clock A (fun e he => (hA e he).1) (fun e he => ⟨_, .inl (hA e he).2⟩),
    sort_eq num clock S (fun e he => (hS e he).1) (fun e he => ⟨_, .inl (hS e he).2⟩),
    sort_eq num clock H (fun e he => (hH e he).1) (fun e he => ⟨_, .inr (hH e he).2⟩)]
  simp only [bind, Except.bind, known_eq]
  rw [List.map_eq_nil_iff, List.map_eq_nil_iff] at hs'
  rw [ne_eq, List.map_eq_nil_iff] at ha'
  have pA := sort_perm clock A
  cases hc' : entrySort clock A with
  | nil => rw [hc'] at pA; exact absurd (List.nil_perm.1 pA) ha'
  | cons a rest =>
    have ga := hA a (pA.mem_iff.1 (by rw [hc']; simp))
    obtain ⟨x1, x2, x3, -⟩ := pos_numbers num clock _ a ga.1 ga.2
    rw [if_neg (by simp)]
    have e1 : ((entrySort clock S).length ≤ 0 ∨ (entrySort clock H).length ≤ 0) := by
      rw [(sort_perm clock S).length_eq, (sort_perm clock H).length_eq]
      rcases hs' with rfl | rfl <;> simp
    simp only [List.map_cons]
    rw [closestLoop, if_pos (by simpa using e1), List.zip_cons_cons, List.mapM_cons, mrtRecord]
    simp only [x1, x2, x3, bind, Except.bind]

/-- The hypotheses of `C233_no_ship` are met by a log that holds one position of the vehicle. -/
example : mrtRun (fun _ => some 0) (fun _ => .ok 0) (fun _ _ _ _ => (0, 0)) (fun _ _ _ _ => (0, 0)) ⟨0, 0, 0, 0, 0, 0⟩
    ([("dive".toList ++ '.' :: "csv".toList, [])] ++ [("dive_1.csv".toList, { smallLog with body := [] })].map fun f => (f.1, f.2.lines))
    ("dive".toList ++ '.' :: "csv".toList) = .error .attributeError := by
  have hp : mrtPoints (fun _ => some 0) "AUV 1".toList [smallLog.first] = [⟨0, 0, 0, 0⟩] := by
    simp only [mrtPoints, smallLog, List.filterMap_cons, List.filterMap_nil, if_true, Option.map_some, zeroAt]
  refine C233_no_ship _ _ _ _ _ _ _ (by decide) (by decide) (by decide) _ _ (by simp)
    (by intro f hf; rw [List.mem_singleton] at hf; subst hf; decide)
    (by intro f hf; rw [List.mem_singleton] at hf; subst hf; decide)
    (by intro f hf; rw [List.mem_singleton] at hf; subst hf; rfl)
    (by intro f hf; rw [List.mem_singleton] at hf; subst hf; exact fun e he => smallLog_ok e (by
          simp only [MrtLogFile.entries, List.mem_cons, List.not_mem_nil, or_false] at he ⊢; exact .inl he))
    (by rw [List.flatMap_singleton]; exact fun e => by rw [show ({ smallLog with body := [] } : MrtLogFile).entries = [smallLog.first] from rfl, hp] at e; cases e)
    (.inr rfl)

/-- C233: if the configured file does not exist, nothing is returned, not an empty list. -/
theorem C233_missing (num : List Char → Res ℝ) (clock : List Char → Option ℝ) (inv dir : ℝ → ℝ → ℝ → ℝ → ℝ × ℝ) (su : MrtSetup)
    (folder : List (List Char × List (List Char))) (name : List Char) (h : name ∉ folder.map Prod.fst) :
    mrtRun clock num inv dir su folder name = .ok none := by
  rw [mrtRun, if_pos h]

end Oplab.Props
