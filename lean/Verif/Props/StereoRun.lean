import Verif.Lemmas.Split
import Verif.Props.ImageParsers
import Verif.Props.Parsers
import Verif.Spec.StereoRun

/-! Property C236: stereo records of ACFR and NTNU dives, from the listing of the folder. -/

namespace Oplab.Props
open Oplab Oplab.Spec

/-! ## Times in names -/

/-- A name such as PR_20180811_153729_762_LC16.tif. -/
def acfrName (pre : List Char) (c : DateTime) (ms : ℕ) (rest : List Char) : List Char :=
  pre ++ '_' :: (padDigits 4 c.year ++ padDigits 2 c.month ++ padDigits 2 c.day)
    ++ '_' :: (padDigits 2 c.hour ++ padDigits 2 c.minute ++ padDigits 2 c.second) ++ '_' :: padDigits 3 ms ++ rest

/-- C236: the time of an image is the date, time of day and milliseconds in its name, less the time zone and plus the offset. -/
theorem C236_acfr_time (pre rest : List Char) (c : DateTime) (ms : ℕ) (tz off : ℚ) (hc : c.ok = true) (hus : c.us = 0)
    (hms : ms < 1000) (hpre : ∀ x ∈ pre, x ≠ '_') (hb : stripBlanks (acfrName pre c ms rest) = acfrName pre c ms rest) :
    acfrTime tz off (acfrName pre c ms rest) = .ok (c.seconds - tz * 3600 + (ms : ℚ) / 1000 + off) := by
  obtain ⟨f1, f2, f3, f4, f5, f6⟩ := validDate_digits c hc
  unfold acfrTime
  rw [hb]
  have hd : ∀ w n, ∀ x ∈ padDigits w n, (x == '_') = false :=
    digits_noSep (· == '_') (by intro x hx; simp only [beq_iff_eq] at hx; subst hx; decide)
  have hs : splitAtSep (· == '_') (acfrName pre c ms rest)
      = pre :: (padDigits 4 c.year ++ (padDigits 2 c.month ++ padDigits 2 c.day))
        :: (padDigits 2 c.hour ++ (padDigits 2 c.minute ++ padDigits 2 c.second))
        :: splitAtSep (· == '_') (padDigits 3 ms ++ rest) := by
    unfold acfrName
    simp only [List.append_assoc, List.cons_append]
    rw [splitSep_append _ _ (by decide), splitSep_none _ pre (by intro x hx; simpa using hpre x hx)]
    rw [← List.append_assoc (padDigits 2 c.month), ← List.append_assoc (padDigits 4 c.year), splitSep_append _ _ (by decide),
      splitSep_none _ _ (by
        intro x hx
        simp only [List.mem_append] at hx
        rcases hx with h | h | h <;> exact hd _ _ x h)]
    rw [← List.append_assoc (padDigits 2 c.minute), ← List.append_assoc (padDigits 2 c.hour), splitSep_append _ _ (by decide),
      splitSep_none _ _ (by
        intro x hx
        simp only [List.mem_append] at hx
        rcases hx with h | h | h <;> exact hd _ _ x h)]
    rfl
  have hfst : ∃ tl rest', splitAtSep (· == '_') (padDigits 3 ms ++ rest) = (padDigits 3 ms ++ rest') :: tl := by
    have key : ∀ a : List Char, (∀ x ∈ a, (x == '_') = false) →
        ∃ tl rest', splitAtSep (· == '_') (a ++ rest) = (a ++ rest') :: tl := by
      intro a
      induction a with
      | nil =>
        intro _
        obtain ⟨x, xs, hx⟩ := List.exists_cons_of_ne_nil (splitSep_ne (· == '_') rest)
        exact ⟨xs, x, by simpa using hx⟩
      | cons y ys ih =>
        intro h
        obtain ⟨tl, r', he⟩ := ih fun x hx => h x (List.mem_cons_of_mem _ hx)
        refine ⟨tl, r', ?_⟩
        simp only [List.cons_append, splitAtSep, h y List.mem_cons_self, Bool.false_eq_true, if_false, he, List.headD_cons,
          List.tail_cons]
    exact key _ (hd 3 ms)
  obtain ⟨tl, rest', hfst⟩ := hfst
  rw [hs, hfst]
  dsimp only
  have s1 := slice_between [] (padDigits 4 c.year) (padDigits 2 c.month ++ padDigits 2 c.day) 0 4 rfl (by simp [padDigits_length])
  have s2 := slice_between (padDigits 4 c.year) (padDigits 2 c.month) (padDigits 2 c.day) 4 6 (by simp [padDigits_length])
    (by simp [padDigits_length])
  have s3 := slice_between (padDigits 4 c.year ++ padDigits 2 c.month) (padDigits 2 c.day) [] 6 8 (by simp [padDigits_length])
    (by simp [padDigits_length])
  have s4 := slice_between [] (padDigits 2 c.hour) (padDigits 2 c.minute ++ padDigits 2 c.second) 0 2 rfl (by simp [padDigits_length])
  have s5 := slice_between (padDigits 2 c.hour) (padDigits 2 c.minute) (padDigits 2 c.second) 2 4 (by simp [padDigits_length])
    (by simp [padDigits_length])
  have s6 := slice_between (padDigits 2 c.hour ++ padDigits 2 c.minute) (padDigits 2 c.second) [] 4 6 (by simp [padDigits_length])
    (by simp [padDigits_length])
  have s7 := slice_between [] (padDigits 3 ms) rest' 0 3 rfl (by simp [padDigits_length])
  simp only [List.nil_append, List.append_nil, List.append_assoc] at s1 s2 s3 s4 s5 s6 s7
  rw [s1, s2, s3, s4, s5, s6, s7, pyInt_padDigits 4 _ (by norm_num) f1, pyInt_padDigits 2 _ (by norm_num) f2,
    pyInt_padDigits 2 _ (by norm_num) f3, pyInt_padDigits 2 _ (by norm_num) f4, pyInt_padDigits 2 _ (by norm_num) f5,
    pyInt_padDigits 2 _ (by norm_num) f6, pyInt_padDigits 3 _ (by norm_num) hms]
  have hce : (⟨c.year, c.month, c.day, c.hour, c.minute, c.second, 0⟩ : DateTime) = c := by rw [← hus]
  simp only [bind, Except.bind, dateTimeToEpoch, hce, hc, if_true, Except.ok.injEq]
  push_cast
  ring

/-- The name in the comment of the parser. -/
example : acfrTime 0 0 "PR_20180811_153729_762_LC16.tif".toList
    = .ok (((⟨2018, 8, 11, 15, 37, 29, 0⟩ : DateTime).seconds : ℚ) + 762 / 1000) := by
  have e : "PR_20180811_153729_762_LC16.tif".toList
      = acfrName ['P', 'R'] ⟨2018, 8, 11, 15, 37, 29, 0⟩ 762 "_LC16.tif".toList := by decide +kernel
  rw [e, C236_acfr_time _ _ _ _ _ _ (by decide) rfl (by norm_num) (by decide) (by decide +kernel)]
  norm_num

/-! ## One call -/

private theorem stereoStamps_ok (time : List Char → Res ℚ) : ∀ (pics : List StereoPic) (l : List (StereoPic × ℚ)) (st : List ℚ),
    TimedAs time pics l → stereoStamps time st pics = (st ++ l.map Prod.snd, none)
  | [], l, st, h => by
    cases h
    simp [stereoStamps]
  | p :: ps, l, st, h => by
    cases h with
    | cons h1 h2 =>
      rename_i q l'
      simp only [stereoStamps, h1.2]
      rw [stereoStamps_ok time ps l' _ h2]
      simp

private theorem timedAs_fst {time : List Char → Res ℚ} {pics : List StereoPic} {l : List (StereoPic × ℚ)}
    (h : TimedAs time pics l) : l.map Prod.fst = pics := by
  induction h with
  | nil => rfl
  | cons h1 _ ih => simp [ih, h1.1]

private theorem pairs_forall (right : List (StereoPic × ℚ)) (hr : right ≠ []) : ∀ (left pre : List (StereoPic × ℚ)),
    ∃ out, stereoPairsFrom (fun d => ¬ d > (1 / 20 : ℚ)) (right.map Prod.snd) pre.length (left.map Prod.snd) = .ok out ∧
      PairsOf left right (out.filterMap fun p =>
        match (pre ++ left)[p.1]?, right[p.2]? with
        | some l, some r => some ⟨l.2, l.1, r.2, r.1⟩
        | _, _ => none)
  | [], pre => ⟨[], by simp [stereoPairsFrom], by simp [PairsOf]⟩
  | l :: ls, pre => by
    obtain ⟨rest, h1, h2⟩ := pairs_forall right hr ls (pre ++ [l])
    simp only [List.length_append, List.length_cons, List.length_nil, Nat.zero_add, List.append_assoc, List.cons_append,
      List.nil_append] at h1 h2
    simp only [List.map_cons, stereoPairsFrom]
    cases hm : minIdx 0 ((right.map Prod.snd).map fun r => |l.2 - r|) with
    | none =>
      exfalso
      cases right with
      | nil => exact hr rfl
      | cons r rs =>
        simp only [List.map_cons, minIdx] at hm
        split at hm
        · simp at hm
        · split at hm <;> simp at hm
    | some dj =>
      obtain ⟨d, j⟩ := dj
      obtain ⟨-, m2, m3, m4⟩ := minIdx_spec _ _ _ _ hm
      rw [Nat.sub_zero, List.getElem?_map, List.getElem?_map] at m2
      cases hj : right[j]? with
      | none => rw [hj] at m2; simp at m2
      | some r =>
        rw [hj] at m2
        simp only [Option.map_some, Option.some.injEq] at m2
        have hnear : NearestOf l right r := by
          refine ⟨j, hj, ?_⟩
          intro k r' hk
          refine ⟨?_, ?_⟩
          · rw [m2]
            exact m3 _ (List.mem_map.2 ⟨r'.2, List.mem_map.2 ⟨r', List.mem_of_getElem? hk, rfl⟩, rfl⟩)
          · intro hlt
            rw [m2]
            exact m4 k _ (by omega) (by rw [List.getElem?_map, List.getElem?_map, hk]; rfl)
        refine ⟨_, by simp only [h1, bind, Except.bind]; rfl, ?_⟩
        by_cases hp : HasPartner right l
        · have hd : ¬ d > 1 / 20 := by
            obtain ⟨r', hr', hle⟩ := hp
            have := m3 _ (List.mem_map.2 ⟨r'.2, List.mem_map.2 ⟨r', hr', rfl⟩, rfl⟩)
            exact not_lt.2 (le_trans this hle)
          rw [if_pos (by simpa using hd)]
          unfold PairsOf
          rw [List.filter_cons_of_pos (by simpa using hp), List.filterMap_cons]
          simp only [List.getElem?_append_right (le_refl pre.length), Nat.sub_self, List.getElem?_cons_zero, hj]
          exact List.Forall₂.cons ⟨rfl, rfl, hnear⟩ h2
        · have hd : d > 1 / 20 := by
            by_contra hd
            exact hp ⟨r, List.mem_of_getElem? hj, by rw [m2]; exact not_lt.1 hd⟩
          rw [if_neg (by simpa using hd)]
          unfold PairsOf
          rw [List.filter_cons_of_neg (by simpa using hp)]
          exact h2

private theorem take_zip {α β : Type} : ∀ (a : List α) (b : List β), b.take a.length = (a.zip b).map Prod.snd
  | [], b => by simp
  | _ :: _, [] => by simp
  | _ :: a, _ :: b => by simp [take_zip a b]

private theorem shots_spec (pics1 pics2 : List StereoPic) (c1 c2 : List ℚ) (h1 : pics1.length ≤ c1.length)
    (h2 : pics2.length ≤ c2.length) (hne : pics1 ≠ [] → pics2 ≠ []) :
    ∃ out, stereoShots (c1.take pics1.length) (c2.take pics2.length) pics1 pics2 = .ok out ∧
      PairsOf (pics1.zip c1) (pics2.zip c2) out := by
  have e1 : c1.take pics1.length = (pics1.zip c1).map Prod.snd := take_zip pics1 c1
  have e2 : c2.take pics2.length = (pics2.zip c2).map Prod.snd := take_zip pics2 c2
  have f1 : pics1 = (pics1.zip c1).map Prod.fst := by rw [List.map_fst_zip h1]
  have f2 : pics2 = (pics2.zip c2).map Prod.fst := by rw [List.map_fst_zip h2]
  generalize hl : pics1.zip c1 = left at e1 f1
  generalize hr : pics2.zip c2 = right at e2 f2
  unfold stereoShots acfrPairs
  rw [e1, e2]
  by_cases hp : pics1 = []
  · have : left = [] := by rw [← hl, hp]; rfl
    subst this
    exact ⟨[], by simp [stereoPairsFrom, bind, Except.bind], by simp [PairsOf]⟩
  · have hrn : right ≠ [] := by
      intro h
      rw [h] at f2
      exact hne hp (by simpa using f2)
    obtain ⟨out, g1, g2⟩ := pairs_forall right hrn left []
    simp only [List.length_nil, List.nil_append] at g1 g2
    rw [g1]
    refine ⟨_, rfl, ?_⟩
    convert g2 using 2
    rename_i p _
    rw [f1, f2]
    simp only [List.getElem?_map]
    cases left[p.1]? <;> cases right[p.2]? <;> rfl

private theorem call_spec (time : List Char → Res ℚ) (pics1 pics2 : List StereoPic) (l r : List (StereoPic × ℚ))
    (st : StampLists ℚ) (hl : TimedAs time pics1 l) (hr : TimedAs time pics2 r) (hne : pics1 ≠ [] → pics2 ≠ []) :
    (stereoCall time pics1 pics2 st).1 = ⟨st.cam1 ++ l.map Prod.snd, st.cam2 ++ r.map Prod.snd⟩ ∧
    ∃ out, (stereoCall time pics1 pics2 st).2 = .ok out ∧
      PairsOf (pics1.zip (st.cam1 ++ l.map Prod.snd)) (pics2.zip (st.cam2 ++ r.map Prod.snd)) out := by
  unfold stereoCall
  rw [stereoStamps_ok _ _ _ _ hl, stereoStamps_ok _ _ _ _ hr]
  refine ⟨rfl, ?_⟩
  apply shots_spec _ _ _ _ _ _ hne
  · have := hl.length_eq
    simp only [List.length_append, List.length_map]
    omega
  · have := hr.length_eq
    simp only [List.length_append, List.length_map]
    omega

private theorem zip_timed {time : List Char → Res ℚ} {pics : List StereoPic} {l : List (StereoPic × ℚ)}
    (h : TimedAs time pics l) : pics.zip (l.map Prod.snd) = l := by
  induction h with
  | nil => rfl
  | cons h1 _ ih =>
    rename_i p q _ _ _
    simp only [List.map_cons, List.zip_cons_cons, ih, List.cons.injEq, and_true]
    rw [← h1.1]

private theorem acfrPics_of (d : AcfrDive) (label : List Char) (pics : List StereoPic) (h : AcfrPicsOf d label pics) :
    acfrPics d.folder label d.names = pics := by
  have e1 : txtMark = ".txt".toList := by decide
  have e2 : hiddenMark = "._".toList := by decide
  have e3 : "/".toList = ['/'] := by decide
  unfold AcfrPicsOf at h
  rw [h, acfrPics, ← e1, ← e2, e3]
  congr 1
  · funext n; simp
  · apply List.filter_congr
    intro n _
    simp only [hasText]
    by_cases h1 : label <:+: n <;> by_cases h2 : txtMark <:+: n <;> by_cases h3 : hiddenMark <:+: n <;> simp [h1, h2, h3]

/-- What one call gives when the lists of the module hold the times `s1` and `s2` of the calls before it. -/
private theorem acfr_call (d : AcfrDive) (pics1 pics2 : List StereoPic) (l r : List (StereoPic × ℚ)) (st : StampLists ℚ)
    (h1 : AcfrPicsOf d d.label1 pics1) (h2 : AcfrPicsOf d d.label2 pics2)
    (hl : TimedAs (acfrTime d.tz d.offset) pics1 l) (hr : TimedAs (acfrTime d.tz d.offset) (if pics2 = [] then pics1 else pics2) r) :
    (acfrCall d st).1 = ⟨st.cam1 ++ l.map Prod.snd, st.cam2 ++ r.map Prod.snd⟩ ∧
    ∃ out, (acfrCall d st).2 = .ok out ∧
      PairsOf (pics1.zip (st.cam1 ++ l.map Prod.snd)) ((if pics2 = [] then pics1 else pics2).zip (st.cam2 ++ r.map Prod.snd)) out := by
  unfold acfrCall
  rw [acfrPics_of d _ _ h1, acfrPics_of d _ _ h2]
  have e : (if pics2.length = 0 then pics1 else pics2) = if pics2 = [] then pics1 else pics2 := by
    simp only [List.length_eq_zero_iff]
  rw [e]
  refine call_spec _ _ _ l r st hl hr ?_
  intro hp
  split
  · exact hp
  · assumption

/-- C236 (partial): the first dive with ACFR images that a process parses.  For every listing in which each image of both
cameras has a readable time there is one record for each image of the first camera with an image of the second within 50 ms,
in the order of the listing, with the times in the names and the nearest image of the second camera.  Missing: later dives
(false, see below). -/
theorem C236_acfr_partial (d : AcfrDive) (pics1 pics2 : List StereoPic) (l r : List (StereoPic × ℚ))
    (h1 : AcfrPicsOf d d.label1 pics1) (h2 : AcfrPicsOf d d.label2 pics2) (hne : pics2 ≠ [])
    (hl : TimedAs (acfrTime d.tz d.offset) pics1 l) (hr : TimedAs (acfrTime d.tz d.offset) pics2 r) :
    ∃ out, (acfrCall d {}).2 = .ok out ∧ PairsOf l r out := by
  obtain ⟨-, out, h, hp⟩ := acfr_call d pics1 pics2 l r {} h1 h2 hl (by rw [if_neg hne]; exact hr)
  refine ⟨out, h, ?_⟩
  simp only [List.nil_append, if_neg hne] at hp
  rwa [zip_timed hl, zip_timed hr] at hp

/-- C236: with one camera only and no two images at the same time, every image gives one record, paired with itself. -/
theorem C236_single (d : AcfrDive) (pics : List StereoPic) (l : List (StereoPic × ℚ)) (h1 : AcfrPicsOf d d.label1 pics)
    (h2 : AcfrPicsOf d d.label2 []) (hl : TimedAs (acfrTime d.tz d.offset) pics l) (hd : (l.map Prod.snd).Nodup) :
    (acfrCall d {}).2 = .ok (l.map fun p => ⟨p.2, p.1, p.2, p.1⟩) := by
  obtain ⟨-, out, h, hp⟩ := acfr_call d pics [] l l {} h1 h2 hl (by rw [if_pos rfl]; exact hl)
  rw [h]
  simp only [List.nil_append, if_true] at hp
  rw [zip_timed hl] at hp
  unfold PairsOf at hp
  rw [List.filter_eq_self.2 (by
    intro a ha
    simp only [decide_eq_true_eq]
    exact ⟨a, ha, by simp⟩)] at hp
  congr 1
  have key : ∀ (a : StereoPic × ℚ) (s : StereoShot), a ∈ l → (s.pic1 = a.1 ∧ s.t1 = a.2 ∧ NearestOf a l (s.pic2, s.t2)) →
      s = ⟨a.2, a.1, a.2, a.1⟩ := by
    rintro a ⟨t1, p1, t2, p2⟩ ha ⟨e1, e2, i, hi, hmin⟩
    obtain ⟨j, hj⟩ := List.getElem?_of_mem ha
    have hz := (hmin j a hj).1
    simp only [sub_self, abs_zero] at hz e1 e2
    have h0 : a.2 - t2 = 0 := abs_eq_zero.1 (le_antisymm hz (abs_nonneg _))
    have ht : t2 = a.2 := by linarith
    have : (p2, t2) = a := List.inj_on_of_nodup_map hd (List.mem_of_getElem? hi) ha ht
    subst this
    simp only at e1 e2
    rw [e1, e2]
  clear h h1 h2 hl
  generalize hm : l = m at hp
  have hsub : ∀ a ∈ m, a ∈ l := by intro a ha; rw [hm]; exact ha
  have e : ∀ (m : List (StereoPic × ℚ)) (out : List StereoShot), (∀ a ∈ m, a ∈ l) →
      List.Forall₂ (fun a s => s.pic1 = a.1 ∧ s.t1 = a.2 ∧ NearestOf a l (s.pic2, s.t2)) m out →
      out = m.map fun p => ⟨p.2, p.1, p.2, p.1⟩ := by
    intro m out hs hf
    induction hf with
    | nil => rfl
    | cons g1 _ ih =>
      rw [List.map_cons, ih fun a ha => hs a (List.mem_cons_of_mem _ ha), key _ _ (hs _ List.mem_cons_self) g1]
  rw [← hm]
  exact e l out (fun _ h => h) (hm ▸ hp)

/-! ## Histories -/

/-- A readable ACFR dive with its images and times. -/
structure AcfrRead where
  dive : AcfrDive
  pics1 : List StereoPic
  pics2 : List StereoPic
  times1 : List (StereoPic × ℚ)
  times2 : List (StereoPic × ℚ)
  ok1 : AcfrPicsOf dive dive.label1 pics1
  ok2 : AcfrPicsOf dive dive.label2 pics2
  two : pics2 ≠ []
  read1 : TimedAs (acfrTime dive.tz dive.offset) pics1 times1
  read2 : TimedAs (acfrTime dive.tz dive.offset) pics2 times2

/-- The claim: what a process gives for a dive depends on the dive alone. -/
def StereoAlone : Prop := ∀ (before : List AcfrRead) (d : AcfrRead) (out : List StereoShot),
  (stereoCalls acfrCall {} ((before ++ [d]).map AcfrRead.dive))[before.length]? = some (.ok out) → PairsOf d.times1 d.times2 out

private theorem calls_state (before : List AcfrRead) (d : AcfrRead) : ∀ st : StampLists ℚ,
    (stereoCalls acfrCall st ((before ++ [d]).map AcfrRead.dive))[before.length]?
      = some (acfrCall d.dive ⟨st.cam1 ++ (before.flatMap fun b => b.times1.map Prod.snd),
          st.cam2 ++ (before.flatMap fun b => b.times2.map Prod.snd)⟩).2 := by
  induction before with
  | nil => intro st; simp [stereoCalls]
  | cons b bs ih =>
    intro st
    simp only [List.cons_append, List.map_cons, stereoCalls, List.length_cons, List.getElem?_cons_succ]
    rw [ih]
    have := (acfr_call b.dive b.pics1 b.pics2 b.times1 b.times2 st b.ok1 b.ok2 b.read1 (by rw [if_neg b.two]; exact b.read2)).1
    rw [this]
    simp

/-- C236 (partial): a later dive.  Its images get the first of all the times that were read since the process started,
counted from the first dive; images are paired by these times. -/
theorem C236_history_partial (before : List AcfrRead) (d : AcfrRead) :
    ∃ out, (stereoCalls acfrCall {} ((before ++ [d]).map AcfrRead.dive))[before.length]? = some (.ok out) ∧
      PairsOf (d.pics1.zip ((before ++ [d]).flatMap fun b => b.times1.map Prod.snd))
        (d.pics2.zip ((before ++ [d]).flatMap fun b => b.times2.map Prod.snd)) out := by
  rw [calls_state]
  obtain ⟨-, out, h, hp⟩ := acfr_call d.dive d.pics1 d.pics2 d.times1 d.times2
    ⟨[] ++ (before.flatMap fun b => b.times1.map Prod.snd), [] ++ (before.flatMap fun b => b.times2.map Prod.snd)⟩
    d.ok1 d.ok2 d.read1 (by rw [if_neg d.two]; exact d.read2)
  refine ⟨out, congrArg some h, ?_⟩
  simp only [if_neg d.two, List.nil_append] at hp
  simpa using hp

private theorem forall₂_fun {α β : Type} (R : α → β → Prop) (hR : ∀ a b c, R a b → R a c → b = c) :
    ∀ (l : List α) (x y : List β), List.Forall₂ R l x → List.Forall₂ R l y → x = y := by
  intro l x y h
  induction h generalizing y with
  | nil => intro h'; cases h'; rfl
  | cons h1 _ ih =>
    intro h'
    cases h' with
    | cons g1 g2 => rw [hR _ _ _ h1 g1, ih _ g2]

/-- The nearest image is determined. -/
private theorem nearest_unique (l : StereoPic × ℚ) (right : List (StereoPic × ℚ)) (r r' : StereoPic × ℚ) (h : NearestOf l right r)
    (h' : NearestOf l right r') : r = r' := by
  obtain ⟨i, hi, hm⟩ := h
  obtain ⟨j, hj, hm'⟩ := h'
  rcases lt_trichotomy i j with h | h | h
  · have a := (hm' i r hi).2 h
    have b := (hm j r' hj).1
    linarith
  · subst h
    rw [hi] at hj
    exact Option.some.inj hj
  · have a := (hm j r' hj).2 h
    have b := (hm' i r hi).1
    linarith

private theorem pairsOf_unique (left right : List (StereoPic × ℚ)) (x y : List StereoShot) (h : PairsOf left right x)
    (h' : PairsOf left right y) : x = y := by
  refine forall₂_fun _ ?_ _ _ _ h h'
  rintro a ⟨t1, p1, t2, p2⟩ ⟨u1, q1, u2, q2⟩ ⟨a1, a2, a3⟩ ⟨b1, b2, b3⟩
  have := nearest_unique _ _ _ _ a3 b3
  simp only [Prod.mk.injEq] at this
  simp only at a1 a2 b1 b2
  simp_all

/-- C236: parsing the same dive again, any number of times, gives the records it gave the first time. -/
theorem C236_again (d : AcfrRead) (n : ℕ) :
    (stereoCalls acfrCall {} ((List.replicate n d ++ [d]).map AcfrRead.dive))[n]? = some (acfrCall d.dive {}).2 := by
  obtain ⟨out, h, hp⟩ := C236_history_partial (List.replicate n d) d
  rw [List.length_replicate] at h
  obtain ⟨out', h', hp'⟩ := C236_acfr_partial d.dive d.pics1 d.pics2 d.times1 d.times2 d.ok1 d.ok2 d.two d.read1 d.read2
  rw [h, h']
  have e : ∀ (f : AcfrRead → List ℚ) (p : List StereoPic), p.length = (f d).length →
      p.zip ((List.replicate n d ++ [d]).flatMap f) = p.zip (f d) := by
    intro f p hlen
    cases n with
    | zero => simp
    | succ n =>
      simp only [List.replicate_succ, List.cons_append, List.flatMap_cons]
      have : p = p ++ [] := by simp
      conv_lhs => rw [this]
      rw [List.zip_append hlen]
      simp
  rw [e (fun b => b.times1.map Prod.snd) _ (by simpa using d.read1.length_eq),
    e (fun b => b.times2.map Prod.snd) _ (by simpa using d.read2.length_eq), zip_timed d.read1, zip_timed d.read2] at hp
  rw [pairsOf_unique _ _ _ _ hp hp']

/-- A dive with one pair of images, taken at `c`. -/
private def onePair (c : DateTime) : AcfrDive :=
  ⟨0, 0, "/raw".toList, "LC".toList, "RC".toList,
    [acfrName ['P', 'R'] c 0 "_LC16.tif".toList, acfrName ['P', 'R'] c 10 "_RC16.tif".toList]⟩

private def aug11 : DateTime := ⟨2018, 8, 11, 15, 37, 29, 0⟩
private def aug12 : DateTime := ⟨2018, 8, 12, 15, 37, 29, 0⟩

private theorem onePair_pics (c : DateTime) (h : c = aug11 ∨ c = aug12) :
    AcfrPicsOf (onePair c) "LC".toList [⟨acfrName ['P', 'R'] c 0 "_LC16.tif".toList,
      "/raw/".toList ++ acfrName ['P', 'R'] c 0 "_LC16.tif".toList⟩] ∧
    AcfrPicsOf (onePair c) "RC".toList [⟨acfrName ['P', 'R'] c 10 "_RC16.tif".toList,
      "/raw/".toList ++ acfrName ['P', 'R'] c 10 "_RC16.tif".toList⟩] := by
  have key : ∀ (label : List Char) (pics : List StereoPic),
      pics = ((onePair c).names.filter fun n => decide (label <:+: n ∧ ¬ ".txt".toList <:+: n ∧ ¬ "._".toList <:+: n)).map
        (fun n => ⟨n, (onePair c).folder ++ "/".toList ++ n⟩) → AcfrPicsOf (onePair c) label pics := by
    intro label pics hp
    unfold AcfrPicsOf
    rw [hp]
  rcases h with rfl | rfl
  · exact ⟨key _ _ (by decide +kernel), key _ _ (by decide +kernel)⟩
  · exact ⟨key _ _ (by decide +kernel), key _ _ (by decide +kernel)⟩

private theorem onePair_time (c : DateTime) (h : c = aug11 ∨ c = aug12) :
    acfrTime 0 0 (acfrName ['P', 'R'] c 0 "_LC16.tif".toList) = .ok c.seconds ∧
    acfrTime 0 0 (acfrName ['P', 'R'] c 10 "_RC16.tif".toList) = .ok (c.seconds + 1 / 100) := by
  have hc : c.ok = true ∧ c.us = 0 := by rcases h with rfl | rfl <;> decide
  have hs : stripBlanks (acfrName ['P', 'R'] c 0 "_LC16.tif".toList) = acfrName ['P', 'R'] c 0 "_LC16.tif".toList ∧
      stripBlanks (acfrName ['P', 'R'] c 10 "_RC16.tif".toList) = acfrName ['P', 'R'] c 10 "_RC16.tif".toList := by
    rcases h with rfl | rfl <;> decide +kernel
  rw [C236_acfr_time _ _ _ _ _ _ hc.1 hc.2 (by norm_num) (by decide) hs.1,
    C236_acfr_time _ _ _ _ _ _ hc.1 hc.2 (by norm_num) (by decide) hs.2]
  constructor <;> · congr 1; norm_num

private def onePairRead (c : DateTime) (h : c = aug11 ∨ c = aug12) : AcfrRead where
  dive := onePair c
  pics1 := [⟨acfrName ['P', 'R'] c 0 "_LC16.tif".toList, "/raw/".toList ++ acfrName ['P', 'R'] c 0 "_LC16.tif".toList⟩]
  pics2 := [⟨acfrName ['P', 'R'] c 10 "_RC16.tif".toList, "/raw/".toList ++ acfrName ['P', 'R'] c 10 "_RC16.tif".toList⟩]
  times1 := [(⟨acfrName ['P', 'R'] c 0 "_LC16.tif".toList, "/raw/".toList ++ acfrName ['P', 'R'] c 0 "_LC16.tif".toList⟩, c.seconds)]
  times2 := [(⟨acfrName ['P', 'R'] c 10 "_RC16.tif".toList, "/raw/".toList ++ acfrName ['P', 'R'] c 10 "_RC16.tif".toList⟩,
    c.seconds + 1 / 100)]
  ok1 := (onePair_pics c h).1
  ok2 := (onePair_pics c h).2
  two := by simp
  read1 := List.Forall₂.cons ⟨rfl, (onePair_time c h).1⟩ List.Forall₂.nil
  read2 := List.Forall₂.cons ⟨rfl, (onePair_time c h).2⟩ List.Forall₂.nil

/-- The hypotheses of the theorems above are met: the dive of 11 August gives its one record. -/
example : ∃ out, (acfrCall (onePair aug11) {}).2 = .ok out ∧ ∃ s, out = [s] ∧ s.t1 = aug11.seconds ∧
    s.t2 = aug11.seconds + 1 / 100 := by
  have d := onePairRead aug11 (Or.inl rfl)
  obtain ⟨out, h, hp⟩ := C236_acfr_partial (onePairRead aug11 (Or.inl rfl)).dive _ _ _ _ (onePairRead aug11 (Or.inl rfl)).ok1
    (onePairRead aug11 (Or.inl rfl)).ok2 (onePairRead aug11 (Or.inl rfl)).two (onePairRead aug11 (Or.inl rfl)).read1
    (onePairRead aug11 (Or.inl rfl)).read2
  refine ⟨out, h, ?_⟩
  unfold PairsOf at hp
  rw [List.filter_eq_self.2 (by
    intro a ha
    simp only [onePairRead, List.mem_singleton] at ha
    subst ha
    simp only [decide_eq_true_eq, HasPartner, onePairRead, List.mem_singleton, exists_eq_left]
    norm_num [abs_of_neg])] at hp
  simp only [onePairRead, List.forall₂_cons_left_iff, List.forall₂_nil_left_iff] at hp
  obtain ⟨s, _, ⟨-, h2, i, hi, -⟩, rfl, rfl⟩ := hp
  refine ⟨s, rfl, h2, ?_⟩
  have := List.mem_of_getElem? hi
  simp only [List.mem_singleton, Prod.mk.injEq] at this
  exact this.2

/-- C236 is false: after the dive of 11 August the images of 12 August are recorded with the times of the day before. -/
theorem C236_history_false : ¬ StereoAlone := by
  intro h
  obtain ⟨out, h1, h2⟩ := C236_history_partial [onePairRead aug11 (Or.inl rfl)] (onePairRead aug12 (Or.inr rfl))
  have h3 := h [onePairRead aug11 (Or.inl rfl)] (onePairRead aug12 (Or.inr rfl)) out h1
  unfold PairsOf at h3 h2
  rw [List.filter_eq_self.2 (by
    intro a ha
    simp only [onePairRead, List.mem_singleton] at ha
    subst ha
    simp only [decide_eq_true_eq, HasPartner, onePairRead, List.mem_singleton, exists_eq_left]
    norm_num [abs_of_neg])] at h3
  have hz : ((onePairRead aug12 (Or.inr rfl)).pics1.zip
      ((([onePairRead aug11 (Or.inl rfl)] ++ [onePairRead aug12 (Or.inr rfl)]).flatMap fun b => b.times1.map Prod.snd)))
      = [((onePairRead aug12 (Or.inr rfl)).pics1.head (by simp [onePairRead]), (aug11.seconds : ℚ))] := by
    simp [onePairRead]
  rw [hz] at h2
  simp only [onePairRead, List.forall₂_cons_left_iff, List.forall₂_nil_left_iff] at h3
  obtain ⟨s, _, ⟨-, e, -⟩, rfl, rfl⟩ := h3
  rw [List.filter_cons] at h2
  split at h2
  · simp only [List.filter_nil, List.forall₂_cons_left_iff, List.forall₂_nil_left_iff] at h2
    obtain ⟨s', _, ⟨-, e', -⟩, -, h5⟩ := h2
    simp only [List.cons.injEq] at h5
    rw [h5.1] at e
    rw [e'] at e
    have : aug11.seconds = aug12.seconds := by exact_mod_cast e
    revert this
    decide
  · simp at h2

/-- C236: a name of the first camera that cannot be read ends the whole dive without records. -/
theorem C236_unreadable (d : AcfrDive) (pics1 : List StereoPic) (p : StereoPic) (e : Err) (st : StampLists ℚ)
    (h1 : AcfrPicsOf d d.label1 pics1) (hp : p ∈ pics1) (he : acfrTime d.tz d.offset p.name = .error e) :
    ∃ e', (acfrCall d st).2 = .error e' := by
  have key : ∀ (pics : List StereoPic) (s : List ℚ), p ∈ pics →
      ∃ c e', stereoStamps (acfrTime d.tz d.offset) s pics = (c, some e') := by
    intro pics
    induction pics with
    | nil => intro s h; simp at h
    | cons q qs ih =>
      intro s h
      simp only [stereoStamps]
      cases hq : acfrTime d.tz d.offset q.name with
      | error e' => exact ⟨s, e', rfl⟩
      | ok t =>
        rcases List.mem_cons.1 h with rfl | h
        · rw [he] at hq; cases hq
        · exact ih _ h
  obtain ⟨c, e', hs⟩ := key pics1 st.cam1 hp
  unfold acfrCall
  rw [acfrPics_of d _ _ h1]
  simp only [stereoCall, hs]
  exact ⟨e', rfl⟩

/-! ## NTNU -/

open Classical in
/-- The images of a side: the files below the folder whose names end in L.jpg or R.jpg. -/
def NtnuPicsOf (d : NtnuDive) (ending : List Char) (pics : List StereoPic) : Prop :=
  pics = (d.paths.filter fun p => p.isFile = true ∧ ending <:+ p.name).map fun p => ⟨p.name, p.rel⟩

private theorem ntnuPics_of (d : NtnuDive) (side : Char) (ending : List Char) (he : ending = side :: jpgMark)
    (pics : List StereoPic) (h : NtnuPicsOf d ending pics) : ntnuPics side d.paths = pics := by
  unfold NtnuPicsOf at h
  rw [h, ntnuPics, he]
  congr 1
  apply List.filter_congr
  intro p _
  by_cases h1 : side :: jpgMark <:+ p.name <;> cases h2 : p.isFile <;> simp [h1]

/-- C236 (partial): the first dive with NTNU images that a process parses.  Missing: the times in the names are wrong (see
C138), and later dives. -/
theorem C236_ntnu_partial (d : NtnuDive) (pics1 pics2 : List StereoPic) (l r : List (StereoPic × ℚ))
    (h1 : NtnuPicsOf d "L.jpg".toList pics1) (h2 : NtnuPicsOf d "R.jpg".toList pics2) (hne : pics2 ≠ [])
    (hl : TimedAs (fun n => ntnuTime n d.tz d.offset) pics1 l) (hr : TimedAs (fun n => ntnuTime n d.tz d.offset) pics2 r) :
    ∃ out, (ntnuCall d {}).2 = .ok out ∧ PairsOf l r out := by
  unfold ntnuCall
  rw [ntnuPics_of d 'L' _ (by decide) _ h1, ntnuPics_of d 'R' _ (by decide) _ h2]
  obtain ⟨-, out, h, hp⟩ := call_spec _ pics1 pics2 l r {} hl hr (fun _ => hne)
  refine ⟨out, h, ?_⟩
  simp only [List.nil_append] at hp
  rwa [zip_timed hl, zip_timed hr] at hp

/-- C236: with images of the left camera only the dive is not parsed. -/
theorem C236_ntnu_left_only (d : NtnuDive) (pics1 : List StereoPic) (l : List (StereoPic × ℚ))
    (h1 : NtnuPicsOf d "L.jpg".toList pics1) (h2 : NtnuPicsOf d "R.jpg".toList []) (hne : pics1 ≠ [])
    (hl : TimedAs (fun n => ntnuTime n d.tz d.offset) pics1 l) : (ntnuCall d {}).2 = .error .valueError := by
  unfold ntnuCall
  rw [ntnuPics_of d 'L' _ (by decide) _ h1, ntnuPics_of d 'R' _ (by decide) _ h2]
  unfold stereoCall
  rw [stereoStamps_ok _ _ _ _ hl]
  simp only [stereoStamps, List.nil_append, List.length_nil, List.take_zero]
  have hlen := hl.length_eq
  cases l with
  | nil => simp only [List.length_nil, List.length_eq_zero_iff] at hlen; exact absurd hlen hne
  | cons q l =>
    cases pics1 with
    | nil => exact absurd rfl hne
    | cons p ps => simp [stereoShots, acfrPairs, stereoPairsFrom, minIdx, bind, Except.bind]

/-- The claim: a left and a right image taken within 50 ms of each other are paired when there are no other images. -/
def NtnuPaired : Prop := ∀ (yy mo d h mi s s' f f' : ℕ), yy < 100 →
  (⟨2000 + yy, mo, d, h, mi, s, 0⟩ : DateTime).ok = true → (⟨2000 + yy, mo, d, h, mi, s', 0⟩ : DateTime).ok = true →
  f < 10000 → f' < 10000 → |((s : ℚ) + f / 10000) - (s' + f' / 10000)| ≤ 1 / 20 →
  ∃ x, (ntnuCall ⟨0, 0, [⟨ntnuName yy mo d h mi s f "L.jpg".toList, ntnuName yy mo d h mi s f "L.jpg".toList, true⟩,
    ⟨ntnuName yy mo d h mi s' f' "R.jpg".toList, ntnuName yy mo d h mi s' f' "R.jpg".toList, true⟩]⟩ {}).2 = .ok [x]

/-- C236: the claim is false: images 6 ms apart are not paired. -/
theorem C236_ntnu_tolerance_false : ¬ NtnuPaired := by
  intro h
  obtain ⟨x, hx⟩ := h 21 4 20 16 5 50 50 100 160 (by norm_num) (by decide) (by decide) (by norm_num) (by norm_num)
    (by norm_num [abs_of_neg])
  generalize hn1 : ntnuName 21 4 20 16 5 50 100 "L.jpg".toList = n1 at hx
  generalize hn2 : ntnuName 21 4 20 16 5 50 160 "R.jpg".toList = n2 at hx
  have ht1 := C138_ntnu_time_partial 21 4 20 16 5 50 100 "L.jpg".toList 0 0 (by norm_num) (by decide) (by norm_num)
  have ht2 := C138_ntnu_time_partial 21 4 20 16 5 50 160 "R.jpg".toList 0 0 (by norm_num) (by decide) (by norm_num)
  rw [hn1] at ht1
  rw [hn2] at ht2
  have hs : "L.jpg".toList <:+ n1 ∧ ¬ "R.jpg".toList <:+ n1 ∧ "R.jpg".toList <:+ n2 ∧ ¬ "L.jpg".toList <:+ n2 := by
    rw [← hn1, ← hn2]
    decide +kernel
  obtain ⟨s1, s2, s3, s4⟩ := hs
  obtain ⟨out, h1, h2⟩ := C236_ntnu_partial ⟨0, 0, [⟨n1, n1, true⟩, ⟨n2, n2, true⟩]⟩ [⟨n1, n1⟩] [⟨n2, n2⟩] [(⟨n1, n1⟩, _)]
    [(⟨n2, n2⟩, _)] (by
      generalize "L.jpg".toList = e1 at s1 s4
      simp [NtnuPicsOf, s1, s4]) (by
      generalize "R.jpg".toList = e1 at s2 s3
      simp [NtnuPicsOf, s2, s3]) (by simp)
    (List.Forall₂.cons ⟨rfl, ht1⟩ List.Forall₂.nil) (List.Forall₂.cons ⟨rfl, ht2⟩ List.Forall₂.nil)
  rw [hx] at h1
  cases h1
  unfold PairsOf at h2
  have hl := h2.length_eq
  rw [List.filter_cons, if_neg] at hl
  · simp at hl
  · simp only [decide_eq_true_eq, HasPartner, List.mem_singleton, exists_eq_left]
    generalize ((⟨2000 + 21, 4, 20, 16, 5, 50, 0⟩ : DateTime).seconds : ℚ) = z
    intro hle
    have := (abs_le.1 hle).1
    push_cast at this
    linarith

/-! ## The ACFR format -/

/-- C236: the ACFR format holds the same pairs: two lines for each record, in order, each with the time of its image twice
and the name of the image. -/
theorem C236_acfr_format (num : ℚ → List Char) (shots : List StereoShot) (hn : ∀ s ∈ shots, '\n' ∉ num s.t1 ∧ '\n' ∉ num s.t2)
    (hp : ∀ s ∈ shots, '\n' ∉ s.pic1.name ∧ '\n' ∉ s.pic2.name) :
    splitAtSep (· == '\n') (visText num shots)
      = (shots.flatMap fun s =>
          ["VIS: ".toList ++ num s.t1 ++ " [".toList ++ num s.t1 ++ "] ".toList ++ s.pic1.name ++ " exp: 0".toList,
           "VIS: ".toList ++ num s.t2 ++ " [".toList ++ num s.t2 ++ "] ".toList ++ s.pic2.name ++ " exp: 0".toList]) ++ [[]] := by
  have e1 : "VIS: ".toList = ['V', 'I', 'S', ':', ' '] := by decide
  have e2 : " [".toList = [' ', '['] := by decide
  have e3 : "] ".toList = [']', ' '] := by decide
  have e4 : " exp: 0".toList = [' ', 'e', 'x', 'p', ':', ' ', '0'] := by decide
  rw [e1, e2, e3, e4]
  have line : ∀ (t : ℚ) (p : StereoPic) (rest : List Char), '\n' ∉ num t → '\n' ∉ p.name →
      splitAtSep (· == '\n') (visLine num t p ++ rest)
        = (['V', 'I', 'S', ':', ' '] ++ num t ++ [' ', '['] ++ num t ++ [']', ' '] ++ p.name ++ [' ', 'e', 'x', 'p', ':', ' ', '0'])
          :: splitAtSep (· == '\n') rest := by
    intro t p rest h1 h2
    have : visLine num t p ++ rest
        = (['V', 'I', 'S', ':', ' '] ++ num t ++ [' ', '['] ++ num t ++ [']', ' '] ++ p.name ++ [' ', 'e', 'x', 'p', ':', ' ', '0'])
          ++ '\n' :: rest := by
      simp [visLine]
    rw [this, splitSep_append _ _ (by decide), splitSep_none]
    · rfl
    · intro c hc
      rw [beq_eq_false_iff_ne]
      rintro rfl
      simp only [List.mem_append] at hc
      rcases hc with (((((h | h) | h) | h) | h) | h) | h
      · revert h; decide
      · exact h1 h
      · revert h; decide
      · exact h1 h
      · revert h; decide
      · exact h2 h
      · revert h; decide
  have hf : ∀ (l : List StereoShot) (a : List Char),
      l.foldl (fun text s => text ++ visLine num s.t1 s.pic1 ++ visLine num s.t2 s.pic2) a
        = a ++ l.flatMap fun s => visLine num s.t1 s.pic1 ++ visLine num s.t2 s.pic2 := by
    intro l
    induction l with
    | nil => intro a; simp
    | cons s l ih => intro a; rw [List.foldl_cons, ih, List.flatMap_cons]; simp only [List.append_assoc]
  unfold visText
  rw [hf, List.nil_append]
  induction shots with
  | nil => rfl
  | cons s l ih =>
    simp only [List.flatMap_cons, List.append_assoc]
    rw [line _ _ _ (hn s List.mem_cons_self).1 (hp s List.mem_cons_self).1,
      line _ _ _ (hn s List.mem_cons_self).2 (hp s List.mem_cons_self).2,
      ih (fun s' hs' => hn s' (List.mem_cons_of_mem _ hs')) (fun s' hs' => hp s' (List.mem_cons_of_mem _ hs'))]
    simp

end Oplab.Props
