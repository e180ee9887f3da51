import Verif.Model.MergeRun
import Verif.Props.NavFile

/-! # C239: what is processed after dives were merged -/

namespace Oplab.Props
open Oplab Oplab.Spec

/-- An image whose file is named with the folder of the dive in front. -/
def inFolder (dive : String) (c : CamM ℚ) : CamM ℚ := { c with filename := dive ++ "/" ++ c.filename }

/-- A measurement of a dive as it is in the merged file: images are named with the folder of the dive in front. -/
def ofDive (dive : String) : Meas ℚ → Meas ℚ
  | .cam s => .cam (inFolder dive s)
  | .stereo l r sensor => .stereo (inFolder dive l) (inFolder dive r) sensor
  | m => m

/-- A dive of a merge with its measurements. -/
structure MergedDive where
  name : String
  origin : Json ℚ
  parsed : List (List Stamped)

/-- What the parsers return for it. -/
def MergedDive.toParsed (d : MergedDive) : ParsedDive := ⟨d.name, d.origin, d.parsed.map returned⟩

/-- The measurements of the dives, as they are to be processed. -/
def allOf (dives : List MergedDive) : List (Meas ℚ) := dives.flatMap fun d => d.parsed.flatten.map fun e => ofDive d.name e.2

/-- The origin of a dive has these coordinates. -/
def OriginAt (d : MergedDive) (lat lon : ℚ) : Prop :=
  ∃ rest more, d.origin = .arr (.obj (("latitude", .num lat) :: ("longitude", .num lon) :: rest) :: more)

private theorem originOf_spec (d : MergedDive) (lat lon : ℚ) (h : OriginAt d lat lon) :
    originOf (originRecord d.origin).2 = .ok (some lat, some lon) := by
  obtain ⟨rest, more, h⟩ := h
  simp [originOf, originRecord, h, Json.at3, Json.key, Json.idx, Json.asNum, bind, Except.bind]

private theorem merge_json (name : String) (s : Stamp) (m : Meas ℚ) :
    mergeRecord (name ++ "/") (s, m.json) = .ok (s, (ofDive name m).json) := by
  cases m <;>
    simp [mergeRecord, Json.prefixCam, Json.has, Json.key, Json.idx, Json.asStr, Json.setKey, Json.setIdx, bind, Except.bind, ofDive, inFolder,
      Meas.json, BodyVel.toJson, InertialVel.toJson, Orient.toJson, DepthM.toJson, AltM.toJson, UsblM.toJson, CamM.toJson, stereoToJson]

private theorem merge_records (name : String) : ∀ l : List Stamped,
    (l.map fun e => (e.1, e.2.json)).mapM (mergeRecord (name ++ "/")) = .ok (l.map fun e => (e.1, (ofDive name e.2).json))
  | [] => rfl
  | e :: l => by
    rw [List.map_cons, List.mapM_cons, merge_json, merge_records name l]
    rfl

private theorem keep_parsed (rs : List (List Stamped)) :
    (keepResults (rs.map returned)).flatten = (rs.flatten.map fun e => (e.1, e.2.json)).map some := by
  induction rs with
  | nil => rfl
  | cons r rs ih =>
    cases r with
    | nil => simpa [keepResults, returned] using ih
    | cons e r =>
      have h : keepResults ((e :: r) :: rs |>.map returned) = returned (e :: r) :: keepResults (rs.map returned) := by
        simp [keepResults, returned]
      rw [h, List.flatten_cons, ih]
      simp [returned]

private theorem read_some (l : List (Stamp × Json ℚ)) : readEntries (l.map some) = .ok l := by
  induction l with
  | nil => rfl
  | cons e l ih => simp [readEntries, ih, bind, Except.bind]

private theorem read_compiled (o : Json ℚ) (rs : List (List Stamped)) :
    readEntries (compileNav o (rs.map returned)) = .ok (originRecord o :: rs.flatten.map fun e => (e.1, e.2.json)) := by
  have : compileNav o (rs.map returned) = (originRecord o :: rs.flatten.map fun e => (e.1, e.2.json)).map some := by
    rw [compileNav, keep_parsed]
    rfl
  rw [this, read_some]

private theorem lexLe_refl : ∀ l, lexLe l l = true
  | [] => rfl
  | a :: l => by simp [lexLe, lexLe_refl l]

private theorem origin_first (n : ℕ) (s : Stamp) (h : Spec.Stamp.WF n s) : lexLe (Stamp.text ⟨[0], [0]⟩) s.text = true := by
  obtain ⟨-, -, ⟨-, d, ds, hd, h0⟩ | rfl⟩ := h
  · have : 0 < d := Nat.pos_of_ne_zero h0
    simp [Stamp.text, hd, lexLe, this]
  · exact lexLe_refl _

private theorem lex_trans : ∀ a b c : List Nat, lexLe a b = true → lexLe b c = true → lexLe a c = true
  | [], _, _, _, _ => by simp [lexLe]
  | _ :: _, [], _, h, _ => by simp [lexLe] at h
  | _ :: _, _ :: _, [], _, h => by simp [lexLe] at h
  | a :: as, b :: bs, c :: cs, h1, h2 => by
    simp only [lexLe] at h1 h2 ⊢
    by_cases e1 : a < b
    · by_cases e2 : b < c
      · rw [if_pos (by omega)]
      · rw [if_neg e2] at h2
        by_cases e3 : b = c
        · rw [if_pos (by omega)]
        · rw [if_neg e3] at h2; cases h2
    · rw [if_neg e1] at h1
      by_cases e3 : a = b
      · rw [if_pos e3] at h1
        subst e3
        by_cases e2 : a < c
        · rw [if_pos e2]
        · rw [if_neg e2] at h2 ⊢
          by_cases e4 : a = c
          · rw [if_pos e4] at h2 ⊢
            exact lex_trans as bs cs h1 h2
          · rw [if_neg e4] at h2; cases h2
      · rw [if_neg e3] at h1; cases h1

private theorem lex_total : ∀ a b : List Nat, (lexLe a b || lexLe b a) = true
  | [], _ => by simp [lexLe]
  | _ :: _, [] => by simp [lexLe]
  | a :: as, b :: bs => by
    simp only [lexLe]
    by_cases h : a < b
    · simp [h]
    · by_cases h2 : a = b
      · subst h2
        simpa using lex_total as bs
      · have : b < a := by omega
        simp [this]

/-- The file of a dive is its origin and its measurements in some order. -/
theorem diveFile_eq (n : ℕ) (o : Json ℚ) (rs : List (List Stamped)) (hok : ∀ r ∈ rs, ∀ e ∈ r, e.Ok n) :
    ∃ l : List Stamped, l.Perm rs.flatten ∧
      diveFile o (rs.map returned) = .ok (originRecord o :: l.map fun e => (e.1, e.2.json)) := by
  let le : Stamped → Stamped → Bool := fun a b => lexLe a.1.text b.1.text
  let le' : Stamp × Json ℚ → Stamp × Json ℚ → Bool := fun a b => lexLe a.1.text b.1.text
  refine ⟨rs.flatten.mergeSort le, List.mergeSort_perm _ _, ?_⟩
  unfold diveFile
  rw [read_compiled]
  simp only [bind, Except.bind, interlace]
  rw [if_neg (by simp)]
  congr 1
  have hm : (rs.flatten.map fun e : Stamped => (e.1, e.2.json)).mergeSort le' = (rs.flatten.mergeSort le).map fun e => (e.1, e.2.json) :=
    (List.map_mergeSort (f := fun e : Stamped => (e.1, e.2.json)) (r := le) (s := le') (fun a _ b _ => rfl)).symm
  obtain ⟨l₁, l₂, h1, h2, h3⟩ := List.mergeSort_cons (le := le') (fun a b c => lex_trans _ _ _) (fun a b => lex_total _ _) (originRecord o)
    (rs.flatten.map fun e : Stamped => (e.1, e.2.json))
  have hnil : l₁ = [] := by
    cases l₁ with
    | nil => rfl
    | cons b l₁ =>
      have hb := h3 b List.mem_cons_self
      have hbm : b ∈ rs.flatten.map fun e : Stamped => (e.1, e.2.json) := by
        have : b ∈ (rs.flatten.map fun e : Stamped => (e.1, e.2.json)).mergeSort le' := by rw [h2]; simp
        exact List.mem_mergeSort.1 this
      obtain ⟨e, he, rfl⟩ := List.mem_map.1 hbm
      obtain ⟨r, hr, her⟩ := List.mem_flatten.1 he
      have := origin_first n e.1 (hok r hr e her).2.1
      simp only [le', originRecord, this] at hb
      cases hb
  subst hnil
  rw [List.nil_append] at h1 h2
  rw [h1, ← h2, hm]

private theorem merge_rest (lat lon : ℚ) : ∀ (l : List (MergedDive × List Stamped)), (∀ d ∈ l, OriginAt d.1 lat lon) →
    mergeFiles (some lat, some lon) (l.map fun d => (d.1.name, originRecord d.1.origin :: d.2.map fun e => (e.1, e.2.json)))
      = .ok (l.flatMap fun d => d.2.map fun e => (e.1, (ofDive d.1.name e.2).json))
  | [], _ => rfl
  | d :: l, h => by
    rw [List.map_cons]
    simp only [mergeFiles, originOf_spec d.1 lat lon (h d List.mem_cons_self), bind, Except.bind, reduceCtorEq, if_false, ne_eq, not_true_eq_false,
      or_self, merge_records, merge_rest lat lon l fun x hx => h x (List.mem_cons_of_mem _ hx), List.flatMap_cons]

private theorem ofDive_ok (name : String) (n : ℕ) (e : Stamped) (h : e.Ok n) : Stamped.Ok n (e.1, ofDive name e.2) := by
  obtain ⟨s, m⟩ := e
  obtain ⟨a, b, c⟩ := h
  have hne : ∀ f : String, (name ++ "/" ++ f != "") = true := by
    intro f
    have : (name ++ "/" ++ f) ≠ "" := by
      intro h0
      have := congrArg String.length h0
      simp [String.length_append] at this
    simp only [bne_iff_ne, ne_eq, this, not_false_eq_true]
  refine ⟨?_, b, ?_⟩
  · cases m with
    | cam s =>
      simp only [Meas.Valid, ofDive, inFolder, CamM.valid, Bool.and_eq_true] at a ⊢
      exact ⟨hne _, a.2⟩
    | stereo l r sensor =>
      simp only [Meas.Valid, ofDive, inFolder, CamM.valid, Bool.and_eq_true] at a ⊢
      exact ⟨⟨hne _, a.1.2⟩, hne _, a.2.2⟩
    | _ => exact a
  · cases m <;> exact c

private theorem processed_perm (a b : ℚ) (nCams : ℕ) (ms ms' : List (Meas ℚ)) (l : Loaded ℚ) (h : Processed a b nCams ms l) (hp : ms.Perm ms') :
    Processed a b nCams ms' l := by
  have hw : ∀ {α : Type} (pick : Meas ℚ → Option α), (wanted a b pick ms).Perm (wanted a b pick ms') := by
    intro α pick
    unfold wanted
    exact (hp.filter _).filterMap _
  obtain ⟨h1, h2, h3, h4, h5, h6, h7, h8, h9, o1, o2, o3, o4, o5, o6, o7⟩ := h
  exact ⟨h1.trans (hw _), h2.trans (hw _), h3.trans (hw _), h4.trans (hw _), h5.trans (hw _), h6.trans (hw _), h7.trans (hw _), h8.trans (hw _), h9,
    o1, o2, o3, o4, o5, o6, o7⟩

/-- The merged file is that of one dive with all measurements. -/
private theorem merged_eq (n : ℕ) (lat lon : ℚ) (d : MergedDive) (ds : List MergedDive) (ho : ∀ e ∈ d :: ds, OriginAt e lat lon)
    (hok : ∀ e ∈ d :: ds, ∀ r ∈ e.parsed, ∀ x ∈ r, x.Ok n) :
    ∃ ms : List Stamped, (ms.map Prod.snd).Perm (allOf (d :: ds)) ∧ (∀ e ∈ ms, e.Ok n) ∧
      parseAndMerge ((d :: ds).map MergedDive.toParsed) = parseNav d.origin ([ms].map returned) := by
  have hf : ∀ l : List MergedDive, (∀ e ∈ l, ∀ r ∈ e.parsed, ∀ x ∈ r, x.Ok n) → ∃ fs : List (MergedDive × List Stamped),
      fs.map Prod.fst = l ∧ (∀ f ∈ fs, f.2.Perm f.1.parsed.flatten) ∧
      (l.map MergedDive.toParsed).mapM (fun d => do
        let f ← diveFile d.origin d.results
        Except.ok (ε := Err) (d.name, f)) = .ok (fs.map fun d => (d.1.name, originRecord d.1.origin :: d.2.map fun e => (e.1, e.2.json))) := by
    intro l
    induction l with
    | nil => exact fun _ => ⟨[], rfl, by simp, rfl⟩
    | cons d l ih =>
      intro h
      obtain ⟨fs, h1, h2, h3⟩ := ih fun e he => h e (List.mem_cons_of_mem _ he)
      obtain ⟨ms, g1, g2⟩ := diveFile_eq n d.origin d.parsed (h d List.mem_cons_self)
      refine ⟨(d, ms) :: fs, by simp [h1], ?_, ?_⟩
      · intro f hf
        rcases List.mem_cons.1 hf with rfl | hf
        · exact g1
        · exact h2 f hf
      · rw [List.map_cons, List.mapM_cons]
        simp only [MergedDive.toParsed, g2, bind, Except.bind] at h3 ⊢
        rw [h3]
        rfl
  obtain ⟨fs, h1, h2, h3⟩ := hf (d :: ds) hok
  cases fs with
  | nil => simp at h1
  | cons f fs =>
    simp only [List.map_cons, List.cons.injEq] at h1
    obtain ⟨hd, hds⟩ := h1
    refine ⟨(f :: fs).flatMap fun g => g.2.map fun e => (e.1, ofDive g.1.name e.2), ?_, ?_, ?_⟩
    · rw [allOf, ← hd, ← hds, ← List.map_cons (f := Prod.fst), List.flatMap_map, List.map_flatMap]
      have key : ∀ l : List (MergedDive × List Stamped), (∀ f ∈ l, f.2.Perm f.1.parsed.flatten) →
          (l.flatMap fun g => (g.2.map fun e : Stamped => (e.1, ofDive g.1.name e.2)).map Prod.snd).Perm
            (l.flatMap fun g => g.1.parsed.flatten.map fun e => ofDive g.1.name e.2) := by
        intro l
        induction l with
        | nil => exact fun _ => .nil
        | cons g l ih =>
          intro h
          rw [List.flatMap_cons, List.flatMap_cons]
          refine List.Perm.append ?_ (ih fun f hf => h f (List.mem_cons_of_mem _ hf))
          rw [List.map_map]
          exact (h g List.mem_cons_self).map _
      exact key _ h2
    · intro e he
      obtain ⟨g, hg, he⟩ := List.mem_flatMap.1 he
      obtain ⟨x, hx, rfl⟩ := List.mem_map.1 he
      obtain ⟨r, hr, hxr⟩ := List.mem_flatten.1 ((h2 g hg).mem_iff.1 hx)
      refine ofDive_ok g.1.name n x (hok g.1 ?_ r hr x hxr)
      rw [← hd, ← hds, ← List.map_cons (f := Prod.fst)]
      exact List.mem_map_of_mem hg
    · have hrest := merge_rest lat lon fs fun g hg => ho g.1 (by
        rw [← hds]
        exact List.mem_cons_of_mem _ (List.mem_map_of_mem hg))
      have hmerge : mergeFiles (none, none) ((f :: fs).map fun d => (d.1.name, originRecord d.1.origin :: d.2.map fun e => (e.1, e.2.json)))
          = .ok (originRecord d.origin :: ((f :: fs).flatMap fun g => g.2.map fun e => (e.1, ofDive g.1.name e.2)).map fun e => (e.1, e.2.json)) := by
        rw [List.map_cons]
        simp only [mergeFiles, hd, originOf_spec d lat lon (ho d List.mem_cons_self), bind, Except.bind, if_true, merge_records, hrest]
        rw [List.map_flatMap, List.flatMap_cons, hd]
        simp only [List.map_map]
        rfl
      unfold parseAndMerge
      rw [h3]
      simp only [bind, Except.bind, mergedNav, parseNav]
      rw [hmerge, read_compiled]
      simp only [List.flatten_cons, List.flatten_nil, List.append_nil]

/-- C239 (partial): dives with one origin are merged to a file from which every measurement of every dive is processed, each as often as it
was parsed, in the order of time, and images with the folder of their dive in front of their name; nothing else is.
Missing: laser images of the BioCam (C20), and that the command ends with an error after the file was written (C199). -/
theorem C239_all_partial (llStd : Option ℚ → Option ℚ → Option ℚ → Option ℚ → ℚ → ℚ → Res (Option ℚ × Option ℚ)) (n nCams : ℕ) (lat lon : ℚ)
    (dives : List MergedDive) (ho : ∀ d ∈ dives, OriginAt d lat lon) (hok : ∀ d ∈ dives, ∀ r ∈ d.parsed, ∀ e ∈ r, e.Ok n) (hne : allOf dives ≠ []) :
    ∃ file l a b, parseAndMerge (dives.map MergedDive.toParsed) = .ok file ∧
      processNav llStd ⟨.sensor, .sensor, .sensor, .sensor⟩ nCams [] [] file = .ok l ∧
      Processed a b nCams (allOf dives) l ∧ ∀ m ∈ allOf dives, InWindow a b m := by
  cases dives with
  | nil => exact absurd rfl hne
  | cons d ds =>
    obtain ⟨ms, h1, h2, h3⟩ := merged_eq n lat lon d ds ho hok
    have hms : [ms].flatten ≠ [] := by
      intro h0
      simp only [List.flatten_cons, List.flatten_nil, List.append_nil] at h0
      subst h0
      exact hne h1.symm.eq_nil
    obtain ⟨file, l, a, b, g1, g2, g3, g4⟩ := C219_all_partial llStd d.origin n nCams [ms] (by simpa using h2) hms
    refine ⟨file, l, a, b, by rw [h3, g1], g2, processed_perm a b nCams _ _ l g3 (by simpa using h1), ?_⟩
    intro m hm
    obtain ⟨e, he, rfl⟩ := List.mem_map.1 (h1.mem_iff.2 hm)
    exact g4 e (by simpa using he)

/-- C239 (partial): the same for a window. -/
theorem C239_window_partial (llStd : Option ℚ → Option ℚ → Option ℚ → Option ℚ → ℚ → ℚ → Res (Option ℚ × Option ℚ)) (n nCams : ℕ) (lat lon : ℚ)
    (dives : List MergedDive) (hne : dives ≠ []) (ho : ∀ d ∈ dives, OriginAt d lat lon)
    (hok : ∀ d ∈ dives, ∀ r ∈ d.parsed, ∀ e ∈ r, e.Ok n) (start finish : List Char) (hs : start ≠ []) (hf : finish ≠ []) (a b : ℚ)
    (ha : stringToEpoch start = .ok a) (hb : stringToEpoch finish = .ok b) :
    ∃ file l, parseAndMerge (dives.map MergedDive.toParsed) = .ok file ∧
      processNav llStd ⟨.sensor, .sensor, .sensor, .sensor⟩ nCams start finish file = .ok l ∧ Processed a b nCams (allOf dives) l := by
  cases dives with
  | nil => exact absurd rfl hne
  | cons d ds =>
    obtain ⟨ms, h1, h2, h3⟩ := merged_eq n lat lon d ds ho hok
    obtain ⟨file, l, g1, g2, g3⟩ := C219_window_partial llStd d.origin n nCams [ms] (by simpa using h2) start finish hs hf a b ha hb
    exact ⟨file, l, by rw [h3, g1], g2, processed_perm a b nCams _ _ l g3 (by simpa using h1)⟩

/-- C239: a dive with another origin ends the merge, whatever the dives. -/
theorem C239_origins (n : ℕ) (d e : MergedDive) (ds : List MergedDive) (lat lon lat' lon' : ℚ) (hd : OriginAt d lat lon) (he : OriginAt e lat' lon')
    (hne : lat ≠ lat' ∨ lon ≠ lon') (hok : ∀ x ∈ d :: e :: ds, ∀ r ∈ x.parsed, ∀ m ∈ r, m.Ok n) :
    parseAndMerge ((d :: e :: ds).map MergedDive.toParsed) = .error .quit := by
  have hf : ∀ l : List MergedDive, (∀ e ∈ l, ∀ r ∈ e.parsed, ∀ x ∈ r, x.Ok n) → ∃ fs,
      (l.map MergedDive.toParsed).mapM (fun d => do
        let f ← diveFile d.origin d.results
        Except.ok (ε := Err) (d.name, f)) = .ok fs := by
    intro l
    induction l with
    | nil => exact fun _ => ⟨[], rfl⟩
    | cons d l ih =>
      intro h
      obtain ⟨fs, h3⟩ := ih fun e he => h e (List.mem_cons_of_mem _ he)
      obtain ⟨ms, g1, g2⟩ := diveFile_eq n d.origin d.parsed (h d List.mem_cons_self)
      refine ⟨(d.name, originRecord d.origin :: ms.map fun e => (e.1, e.2.json)) :: fs, ?_⟩
      rw [List.map_cons, List.mapM_cons]
      simp only [MergedDive.toParsed, g2, bind, Except.bind] at h3 ⊢
      rw [h3]
      rfl
  obtain ⟨fs, h3⟩ := hf ds fun x hx => hok x (by simp [hx])
  obtain ⟨m1, -, g1⟩ := diveFile_eq n d.origin d.parsed (hok d (by simp))
  obtain ⟨m2, -, g2⟩ := diveFile_eq n e.origin e.parsed (hok e (by simp))
  unfold parseAndMerge
  rw [List.map_cons, List.map_cons, List.mapM_cons, List.mapM_cons]
  simp only [MergedDive.toParsed, g1, g2, bind, Except.bind] at h3 ⊢
  have h3' : (ds.map fun d : MergedDive => (⟨d.name, d.origin, d.parsed.map returned⟩ : ParsedDive)) = ds.map MergedDive.toParsed := rfl
  rw [h3]
  have hq : ¬ (some lat, some lon) = (some lat', some lon') := by
    intro h
    simp only [Prod.mk.injEq, Option.some.injEq] at h
    rcases hne with h1 | h1
    · exact h1 h.1
    · exact h1 h.2
  have hq' : some lat ≠ some lat' ∨ some lon ≠ some lon' := by
    rcases hne with h1 | h1
    · exact .inl (by simpa using h1)
    · exact .inr (by simpa using h1)
  simp only [pure, Except.pure, mergedNav, mergeFiles, originOf_spec d lat lon hd, originOf_spec e lat' lon' he, bind, Except.bind, if_true,
    merge_records, reduceCtorEq, if_false, if_pos hq']

/-- C239: an image of one dive never has the name of an image of another dive, if the folders have different names. -/
theorem C239_names (a b : String) (ha : '/' ∉ a.toList) (hb : '/' ∉ b.toList) (hab : a ≠ b) (c c' : CamM ℚ) :
    (inFolder a c).filename ≠ (inFolder b c').filename := by
  intro h
  have h1 := congrArg String.toList h
  simp only [inFolder, String.toList_append] at h1
  have e : "/".toList = ['/'] := by decide
  rw [e] at h1
  apply hab
  apply String.toList_injective
  generalize a.toList = x at ha h1
  generalize b.toList = y at hb h1
  induction x generalizing y with
  | nil =>
    cases y with
    | nil => rfl
    | cons t y =>
      simp only [List.nil_append, List.cons_append, List.cons.injEq] at h1
      exact absurd (by rw [← h1.1]; exact List.mem_cons_self) hb
  | cons s x ih =>
    cases y with
    | nil =>
      simp only [List.nil_append, List.cons_append, List.cons.injEq] at h1
      exact absurd (by rw [h1.1]; exact List.mem_cons_self) ha
    | cons t y =>
      simp only [List.cons_append, List.cons.injEq] at h1
      rw [h1.1, ih (fun h => ha (List.mem_cons_of_mem _ h)) y (fun h => hb (List.mem_cons_of_mem _ h)) h1.2]

/-- Two dives, one with an image and one with a depth. -/
private def diveA : MergedDive := ⟨"A", .arr [.obj [("latitude", .num 1), ("longitude", .num 2)]], [[(⟨[1, 5], [5]⟩, .cam ⟨some (31/2), "a.tif", "c"⟩)]]⟩
private def diveB : MergedDive :=
  ⟨"B", .arr [.obj [("latitude", .num 1), ("longitude", .num 2)]], [[(⟨[1, 2], [5]⟩, .depth ⟨some (25/2), some (25/2), some 20, none, "phins"⟩)]]⟩

/-- The hypotheses are met. -/
example : (∀ d ∈ [diveA, diveB], OriginAt d 1 2) ∧ (∀ d ∈ [diveA, diveB], ∀ r ∈ d.parsed, ∀ e ∈ r, Stamped.Ok 2 e) ∧
    allOf [diveA, diveB] = [.cam ⟨some (31/2), "A/a.tif", "c"⟩, .depth ⟨some (25/2), some (25/2), some 20, none, "phins"⟩] := by
  refine ⟨?_, ?_, ?_⟩
  · intro d hd
    simp only [List.mem_cons, List.not_mem_nil, or_false] at hd
    rcases hd with rfl | rfl
    · exact ⟨[], [], rfl⟩
    · exact ⟨[], [], rfl⟩
  · simp only [List.forall_mem_cons, diveA, diveB]
    norm_num [Stamped.Ok, Meas.Valid, Meas.time, DepthM.valid, CamM.valid, Spec.Stamp.WF, stampValue, intValue, fracValue]
    decide
  · simp [allOf, diveA, diveB, ofDive, inFolder]

/-- The record of a laser image as the parser of the BioCam returns it (parse_biocam_images.py L249-264). -/
def bioLaserItem (s : Stamp) (t cam : ℚ) (sensor frame file : String) : Stamp × Json ℚ :=
  (s, .obj [("epoch_timestamp", .num t), ("class", .str "measurement"), ("sensor", .str sensor), ("frame", .str frame), ("category", .str "laser"),
    ("camera3", .arr [.obj [("epoch_timestamp", .num t), ("epoch_timestamp_cpu", .num t), ("epoch_timestamp_cam", .num cam), ("filename", .str file)]])])

@[inherit_doc bioLaserItem] def bioLaserRecord (s : Stamp) (t cam : ℚ) (sensor frame file : String) : NavRecord :=
  some (bioLaserItem s t cam sensor frame file)

private theorem mapM_fails {α β : Type} (f : α → Res β) (x : α) (hx : ∀ y, f x ≠ .ok y) : ∀ l : List α, x ∈ l → ∀ out, l.mapM f ≠ .ok out
  | a :: l, hm, out, h => by
    rw [List.mapM_cons] at h
    simp only [bind, Except.bind] at h
    cases ha : f a with
    | error e => rw [ha] at h; cases h
    | ok y =>
      rw [ha] at h
      dsimp only at h
      cases hl : l.mapM f with
      | error e => rw [hl] at h; cases h
      | ok ys =>
        rcases List.mem_cons.mp hm with rfl | hm
        · exact hx y ha
        · exact mapM_fails f x hx l hm ys hl

private theorem mapM_image {α β : Type} (f : α → Res β) : ∀ (l : List α) (out : List β), l.mapM f = .ok out → ∀ x ∈ l, ∃ y ∈ out, f x = .ok y
  | [], _, _, x, hx => by cases hx
  | a :: l, out, h, x, hx => by
    rw [List.mapM_cons] at h
    simp only [bind, Except.bind] at h
    cases ha : f a with
    | error e => rw [ha] at h; cases h
    | ok y =>
      rw [ha] at h
      dsimp only at h
      cases hl : l.mapM f with
      | error e => rw [hl] at h; cases h
      | ok ys =>
        rw [hl] at h
        cases h
        rcases List.mem_cons.mp hx with rfl | hx
        · exact ⟨y, List.mem_cons_self, ha⟩
        · obtain ⟨z, hz, he⟩ := mapM_image f l ys hl x hx
          exact ⟨z, List.mem_cons_of_mem _ hz, he⟩

private theorem read_mem : ∀ (l : List NavRecord) (out : List (Stamp × Json ℚ)), readEntries l = .ok out → ∀ e, some e ∈ l → e ∈ out
  | [], _, _, e, he => by cases he
  | none :: l, _, h, _, _ => by cases h
  | some a :: l, out, h, e, he => by
    simp only [readEntries, bind, Except.bind] at h
    cases hl : readEntries l with
    | error e => rw [hl] at h; cases h
    | ok r =>
      rw [hl] at h
      cases h
      rcases List.mem_cons.mp he with he | he
      · cases he; exact List.mem_cons_self
      · exact List.mem_cons_of_mem _ (read_mem l r hl e he)

private theorem merge_fails (x : Stamp × Json ℚ) (h1 : ∀ o, originOf x.2 ≠ .ok o) (h2 : ∀ pre y, mergeRecord pre x ≠ .ok y) :
    ∀ (fs : List (String × List (Stamp × Json ℚ))) (o : Option ℚ × Option ℚ) (f : String × List (Stamp × Json ℚ)), f ∈ fs → x ∈ f.2 →
      ∀ out, mergeFiles o fs ≠ .ok out
  | (n, []) :: fs, o, f, hf, hx, out => by intro h; cases h
  | (n, a :: items) :: fs, o, f, hf, hx, out => by
    intro h
    simp only [mergeFiles, bind, Except.bind] at h
    cases ho : originOf a.2 with
    | error e => rw [ho] at h; cases h
    | ok o' =>
      rw [ho] at h
      dsimp only at h
      have key : ∀ ys, items.mapM (mergeRecord (n ++ "/")) = .ok ys → ∀ o'' m, mergeFiles o'' fs ≠ .ok m := by
        intro ys hys o'' m
        rcases List.mem_cons.mp hf with rfl | hf
        · rcases List.mem_cons.mp hx with rfl | hx
          · exact absurd ho (h1 _)
          · exact absurd hys (mapM_fails _ x (h2 _) items hx ys)
        · exact merge_fails x h1 h2 fs o'' f hf hx m
      cases hi : items.mapM (mergeRecord (n ++ "/")) with
      | error e =>
        rw [hi] at h
        split at h
        · cases h
        · split at h <;> cases h
      | ok ys =>
        rw [hi] at h
        dsimp only at h
        split at h
        · cases hm : mergeFiles o' fs with
          | error e => rw [hm] at h; cases h
          | ok m => exact key ys hi o' m hm
        · split at h
          · cases h
          · cases hm : mergeFiles o fs with
            | error e => rw [hm] at h; cases h
            | ok m => exact key ys hi o m hm

/-- C239: dives of which one has a laser image of the BioCam are never merged, whatever else was parsed. -/
theorem C239_laser (dives : List ParsedDive) (d : ParsedDive) (hd : d ∈ dives) (r : List NavRecord) (hr : r ∈ d.results) (hsome : ∀ x ∈ r, x ≠ none)
    (s : Stamp) (t cam : ℚ) (sensor frame file : String) (hx : bioLaserRecord s t cam sensor frame file ∈ r) :
    ∀ merged, parseAndMerge dives ≠ .ok merged := by
  intro merged h
  unfold parseAndMerge at h
  simp only [bind, Except.bind] at h
  split at h
  · cases h
  rename_i files hfiles
  obtain ⟨f, hf, he⟩ := mapM_image _ _ _ hfiles d hd
  cases hdf : diveFile d.origin d.results with
  | error e => rw [hdf] at he; cases he
  | ok l =>
    rw [hdf] at he
    cases he
    have hin : bioLaserItem s t cam sensor frame file ∈ l := by
      unfold diveFile at hdf
      simp only [bind, Except.bind] at hdf
      cases hre : readEntries (compileNav d.origin d.results) with
      | error e => rw [hre] at hdf; cases hdf
      | ok es =>
        rw [hre] at hdf
        dsimp only at hdf
        unfold interlace at hdf
        split at hdf
        · cases hdf
        · cases hdf
          rw [List.mem_mergeSort]
          refine read_mem _ _ hre _ ?_
          refine List.mem_cons_of_mem _ (List.mem_flatten.mpr ⟨r, ?_, hx⟩)
          unfold keepResults
          rw [List.mem_filter]
          refine ⟨hr, ?_⟩
          cases r with
          | nil => cases hx
          | cons a r =>
            cases a with
            | none => exact absurd rfl (hsome none List.mem_cons_self)
            | some a => rfl
    unfold mergedNav at h
    simp only [bind, Except.bind] at h
    cases hm : mergeFiles (none, none) files with
    | error e => rw [hm] at h; cases h
    | ok m =>
      refine merge_fails _ ?_ ?_ files (none, none) _ hf hin m hm
      · intro o h
        simp [bioLaserItem, originOf, Json.at3, Json.key, bind, Except.bind] at h
      · intro pre y h
        simp [bioLaserItem, mergeRecord, Json.prefixCam, Json.has, Json.key, Json.idx, Json.asStr, Json.setKey, Json.setIdx, bind, Except.bind] at h

/-- Dives with one origin, all of whose measurements were parsed, are merged, also if they have laser images of the BioCam. -/
def MergesLaser : Prop :=
  ∀ (dives : List MergedDive) (lasers : MergedDive → List NavRecord) (lat lon : ℚ) (n : ℕ), 2 ≤ dives.length → (∀ d ∈ dives, OriginAt d lat lon) →
    (∀ d ∈ dives, ∀ r ∈ d.parsed, ∀ e ∈ r, e.Ok n) → (∀ d ∈ dives, ∀ x ∈ lasers d, ∃ s t cam sensor frame file, x = bioLaserRecord s t cam sensor frame file) →
      ∃ file, parseAndMerge (dives.map fun d => { d.toParsed with results := d.toParsed.results ++ [lasers d] }) = .ok file

/-- C239 is false: a laser image of the BioCam ends the merge with a `KeyError` for its file name. -/
theorem C239_laser_false : ¬ MergesLaser := by
  intro h
  obtain ⟨file, hfile⟩ := h [⟨"A", .arr [.obj [("latitude", .num 1), ("longitude", .num 2)]], []⟩, ⟨"B", .arr [.obj [("latitude", .num 1), ("longitude", .num 2)]], []⟩]
    (fun _ => [bioLaserRecord ⟨[5], [0]⟩ 5 5 "biocam" "body" "l.jpg"]) 1 2 0 (by simp)
    (by simp only [List.forall_mem_cons]; exact ⟨⟨[], [], rfl⟩, ⟨[], [], rfl⟩, by simp⟩)
    (by simp)
    (by intro d _ x hx; rw [List.mem_singleton] at hx; exact ⟨_, _, _, _, _, _, hx⟩)
  refine C239_laser _ _ (List.mem_map.mpr ⟨_, List.mem_cons_self, rfl⟩) _ (List.mem_append_right _ (List.mem_singleton_self _)) ?_
    _ _ _ _ _ _ (List.mem_singleton_self _) file hfile
  intro x hx
  rw [List.mem_singleton] at hx
  subst hx
  simp [bioLaserRecord]

end Oplab.Props
