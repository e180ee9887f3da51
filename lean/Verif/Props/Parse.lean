import Mathlib.Algebra.Order.Field.Rat
import Mathlib.Tactic.NormNum
import Mathlib.Tactic.Ring
import Mathlib.Tactic.FieldSimp
import Mathlib.Tactic.Linarith
import Verif.Spec.Tide

set_option linter.unusedSectionVars false

/-! Properties C18-C21: `auv_nav parse` as a whole. -/

namespace Oplab.Props
open Oplab Oplab.Spec

/-! ## C18 -/

/-- The image records of a dive when it is the only one parsed. -/
def aloneRecords {K} [Field K] [LinearOrder K] (tol : K) (d : DiveImages K) : Res (List (ImageRecord K)) :=
  (parseAcfrImages tol {} d).2

/-- C18 is false: the second dive of a run gets the time stamps of the first. -/
theorem C18_independent_false : ¬ ∀ (tol : ℚ) (ds : List (DiveImages ℚ)),
    parseDives tol {} ds = ds.map (aloneRecords tol) := by
  intro h
  have := h (1/20) [⟨[("a", 1)], [("b", 1)]⟩, ⟨[("c", 7)], [("d", 7)]⟩]
  simp [parseDives, aloneRecords, parseAcfrImages, acfrPairs, stereoPairsFrom, minIdx, bind, Except.bind] at this

/-- C18: what the second dive gets, whatever its own times: the stamps of the first dive with the file names of
the second. -/
theorem C18_stale_stamps_false (t t' : ℚ) :
    parseDives (1/20) {} [⟨[("a", t)], [("b", t)]⟩, ⟨[("c", t')], [("d", t')]⟩]
      = [.ok [⟨t, "a", t, "b"⟩], .ok [⟨t, "c", t, "d"⟩]] := by
  simp [parseDives, parseAcfrImages, acfrPairs, stereoPairsFrom, minIdx, bind, Except.bind]

/-- C18 (partial): a dive preceded only by dives without images is parsed as if it were alone.
Missing: dives preceded by a dive with images (false, see above). -/
theorem C18_first_images_partial {K : Type} [Field K] [LinearOrder K] (tol : K) (before after : List (DiveImages K))
    (d : DiveImages K) (h : ∀ b ∈ before, b.cam1 = [] ∧ b.cam2 = []) :
    (parseDives tol {} (before ++ d :: after))[before.length]? = some (aloneRecords tol d) := by
  induction before with
  | nil => simp [parseDives, aloneRecords]
  | cons b bs ih =>
    obtain ⟨h1, h2⟩ := h b (by simp)
    have hst : (parseAcfrImages tol {} b).1 = ({} : StampLists K) := by
      simp [parseAcfrImages, h1, h2]
    simp only [List.cons_append, parseDives, List.length_cons, List.getElem?_cons_succ]
    rw [hst]
    exact ih fun x hx => h x (by simp [hx])

/-- C18 (partial): file names in the records of a dive are always names of that dive's own images. -/
theorem C18_names_partial {K : Type} [Field K] [LinearOrder K] (tol : K) (st : StampLists K) (d : DiveImages K)
    (rs : List (ImageRecord K)) (h : (parseAcfrImages tol st d).2 = .ok rs) :
    ∀ r ∈ rs, r.name1 ∈ d.cam1.map Prod.fst ∧ r.name2 ∈ (d.cam1 ++ d.cam2).map Prod.fst := by
  simp only [parseAcfrImages] at h
  set files2 := if d.cam2 = [] then d.cam1 else d.cam2 with hf
  cases hp : acfrPairs tol (List.take d.cam1.length (st.cam1 ++ d.cam1.map Prod.snd))
      (List.take files2.length (st.cam2 ++ files2.map Prod.snd)) with
  | error e => rw [hp] at h; simp [bind, Except.bind] at h
  | ok pairs =>
    rw [hp] at h
    simp only [bind, Except.bind, Except.ok.injEq] at h
    subst h
    intro r hr
    obtain ⟨p, -, hp2⟩ := List.mem_filterMap.mp hr
    split at hp2
    · rename_i t1 f1 t2 f2 e1 e2 e3 e4
      simp only [Option.some.injEq] at hp2
      subst hp2
      refine ⟨List.mem_map.mpr ⟨f1, List.mem_of_getElem? e2, rfl⟩, List.mem_map.mpr ⟨f2, ?_, rfl⟩⟩
      have := List.mem_of_getElem? e4
      rw [hf] at this
      split at this
      · simp [this]
      · simp [this]
    · simp at hp2

example : parseDives (1/20 : ℚ) {} [⟨[], []⟩, ⟨[("c", 7)], [("d", 7)]⟩] = [.ok [], .ok [⟨7, "c", 7, "d"⟩]] := by
  simp [parseDives, parseAcfrImages, acfrPairs, stereoPairsFrom, minIdx, bind, Except.bind]

/-! ## C19 -/

/-- C19 is false: depths in the last interval of the tide record are not corrected. -/
theorem C19_last_interval_false : ¬ ∀ (tide rs rs' : List (TSample ℚ)),
    tide.Pairwise (fun a b => a.t < b.t) → rs.Pairwise (fun a b => a.t ≤ b.t) → tideCorrect tide 0 rs = .ok rs' →
    List.Forall₂ (fun r r' => InTideSpan tide r.t → CorrectedBy tide r r') rs rs' := by
  intro h
  have := h [⟨0, 1⟩, ⟨1, 1⟩, ⟨2, 1⟩] [⟨3/2, 10⟩] [⟨3/2, 10⟩] (by norm_num) (by simp)
    (by simp [tideCorrect, tideSeek, tideApply, bind, Except.bind]; norm_num)
  rw [List.forall₂_cons] at this
  obtain ⟨-, hh, ⟨i, a, b, h1, h2, -, -, h5⟩, h6⟩ := this.1 ⟨⟨0, 1⟩, ⟨2, 1⟩, rfl, rfl, by norm_num, by norm_num⟩
  have hz : hh = 0 := by simp only at h6; linarith
  subst hz
  rcases i with _ | _ | i
  · simp at h1 h2; subst h1 h2; norm_num [OnLine] at h5
  · simp at h1 h2; subst h1 h2; norm_num [OnLine] at h5
  · simp at h2

/-- C19 is false: with a tide record of two samples nothing is corrected. -/
theorem C19_two_samples_false (a b : TSample ℚ) (rs : List (TSample ℚ)) : tideCorrect [a, b] 0 rs = .ok rs := by
  induction rs with
  | nil => rfl
  | cons r rs ih =>
    simp only [tideCorrect, List.length_cons, List.length_nil]
    have : tideSeek [a, b] r.t (0 + 1 + 1) 0 = 0 := by simp [tideSeek]
    rw [this, ih]
    simp [tideApply, bind, Except.bind]

section
variable {K : Type} [Field K] [LinearOrder K] [IsStrictOrderedRing K]

private theorem seek_spec (tide : List (TSample K)) (t : K) : ∀ (fuel j : Nat), tide.length ≤ j + fuel →
    (∀ i s, i < j → tide[i]? = some s → s.t < t) → (j = 0 ∨ j + 2 ≤ tide.length) →
    (∀ i s, i < tideSeek tide t fuel j → tide[i]? = some s → s.t < t) ∧
    (tideSeek tide t fuel j = 0 ∨ tideSeek tide t fuel j + 2 ≤ tide.length) ∧
    (tide.length ≤ tideSeek tide t fuel j + 2 ∨ ∃ s, tide[tideSeek tide t fuel j]? = some s ∧ t ≤ s.t)
  | 0, j, hf, hb, hj => by
    simp only [tideSeek]
    exact ⟨hb, hj, .inl (by omega)⟩
  | fuel + 1, j, hf, hb, hj => by
    simp only [tideSeek]
    by_cases h1 : j + 2 < tide.length
    · rw [if_pos h1]
      have hlt : j < tide.length := by omega
      rw [List.getElem?_eq_getElem hlt]
      simp only
      by_cases h2 : tide[j].t < t
      · rw [if_pos h2]
        refine seek_spec tide t fuel (j + 1) (by omega) ?_ (.inr (by omega))
        intro i s hi hs
        rcases Nat.lt_or_ge i j with h | h
        · exact hb i s h hs
        · have : i = j := by omega
          subst this
          rw [List.getElem?_eq_getElem hlt] at hs
          simp at hs; subst hs; exact h2
      · rw [if_neg h2]
        exact ⟨hb, hj, .inr ⟨tide[j], List.getElem?_eq_getElem hlt, not_lt.mp h2⟩⟩
    · rw [if_neg h1]; exact ⟨hb, hj, .inl (by omega)⟩

/-- The times the code does correct: after the first tide sample, up to the last but one. -/
def InCorrectedSpan (tide : List (TSample K)) (t : K) : Prop :=
  ∃ a b, tide[0]? = some a ∧ tide[tide.length - 2]? = some b ∧ a.t < t ∧ t ≤ b.t

private theorem tide_loop (tide : List (TSample K)) (ht : tide.Pairwise (fun a b => a.t ≤ b.t)) :
    ∀ (rs : List (TSample K)) (j : Nat), rs.Pairwise (fun a b => a.t ≤ b.t) →
    (∀ r ∈ rs, ∀ i s, i < j → tide[i]? = some s → s.t < r.t) → (j = 0 ∨ j + 2 ≤ tide.length) →
    ∃ rs', tideCorrect tide j rs = .ok rs' ∧
      List.Forall₂ (fun r r' => (InCorrectedSpan tide r.t → CorrectedBy tide r r') ∧
        (¬ InCorrectedSpan tide r.t → r' = r)) rs rs'
  | [], j, _, _, _ => ⟨[], rfl, .nil⟩
  | r :: rs, j, hp, hb, hj => by
    obtain ⟨h1, h2, h3⟩ := seek_spec tide r.t tide.length j (by omega) (hb r (by simp)) hj
    set j' := tideSeek tide r.t tide.length j with hj'
    rw [List.pairwise_cons] at hp
    obtain ⟨rs', e1, e2⟩ := tide_loop tide ht rs j' hp.2
      (fun q hq i s hi hs => lt_of_lt_of_le (h1 i s hi hs) (hp.1 q hq)) h2
    have key : ∃ r', tideApply tide j' r = .ok r' ∧ ((InCorrectedSpan tide r.t → CorrectedBy tide r r') ∧
        (¬ InCorrectedSpan tide r.t → r' = r)) := by
      by_cases hz : j' = 0
      · refine ⟨r, by simp [tideApply, hz], ?_, fun _ => rfl⟩
        rintro ⟨a, b, ha, hbb, hat, htb⟩
        exfalso
        rcases h3 with h3 | ⟨s, hs, hts⟩
        · have : tide.length - 2 = 0 := by omega
          rw [this, ha] at hbb
          simp at hbb; subst hbb
          exact absurd hat (not_lt.mpr htb)
        · rw [hz, ha] at hs
          simp at hs; subst hs
          exact absurd hat (not_lt.mpr hts)
      · have hlen : j' + 2 ≤ tide.length := h2.resolve_left hz
        have g1 : tide[j' - 1]? = some tide[j' - 1] := List.getElem?_eq_getElem (by omega)
        have g2 : tide[j']? = some tide[j'] := List.getElem?_eq_getElem (by omega)
        have g0 : tide[0]? = some tide[0] := List.getElem?_eq_getElem (by omega)
        have gn : tide[tide.length - 2]? = some tide[tide.length - 2] := List.getElem?_eq_getElem (by omega)
        have hlow : tide[j' - 1].t < r.t := h1 (j' - 1) _ (by omega) g1
        have hlow0 : tide[0].t < r.t := h1 0 _ (by omega) g0
        simp only [tideApply, if_neg hz, g1, g2]
        by_cases hle : r.t ≤ tide[j'].t
        · rw [if_pos hle]
          have hmono : tide[j'].t ≤ tide[tide.length - 2].t := by
            rcases Nat.lt_or_ge j' (tide.length - 2) with h | h
            · exact List.pairwise_iff_getElem.mp ht j' (tide.length - 2) (by omega) (by omega) h
            · have : j' = tide.length - 2 := by omega
              simp [← this]
          refine ⟨_, rfl, fun _ => ?_, fun hn => absurd ⟨_, _, g0, gn, hlow0, hle.trans hmono⟩ hn⟩
          refine ⟨rfl, interpolate r.t tide[j' - 1].t tide[j'].t tide[j' - 1].v tide[j'].v, ?_, rfl⟩
          refine ⟨j' - 1, _, _, g1, by rw [show j' - 1 + 1 = j' by omega]; exact g2, hlow.le, hle, ?_⟩
          have hne : tide[j'].t ≠ tide[j' - 1].t := (lt_of_lt_of_le hlow hle).ne'
          have hsub : tide[j'].t - tide[j' - 1].t ≠ 0 := sub_ne_zero.mpr hne
          simp only [interpolate, if_neg hne, OnLine]
          field_simp
          ring
        · rw [if_neg hle]
          refine ⟨r, rfl, ?_, fun _ => rfl⟩
          rintro ⟨a, b, -, hbb, -, htb⟩
          exfalso
          rcases h3 with h3 | ⟨s, hs, hts⟩
          · have : tide.length - 2 = j' := by omega
            rw [this, g2] at hbb
            simp at hbb; subst hbb
            exact hle htb
          · rw [g2] at hs
            simp at hs; subst hs
            exact hle hts
    obtain ⟨r', k1, k2⟩ := key
    refine ⟨r' :: rs', ?_, .cons k2 e2⟩
    simp only [tideCorrect]
    rw [← hj', k1, e1]
    rfl

/-- C19 (partial): for a chronological tide record and a chronological depth series, the depths after the first tide
sample and up to the last but one are corrected by the interpolated height, all others are unchanged.
Missing: the last interval of the tide record and its very first instant. -/
theorem C19_corrected_partial (tide rs : List (TSample K)) (ht : tide.Pairwise (fun a b => a.t ≤ b.t))
    (hr : rs.Pairwise (fun a b => a.t ≤ b.t)) : ∃ rs', tideCorrect tide 0 rs = .ok rs' ∧
      List.Forall₂ (fun r r' => (InCorrectedSpan tide r.t → CorrectedBy tide r r') ∧
        (¬ InCorrectedSpan tide r.t → r' = r)) rs rs' :=
  tide_loop tide ht rs 0 hr (by simp) (.inl rfl)

/-- C19 (partial): outside the tide record nothing is changed. -/
theorem C19_outside_unchanged_partial (tide rs : List (TSample K)) (ht : tide.Pairwise (fun a b => a.t ≤ b.t))
    (hr : rs.Pairwise (fun a b => a.t ≤ b.t)) : ∃ rs', tideCorrect tide 0 rs = .ok rs' ∧
      List.Forall₂ (fun r r' => ¬ InTideSpan tide r.t → r' = r) rs rs' := by
  obtain ⟨rs', h1, h2⟩ := C19_corrected_partial tide rs ht hr
  refine ⟨rs', h1, h2.imp ?_⟩
  rintro r r' ⟨-, hu⟩ hn
  apply hu
  rintro ⟨a, b, ha, hb, hat, htb⟩
  apply hn
  have hne : tide ≠ [] := by rintro rfl; simp at ha
  have hl : tide.length ≠ 0 := by simpa using hne
  refine ⟨a, tide.getLast hne, by rw [List.head?_eq_getElem?]; exact ha, List.getLast?_eq_some_getLast hne, hat.le, ?_⟩
  have hb' : tide[tide.length - 2]'(by omega) = b := by
    rw [List.getElem?_eq_getElem (by omega)] at hb; simpa using hb
  rw [List.getLast_eq_getElem]
  refine htb.trans ?_
  rw [← hb']
  rcases Nat.lt_or_ge (tide.length - 2) (tide.length - 1) with h | h
  · exact List.pairwise_iff_getElem.mp ht _ _ (by omega) (by omega) h
  · have : tide.length - 2 = tide.length - 1 := by omega
    simp [this]

end

example : tideCorrect [⟨0, 1⟩, ⟨2, 3⟩, (⟨4, 5⟩ : TSample ℚ)] 0 [⟨-1, 10⟩, ⟨1, 10⟩, ⟨3, 10⟩]
    = .ok [⟨-1, 10⟩, ⟨1, 8⟩, ⟨3, 10⟩] := by
  norm_num [tideCorrect, tideSeek, tideApply, interpolate, bind, Except.bind]

/-! ## C20 -/

/-- What merging should do to an entry: its image file names, wherever they are, get the dive as prefix. -/
def prefixed (dive : String) (i : NavItem) : NavItem :=
  { i with
    camera1 := i.camera1.map fun f => dive ++ "/" ++ f
    camera2 := i.camera2.map fun f => dive ++ "/" ++ f
    camera3 := i.camera3.map fun f => dive ++ "/" ++ f
    filename := if i.category = "laser" then i.filename.map fun f => dive ++ "/" ++ f else i.filename }

/-- The merged file the property asks for. -/
def mergedSpec {K} (ds : List (DiveJson K)) : List ((K × K) ⊕ NavItem) :=
  (ds.head?.map fun d => Sum.inl (d.lat, d.lon)).toList ++ ds.flatMap fun d => d.items.map fun i => .inr (prefixed d.name i)

/-- C20 is false: a laser entry as written by the BioCam parser (its file name under `camera3` only) stops the merge
with a KeyError. -/
theorem C20_biocam_laser_false : ¬ ∀ ds : List (DiveJson ℚ), (∀ d ∈ ds, ∀ e ∈ ds, d.lat = e.lat ∧ d.lon = e.lon) →
    mergeJsonFiles ds = .ok (mergedSpec ds) := by
  intro h
  have := h [⟨"d", 0, 0, [⟨"laser", none, none, some "cam/1.jpg", none, ""⟩]⟩] (by simp)
  simp [mergeJsonFiles, mergeLoop, mergeItem, List.mapM_cons, bind, Except.bind] at this

private theorem merge_items (name : String) (items : List NavItem)
    (h : ∀ i ∈ items, i.category = "laser" → i.filename ≠ none) :
    items.mapM (mergeItem (name ++ "/")) = .ok (items.map (prefixed name)) := by
  induction items with
  | nil => rfl
  | cons i items ih =>
    have hi := h i (by simp)
    rw [List.mapM_cons, ih fun x hx => h x (by simp [hx])]
    by_cases hc : i.category = "laser"
    · cases hf : i.filename with
      | none => exact absurd hf (hi hc)
      | some f => simp [mergeItem, prefixed, hc, hf, bind, Except.bind, pure, Except.pure]
    · simp [mergeItem, prefixed, hc, bind, Except.bind, pure, Except.pure]

private theorem merge_rest {K} [DecidableEq K] (o : K × K) : ∀ ds : List (DiveJson K),
    (∀ d ∈ ds, d.lat = o.1 ∧ d.lon = o.2) →
    (∀ d ∈ ds, ∀ i ∈ d.items, i.category = "laser" → i.filename ≠ none) →
    mergeLoop (some o) ds = .ok (ds.flatMap fun d => d.items.map fun i => .inr (prefixed d.name i))
  | [], _, _ => rfl
  | d :: ds, h1, h2 => by
    have ih := merge_rest o ds (fun x hx => h1 x (by simp [hx])) (fun x hx => h2 x (by simp [hx]))
    obtain ⟨a, b⟩ := h1 d (by simp)
    have hm := merge_items d.name d.items (h2 d (by simp))
    simp only [mergeLoop, a, b, hm, Option.getD_some, ih]
    simp [bind, Except.bind]

/-- C20 (partial): with equal origins, and file names at top level in every laser entry (as the SeaXerocks parser
writes them), the merged file is exactly: the first origin, then dive by dive every entry, image names prefixed.
Missing: BioCam laser entries (false, see above). -/
theorem C20_merge_partial {K : Type} [DecidableEq K] (ds : List (DiveJson K))
    (ho : ∀ d ∈ ds, ∀ e ∈ ds, d.lat = e.lat ∧ d.lon = e.lon)
    (hl : ∀ d ∈ ds, ∀ i ∈ d.items, i.category = "laser" → i.filename ≠ none) :
    mergeJsonFiles ds = .ok (mergedSpec ds) := by
  cases ds with
  | nil => rfl
  | cons d ds =>
    have ih := merge_rest (d.lat, d.lon) ds (fun x hx => ho x (by simp [hx]) d (by simp))
      (fun x hx => hl x (by simp [hx]))
    have hm := merge_items d.name d.items (hl d (by simp))
    simp only [mergeJsonFiles, mergeLoop, hm, Option.getD_none, ih]
    simp [mergedSpec, bind, Except.bind]

private theorem merge_origin {K} [DecidableEq K] (o : K × K) : ∀ (ds : List (DiveJson K)) out,
    mergeLoop (some o) ds = .ok out → ∀ d ∈ ds, d.lat = o.1 ∧ d.lon = o.2
  | [], _, _ => by simp
  | d :: ds, out, h => by
    simp only [mergeLoop] at h
    by_cases hne : o.1 ≠ d.lat ∨ o.2 ≠ d.lon
    · rw [if_pos hne] at h; simp [bind, Except.bind] at h
    · rw [if_neg hne] at h
      simp only [bind, Except.bind] at h
      split at h
      · simp at h
      · split at h
        · simp at h
        · rename_i rest hr
          push Not at hne
          intro x hx
          rcases List.mem_cons.mp hx with rfl | hx
          · exact ⟨hne.1.symm, hne.2.symm⟩
          · exact merge_origin o ds rest hr x hx

/-- C20: dives with different origins are never merged. -/
theorem C20_refuses_other_origin {K : Type} [DecidableEq K] (ds : List (DiveJson K)) (out : List ((K × K) ⊕ NavItem))
    (h : mergeJsonFiles ds = .ok out) : ∀ d ∈ ds, ∀ e ∈ ds, d.lat = e.lat ∧ d.lon = e.lon := by
  cases ds with
  | nil => simp
  | cons d ds =>
    simp only [mergeJsonFiles, mergeLoop, bind, Except.bind] at h
    split at h
    · simp at h
    · split at h
      · simp at h
      · rename_i rest hr
        have hm := merge_origin _ ds rest hr
        simp only [Option.getD_none] at hm
        have hall : ∀ x ∈ d :: ds, x.lat = d.lat ∧ x.lon = d.lon := by
          intro x hx
          rcases List.mem_cons.mp hx with rfl | hx
          · exact ⟨rfl, rfl⟩
          · exact hm x hx
        intro x hx y hy
        exact ⟨(hall x hx).1.trans (hall y hy).1.symm, (hall x hx).2.trans (hall y hy).2.symm⟩

example : mergeJsonFiles (K := ℚ) [⟨"a", 1, 2, [⟨"image", some "1", none, none, none, ""⟩]⟩, ⟨"b", 1, 2, []⟩]
    = .ok [.inl (1, 2), .inr ⟨"image", some "a/1", none, none, none, ""⟩] := by
  rw [C20_merge_partial _ (by simp) (by simp)]
  simp [mergedSpec, prefixed]

/-! ## C21 -/

/-- C21 is false: without the force flag the first dive of every `auv_nav parse` call is skipped, even with nothing on
disk, because starting the log file creates its output folder, which the guard takes for output. -/
theorem C21_first_dive_skipped_false (fs : Fs) (d : Path') (ds : List Path') :
    (callParse fs false (d :: ds)).head? = some true := by
  have : d ∈ withParents (d ++ ["log"]) := by
    simp [withParents, List.mem_inits]
  simp [callParse, parseAll, parseSkips, outputFilesExist, this]

/-- C21: with the force flag no dive is skipped. -/
theorem C21_force_never_skips (fs : Fs) (ds : List Path') : ∀ b ∈ callParse fs true ds, b = false := by
  have : ∀ (ds : List Path') (fs : Fs), ∀ b ∈ parseAll fs true ds, b = false := by
    intro ds
    induction ds with
    | nil => simp [parseAll]
    | cons d ds ih => intro fs b hb; simp [parseAll, parseSkips] at hb; rcases hb with rfl | hb
                      · rfl
                      · exact ih _ b hb
  cases ds with
  | nil => simp [callParse]
  | cons d ds => exact this _ _

/-- The files `auv_nav parse` writes for a dive. -/
def parseOutputs : List Path' :=
  [["mission.yaml"], ["vehicle.yaml"], ["nav", "nav_standard.json"], ["nav", "json_data_info.html"], ["nav", "timestamp_history.html"]]

/-- C21: without the force flag a dive of which any output file exists is skipped (nothing is overwritten). -/
theorem C21_existing_output_kept (fs : Fs) (d : Path') (f : Path') (hf : f ∈ parseOutputs) (h : d ++ f ∈ fs) :
    parseSkips fs false d = true := by
  simp only [parseOutputs, List.mem_cons, List.not_mem_nil, or_false] at hf
  rcases hf with rfl | rfl | rfl | rfl | rfl <;> simp [parseSkips, outputFilesExist, h]

example : parseSkips [["dive", "nav", "json_data_info.html"]] false ["dive"] = true :=
  C21_existing_output_kept _ _ ["nav", "json_data_info.html"] (by simp [parseOutputs]) (by simp)

private theorem parseFs_mono (ds : List Path') (fs : Fs) (force : Bool) (p : Path') (h : p ∈ fs) : p ∈ parseFs fs force ds := by
  induction ds generalizing fs with
  | nil => exact h
  | cons d ds ih =>
    unfold parseFs
    apply ih
    split
    · exact h
    · exact List.mem_append_left _ h

private theorem parseAll_get (ds : List Path') (fs : Fs) (force : Bool) (k : ℕ) (d : Path') (h : ds[k]? = some d) :
    (parseAll fs force ds)[k]? = some (parseSkips (parseFs fs force (ds.take k)) force d) := by
  induction ds generalizing fs k with
  | nil => simp at h
  | cons e ds ih =>
    cases k with
    | zero =>
      simp only [List.getElem?_cons_zero, Option.some.injEq] at h
      subst h
      simp [parseAll, parseFs]
    | succ k =>
      simp only [List.getElem?_cons_succ] at h
      simp only [parseAll, List.getElem?_cons_succ, List.take_succ_cons, parseFs]
      exact ih _ k h

private theorem writes_nav (d : Path') : d ++ ["nav", "nav_standard.json"] ∈ parseWrites d := by
  simp [parseWrites, withParents, List.mem_inits]

/-- C21: with the force flag, the navigation of every dive exists afterwards. -/
theorem C21_force_writes_all (fs : Fs) (ds : List Path') : ∀ d ∈ ds, d ++ ["nav", "nav_standard.json"] ∈ parseFs fs true ds := by
  induction ds generalizing fs with
  | nil => simp
  | cons e ds ih =>
    intro d hd
    unfold parseFs
    rcases List.mem_cons.1 hd with rfl | hd
    · apply parseFs_mono
      have : parseSkips fs true d = false := by simp [parseSkips]
      rw [this]
      exact List.mem_append_right _ (writes_nav d)
    · exact ih _ d hd

/-- C21: running the command again without the force flag, after it has dealt with the dives with it, skips every dive. -/
theorem C21_second_run_skips (fs : Fs) (ds : List Path') : ∀ b ∈ parseAll (parseFs fs true ds) false ds, b = true := by
  intro b hb
  obtain ⟨k, hk⟩ := List.mem_iff_getElem?.1 hb
  have hlen : ∀ (l : List Path') (g : Fs), (parseAll g false l).length = l.length := by
    intro l
    induction l with
    | nil => intro g; rfl
    | cons x l ih => intro g; simp [parseAll, ih]
  have hk' : k < ds.length := by
    rw [← hlen ds (parseFs fs true ds)]
    exact (List.getElem?_eq_some_iff.1 hk).1
  rw [parseAll_get ds _ false k _ (List.getElem?_eq_getElem hk'), Option.some.injEq] at hk
  rw [← hk]
  exact C21_existing_output_kept _ _ ["nav", "nav_standard.json"] (by simp [parseOutputs])
    (parseFs_mono _ _ _ _ (C21_force_writes_all fs ds _ (List.getElem_mem hk')))

/-- C21: a dive that is listed twice is parsed at most once. -/
theorem C21_listed_twice (fs : Fs) (ds : List Path') (i j : ℕ) (d : Path') (hij : i < j) (hi : ds[i]? = some d) (hj : ds[j]? = some d) :
    (parseAll fs false ds)[j]? = some true := by
  rw [parseAll_get ds fs false j d hj]
  congr 1
  have hex : ∀ (l : List Path') (fs : Fs), d ∈ l → ∃ f, f ∈ ([] :: parseOutputs) ∧ d ++ f ∈ parseFs fs false l := by
    intro l
    induction l with
    | nil => intro fs h; simp at h
    | cons e l ih =>
      intro fs h
      unfold parseFs
      rcases List.mem_cons.1 h with rfl | h
      · by_cases hs : parseSkips fs false d = true
        · rw [if_pos hs]
          simp only [parseSkips, outputFilesExist, if_true, decide_eq_true_eq] at hs
          rcases hs with h1 | h1 | h1 | h1 | h1 | h1
          · exact ⟨["mission.yaml"], by simp [parseOutputs], parseFs_mono _ _ _ _ h1⟩
          · exact ⟨["vehicle.yaml"], by simp [parseOutputs], parseFs_mono _ _ _ _ h1⟩
          · exact ⟨[], by simp, parseFs_mono _ _ _ _ (by simpa using h1)⟩
          · exact ⟨["nav", "nav_standard.json"], by simp [parseOutputs], parseFs_mono _ _ _ _ h1⟩
          · exact ⟨["nav", "json_data_info.html"], by simp [parseOutputs], parseFs_mono _ _ _ _ h1⟩
          · exact ⟨["nav", "timestamp_history.html"], by simp [parseOutputs], parseFs_mono _ _ _ _ h1⟩
        · rw [if_neg hs]
          exact ⟨["nav", "nav_standard.json"], by simp [parseOutputs], parseFs_mono _ _ _ _ (List.mem_append_right _ (writes_nav d))⟩
      · exact ih _ h
  obtain ⟨f, hf, hm⟩ := hex (ds.take j) fs (List.mem_of_getElem? (by rw [List.getElem?_take_of_lt hij]; exact hi))
  rcases List.mem_cons.1 hf with rfl | hf
  · rw [List.append_nil] at hm
    simp [parseSkips, outputFilesExist, hm]
  · exact C21_existing_output_kept _ _ f hf hm

example : parseAll [] false [["a"], ["b"], ["a"]] = [false, false, true] := by decide

/-- C21 (partial): a dive is parsed when its output folder does not exist at that moment.
Missing: an existing but empty output folder must not cause a skip, and does. -/
theorem C21_new_folder_parsed_partial (fs : Fs) (d : Path')
    (closed : ∀ p q : Path', p ++ q ∈ fs → p ∈ fs) (h : d ∉ fs) : parseSkips fs false d = false := by
  have h' : ∀ q, d ++ q ∉ fs := fun q hq => h (closed d q hq)
  simp [parseSkips, outputFilesExist, h, h']

/-- C21: the `auv_nav parse` command on a new dive without images on disk yet, no force flag: nothing is parsed. -/
example : callParse [[]] false [["data", "processed", "dive"]] = [true] := by decide

example : parseSkips [[], ["data"]] false ["data", "dive"] = false := by decide

end Oplab.Props
