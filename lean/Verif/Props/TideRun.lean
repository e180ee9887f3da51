import Verif.Model.TideRun
import Verif.Props.NavFile
import Verif.Props.Parse

/-! Property C237: the depths of a dive with a tide record. -/

namespace Oplab.Props
open Oplab Oplab.Spec

/-- The measurement is a depth (`true`) or a position (`false`) with time `t` and depth `v`. -/
def DepthOf : Bool → Meas ℚ → ℚ → ℚ → Prop
  | true, .depth s, t, v => s.epoch = some t ∧ s.depth = some v
  | false, .usbl s, t, v => s.epoch = some t ∧ s.depth = some v
  | _, _, _, _ => False

/-- The measurement with another depth and everything else as it is. -/
def withDepth (v : ℚ) : Meas ℚ → Meas ℚ
  | .depth s => .depth { s with depth := some v }
  | .usbl s => .usbl { s with depth := some v }
  | m => m

/-- The measurement is neither a depth nor a position. -/
def NoDepth : Meas ℚ → Prop
  | .depth _ => False
  | .usbl _ => False
  | _ => True

private theorem withDepth_self (k : Bool) (m : Meas ℚ) (t v : ℚ) (h : DepthOf k m t v) : withDepth v m = m := by
  cases k <;> cases m <;> simp only [DepthOf] at h <;> simp only [withDepth] <;> rw [← h.2]

private theorem lower_depth (s : DepthM ℚ) (v h : ℚ) (hv : s.depth = some v) :
    (s.toJson).lower3 "data" 0 "depth" h = .ok ({ s with depth := some (v - h) } : DepthM ℚ).toJson := by
  simp [Json.lower3, DepthM.toJson, Json.key, Json.idx, Json.setKey, Json.setIdx, hv, bind, Except.bind, Json.ofOpt]

private theorem lower_usbl (s : UsblM ℚ) (v h : ℚ) (hv : s.depth = some v) :
    (s.toJson).lower3 "data_target" 4 "depth" h = .ok ({ s with depth := some (v - h) } : UsblM ℚ).toJson := by
  simp [Json.lower3, UsblM.toJson, Json.key, Json.idx, Json.setKey, Json.setIdx, hv, bind, Except.bind, Json.ofOpt]

private theorem lower_meas (k : Bool) (m : Meas ℚ) (t v h : ℚ) (hm : DepthOf k m t v) :
    (if k then m.json.lower3 "data" 0 "depth" h else m.json.lower3 "data_target" 4 "depth" h) = .ok (withDepth (v - h) m).json := by
  cases k <;> cases m <;> simp only [DepthOf] at hm
  · exact lower_usbl _ _ _ hm.2
  · exact lower_depth _ _ _ hm.2

private theorem time_meas (k : Bool) (m : Meas ℚ) (t v : ℚ) (hm : DepthOf k m t v) :
    m.json.at1 "epoch_timestamp" = .ok (some t) := by
  cases k <;> cases m <;> simp only [DepthOf] at hm
  · simp [Meas.json, UsblM.toJson, Json.at1, Json.key, bind, Except.bind, hm.1, Json.ofOpt, Json.asNum]
  · simp [Meas.json, DepthM.toJson, Json.at1, Json.key, bind, Except.bind, hm.1, Json.ofOpt, Json.asNum]

/-- The measurements with the depths of the samples. -/
private def withDepths (r : List Stamped) (xs : List (TSample ℚ)) : List Stamped :=
  List.zipWith (fun e x => (e.1, withDepth x.v e.2)) r xs

private theorem loop_eq (k : Bool) (tide : List (TSample ℚ)) : ∀ (r : List Stamped) (xs xs' : List (TSample ℚ)) (j : Nat),
    List.Forall₂ (fun e x => DepthOf k e.2 x.t x.v) r xs → tideCorrect tide j xs = .ok xs' →
    ∃ b e, tideLoop tide k j (returned r) = .ok (returned (withDepths r xs'), b, e)
  | [], xs, xs', j, h, hc => by
    cases h
    simp only [tideCorrect, Except.ok.injEq] at hc
    subst hc
    exact ⟨false, false, rfl⟩
  | (st, m) :: r, xs, xs', j, h, hc => by
    cases h with
    | cons h1 h2 =>
      rename_i x xs
      simp only [tideCorrect] at hc
      cases ha : tideApply tide (tideSeek tide x.t tide.length j) x with
      | error e => rw [ha] at hc; simp [bind, Except.bind] at hc
      | ok x' =>
        cases hr : tideCorrect tide (tideSeek tide x.t tide.length j) xs with
        | error e => rw [ha, hr] at hc; simp [bind, Except.bind] at hc
        | ok rest =>
          rw [ha, hr] at hc
          simp only [bind, Except.bind, Except.ok.injEq] at hc
          subst hc
          obtain ⟨b, e, hl⟩ := loop_eq k tide r xs rest _ h2 hr
          have hrec : ∃ b e, tideRecord tide k (tideSeek tide x.t tide.length j) x.t m.json = .ok ((withDepth x'.v m).json, b, e) := by
            simp only [tideApply] at ha
            simp only [tideRecord]
            by_cases hz : tideSeek tide x.t tide.length j = 0
            · rw [if_pos hz] at ha ⊢
              cases ha
              rw [withDepth_self k m _ _ h1]
              exact ⟨_, _, rfl⟩
            · rw [if_neg hz] at ha ⊢
              generalize tide[tideSeek tide x.t tide.length j - 1]? = p at ha ⊢
              generalize tide[tideSeek tide x.t tide.length j]? = q at ha ⊢
              cases p with
              | none => cases ha
              | some p =>
                cases q with
                | none => cases ha
                | some q =>
                  simp only at ha ⊢
                  by_cases hle : x.t ≤ q.t
                  · rw [if_pos hle] at ha ⊢
                    cases ha
                    have hm := lower_meas k m x.t x.v (interpolate x.t p.t q.t p.v q.v) h1
                    cases k
                    · simp only [Bool.false_eq_true, if_false] at hm ⊢
                      rw [hm]
                      exact ⟨_, _, rfl⟩
                    · simp only [if_true] at hm ⊢
                      rw [hm]
                      exact ⟨_, _, rfl⟩
                  · rw [if_neg hle] at ha ⊢
                    cases ha
                    rw [withDepth_self k m _ _ h1]
                    exact ⟨_, _, rfl⟩
          obtain ⟨b', e', hrec⟩ := hrec
          refine ⟨b' || b, e' || e, ?_⟩
          simp only [returned, List.map_cons, tideLoop, time_meas k m x.t x.v h1, bind, Except.bind, hrec]
          simp only [returned] at hl
          rw [hl]
          rfl

/-- The correction of a measurement that the property asks for: where the code corrects, its depth less the height of the
tide at its time; elsewhere, and for all other measurements, nothing changes. -/
def TideCorrected (tide : List (TSample ℚ)) (e e' : Stamped) : Prop :=
  e'.1 = e.1 ∧
  ((NoDepth e.2 ∧ e'.2 = e.2) ∨
   ∃ k t v v', DepthOf k e.2 t v ∧ e'.2 = withDepth v' e.2 ∧
     (InCorrectedSpan tide t → ∃ h, TideAt tide t h ∧ v' = v - h) ∧ (¬ InCorrectedSpan tide t → v' = v))

/-- The results of a parser: depths in order of time, positions in order of time, or measurements of another kind. -/
def OneKind (r : List Stamped) : Prop :=
  (∀ e ∈ r, NoDepth e.2) ∨
  ∃ (k : Bool) (xs : List (TSample ℚ)), List.Forall₂ (fun e x => DepthOf k e.2 x.t x.v) r xs ∧
    xs.Pairwise fun a b => a.t ≤ b.t

private theorem category (m : Meas ℚ) : ∃ c, m.json.key "category" = .ok (.str c) ∧
    (NoDepth m → ¬ (c = "depth" ∨ c = "usbl")) ∧ (∀ k t v, DepthOf k m t v → c = if k then "depth" else "usbl") := by
  cases m with
  | body s => exact ⟨"velocity", by simp [Meas.json, BodyVel.toJson, Json.key], fun _ => by decide, by intro k; cases k <;> simp [DepthOf]⟩
  | inertial s => exact ⟨"velocity", by simp [Meas.json, InertialVel.toJson, Json.key], fun _ => by decide, by intro k; cases k <;> simp [DepthOf]⟩
  | orient s => exact ⟨"orientation", by simp [Meas.json, Orient.toJson, Json.key], fun _ => by decide, by intro k; cases k <;> simp [DepthOf]⟩
  | depth s => exact ⟨"depth", by simp [Meas.json, DepthM.toJson, Json.key], fun h => absurd h (by simp [NoDepth]), by intro k; cases k <;> simp [DepthOf]⟩
  | alt s => exact ⟨"altitude", by simp [Meas.json, AltM.toJson, Json.key], fun _ => by decide, by intro k; cases k <;> simp [DepthOf]⟩
  | usbl s => exact ⟨"usbl", by simp [Meas.json, UsblM.toJson, Json.key], fun h => absurd h (by simp [NoDepth]), by intro k; cases k <;> simp [DepthOf]⟩
  | cam s => exact ⟨"image", by simp [Meas.json, CamM.toJson, Json.key], fun _ => by decide, by intro k; cases k <;> simp [DepthOf]⟩
  | stereo l r n => exact ⟨"image", by simp [Meas.json, stereoToJson, Json.key], fun _ => by decide, by intro k; cases k <;> simp [DepthOf]⟩

private theorem results_spec (tide : List (TSample ℚ)) (hne : tide ≠ []) (ht : tide.Pairwise fun a b => a.t ≤ b.t) (r : List Stamped)
    (hr : OneKind r) : ∃ r', List.Forall₂ (TideCorrected tide) r r' ∧ tideResults (some tide) (returned r) = .ok (returned r') := by
  cases r with
  | nil => exact ⟨[], .nil, rfl⟩
  | cons e r =>
    obtain ⟨c, hc, hc1, hc2⟩ := category e.2
    rcases hr with hn | ⟨k, xs, hf, hx⟩
    · refine ⟨e :: r, ?_, ?_⟩
      · refine List.forall₂_same.2 fun a ha => ⟨rfl, .inl ⟨hn a ha, rfl⟩⟩
      · simp only [returned, List.map_cons, tideResults, hc, bind, Except.bind, Json.asStr, if_neg (hc1 (hn e List.mem_cons_self))]
    · obtain ⟨xs', hx1, hx2⟩ := C19_corrected_partial tide xs ht hx
      obtain ⟨b, a, hl⟩ := loop_eq k tide (e :: r) xs xs' 0 hf hx1
      have hk : c = if k then "depth" else "usbl" := by
        cases hf with
        | cons h _ => exact hc2 _ _ _ h
      have hcat : c = "depth" ∨ c = "usbl" := by cases k <;> simp_all
      have hkd : decide (c = "depth") = k := by
        have e : ¬ "usbl" = "depth" := by decide
        subst hk
        cases k
        · simp only [Bool.false_eq_true, if_false, e, decide_false]
        · simp
      refine ⟨withDepths (e :: r) xs', ?_, ?_⟩
      · clear hl hx1 hc hc1 hc2 hk hcat hkd hx
        generalize e :: r = l at hf
        induction hf generalizing xs' with
        | nil => cases hx2; exact .nil
        | cons h1 _ ih =>
          cases hx2 with
          | cons g1 g2 =>
            refine .cons ⟨rfl, .inr ⟨k, _, _, _, h1, rfl, ?_, ?_⟩⟩ (ih _ g2)
            · intro hs
              obtain ⟨-, h, hh, hv⟩ := g1.1 hs
              exact ⟨h, hh, hv⟩
            · intro hs
              rw [g1.2 hs]
      · have hl' := hl
        simp only [returned, List.map_cons] at hl' ⊢
        simp only [tideResults, hc, bind, Except.bind, Json.asStr, if_pos hcat, hkd, hl']
        rw [if_neg (by simp [hne])]

private theorem mapM_exists {α β : Type} (f : α → Res β) : ∀ (l : List α) (l' : List β), List.Forall₂ (fun a b => f a = .ok b) l l' →
    l.mapM f = .ok l'
  | [], _, h => by cases h; rfl
  | a :: l, _, h => by
    cases h with
    | cons h1 h2 =>
      rw [List.mapM_cons, h1, mapM_exists f l _ h2]
      rfl

private theorem keep_eq (rs : List (List Stamped)) : keepResults (rs.map returned) = (rs.filter (· ≠ [])).map returned := by
  induction rs with
  | nil => rfl
  | cons r rs ih =>
    cases r with
    | nil =>
      have : keepResults (([] :: rs).map returned) = keepResults (rs.map returned) := by simp [keepResults, returned]
      rw [this, ih]
      simp
    | cons e r =>
      have : keepResults (((e :: r) :: rs).map returned) = returned (e :: r) :: keepResults (rs.map returned) := by
        simp [keepResults, returned]
      rw [this, ih]
      simp

/-- C237 (partial): with a tide record in order of time and results of each parser of one kind and in order of time, the file
is that of the same measurements with the tide taken off the depths of the depth sensor and of the positions.
Missing: the last interval of the tide record (C19) and results out of order (false, see below). -/
theorem C237_corrected_partial (tide : List (TSample ℚ)) (hne : tide ≠ []) (ht : tide.Pairwise fun a b => a.t ≤ b.t)
    (origin : Json ℚ) (parsed : List (List Stamped)) (hp : ∀ r ∈ parsed, OneKind r) :
    ∃ parsed', List.Forall₂ (List.Forall₂ (TideCorrected tide)) parsed parsed' ∧
      parseTide (some tide) origin (parsed.map returned) = parseNav origin (parsed'.map returned) := by
  have h : ∃ parsed', List.Forall₂ (fun r r' => List.Forall₂ (TideCorrected tide) r r' ∧
      tideResults (some tide) (returned r) = .ok (returned r')) parsed parsed' := by
    induction parsed with
    | nil => exact ⟨[], .nil⟩
    | cons r rs ih =>
      obtain ⟨rs', hrs⟩ := ih fun r hr => hp r (List.mem_cons_of_mem _ hr)
      obtain ⟨r', h1⟩ := results_spec tide hne ht r (hp r List.mem_cons_self)
      exact ⟨r' :: rs', .cons h1 hrs⟩
  obtain ⟨parsed', h⟩ := h
  refine ⟨parsed', h.imp fun _ _ h => h.1, ?_⟩
  unfold parseTide parseNav compileNav
  have hm : (keepResults (parsed.map returned)).mapM (tideResults (some tide)) = .ok (keepResults (parsed'.map returned)) := by
    apply mapM_exists
    rw [keep_eq, keep_eq]
    induction h with
    | nil => exact .nil
    | cons h1 _ ih =>
      rename_i r r' rs rs' _
      have ih := ih fun r hr => hp r (List.mem_cons_of_mem _ hr)
      by_cases hr : r = []
      · subst hr
        have : r' = [] := by cases h1.1; rfl
        subst this
        simpa using ih
      · have : r' ≠ [] := by
          rintro rfl
          have := h1.1.length_eq
          simp at this
          exact hr this
        simp only [List.filter_cons, ne_eq, hr, this, not_false_eq_true, decide_true, if_true, List.map_cons]
        exact .cons h1.2 ih
  rw [hm]
  rfl

/-- C237: without a tide file nothing is changed. -/
theorem C237_no_tide (origin : Json ℚ) (results : List (List NavRecord)) : parseTide none origin results = parseNav origin results := by
  unfold parseTide parseNav compileNav
  have : ∀ l : List (List NavRecord), l.mapM (tideResults none) = .ok l := by
    intro l
    apply mapM_exists
    exact List.forall₂_same.2 fun r _ => by simp [tideResults]
  rw [this]
  rfl

private theorem corrected_ok (tide : List (TSample ℚ)) (n : ℕ) (e e' : Stamped) (h : TideCorrected tide e e') (he : e.Ok n) : e'.Ok n := by
  obtain ⟨s, m⟩ := e
  obtain ⟨s', m'⟩ := e'
  obtain ⟨h1, h2⟩ := h
  simp only at h1 h2
  subst h1
  rcases h2 with ⟨-, rfl⟩ | ⟨k, t, v, v', hd, rfl, -, -⟩
  · exact he
  · obtain ⟨a, b, c⟩ := he
    refine ⟨?_, b, ?_⟩
    · cases k <;> cases m <;> simp only [DepthOf] at hd
      · simpa [Meas.Valid, withDepth, UsblM.valid] using a
      · simp only [Meas.Valid, withDepth, DepthM.valid, Option.isSome_some, Bool.true_and] at a ⊢
        simp only [Bool.and_eq_true] at a ⊢
        exact ⟨a.1.2, a.2⟩
    · cases k <;> cases m <;> simp only [DepthOf] at hd <;> exact c

/-- C237 (partial): the depths and positions that are processed are the corrected ones, and all other measurements are as
they were parsed. -/
theorem C237_processed_partial (llStd : Option ℚ → Option ℚ → Option ℚ → Option ℚ → ℚ → ℚ → Res (Option ℚ × Option ℚ))
    (tide : List (TSample ℚ)) (hne : tide ≠ []) (ht : tide.Pairwise fun a b => a.t ≤ b.t) (origin : Json ℚ) (n nCams : Nat)
    (parsed : List (List Stamped)) (hp : ∀ r ∈ parsed, OneKind r) (hok : ∀ r ∈ parsed, ∀ e ∈ r, e.Ok n) (hs : parsed.flatten ≠ []) :
    ∃ parsed' file l a b, List.Forall₂ (List.Forall₂ (TideCorrected tide)) parsed parsed' ∧
      parseTide (some tide) origin (parsed.map returned) = .ok file ∧
      processNav llStd ⟨.sensor, .sensor, .sensor, .sensor⟩ nCams [] [] file = .ok l ∧
      Processed a b nCams (parsed'.flatten.map Prod.snd) l ∧ ∀ e ∈ parsed'.flatten, InWindow a b e.2 := by
  obtain ⟨parsed', hc, hf⟩ := C237_corrected_partial tide hne ht origin parsed hp
  have hok' : ∀ r ∈ parsed', ∀ e ∈ r, e.Ok n := by
    clear hf hs hp
    induction hc with
    | nil => simp
    | cons h1 _ ih =>
      intro r hr e he
      rcases List.mem_cons.1 hr with rfl | hr
      · have hk := hok _ List.mem_cons_self
        clear ih hok
        induction h1 with
        | nil => simp at he
        | cons g1 _ ih =>
          rcases List.mem_cons.1 he with rfl | he
          · exact corrected_ok tide n _ _ g1 (hk _ List.mem_cons_self)
          · exact ih he List.mem_cons_self fun e he => hk e (List.mem_cons_of_mem _ he)
      · exact ih (fun r hr => hok r (List.mem_cons_of_mem _ hr)) r hr e he
  have hs' : parsed'.flatten ≠ [] := by
    intro h0
    apply hs
    have hlen : parsed.flatten.length = parsed'.flatten.length := by
      clear hf hok hok' hs hp h0
      induction hc with
      | nil => rfl
      | cons h1 _ ih => simp only [List.flatten_cons, List.length_append, ih, h1.length_eq]
    rw [h0] at hlen
    exact List.length_eq_zero_iff.1 hlen
  obtain ⟨file, l, a, b, h1, h2, h3, h4⟩ := C219_all_partial llStd origin n nCams parsed' hok' hs'
  exact ⟨parsed', file, l, a, b, hc, by rw [hf, h1], h2, h3, h4⟩

/-- A depth of 10 m at time `t`. -/
private def tenAt (t : ℚ) : Meas ℚ := .depth ⟨some t, some t, some 10, none, "phins"⟩

/-- The hypotheses are met: a depth of 10 m half way between heights of 1 m and 3 m is recorded as 8 m. -/
example : tideResults (some [⟨0, 1⟩, ⟨2, 3⟩, ⟨4, 5⟩]) (returned [(⟨[1], [0]⟩, tenAt 1)])
    = .ok (returned [(⟨[1], [0]⟩, withDepth 8 (tenAt 1))]) := by
  obtain ⟨b, e, h⟩ := loop_eq true [⟨0, 1⟩, ⟨2, 3⟩, ⟨4, 5⟩] [(⟨[1], [0]⟩, tenAt 1)] [⟨1, 10⟩] [⟨1, 8⟩] 0
    (.cons ⟨rfl, rfl⟩ .nil) (by norm_num [tideCorrect, tideSeek, tideApply, interpolate, bind, Except.bind])
  obtain ⟨c, hc, -, hc2⟩ := category (tenAt 1)
  have : c = "depth" := by simpa using hc2 true 1 10 ⟨rfl, rfl⟩
  subst this
  simp only [returned, List.map_cons, List.map_nil, withDepths, List.zipWith_cons_cons, List.zipWith_nil_right] at h ⊢
  simp only [tideResults, hc, bind, Except.bind, Json.asStr, true_or, if_true, decide_true, h]
  simp

/-- The claim: a dive that can be parsed without a tide file can be parsed with one. -/
def TideHarmless : Prop := ∀ (tide : List (TSample ℚ)) (origin : Json ℚ) (parsed : List (List Stamped)) (file : List (Json ℚ)),
  tide.Pairwise (fun a b => a.t ≤ b.t) → (∀ r ∈ parsed, OneKind r) → parseNav origin (parsed.map returned) = .ok file →
  ∃ file', parseTide (some tide) origin (parsed.map returned) = .ok file'

/-- C237: false: a tide file without samples ends the parsing of every dive with depths. -/
theorem C237_empty_tide_false : ¬ TideHarmless := by
  intro h
  have hok : ∀ r ∈ [[((⟨[1], [0]⟩, tenAt 1) : Stamped)]], OneKind r := by
    intro r hr
    simp only [List.mem_singleton] at hr
    subst hr
    exact .inr ⟨true, [⟨1, 10⟩], .cons ⟨rfl, rfl⟩ .nil, by simp⟩
  obtain ⟨parsed', -, hp⟩ := C237_corrected_partial [⟨0, 0⟩] (by simp) (by simp) .null [[(⟨[1], [0]⟩, tenAt 1)]] hok
  obtain ⟨out, hout⟩ := C13_defined [originRecord .null, (⟨[1], [0]⟩, (tenAt 1).json)] (by simp)
  obtain ⟨file, hfile⟩ : ∃ file, parseNav .null ([[((⟨[1], [0]⟩, tenAt 1) : Stamped)]].map returned) = .ok file := by
    refine ⟨out.map Prod.snd, ?_⟩
    simp only [parseNav, compileNav, keepResults, returned, List.map_cons, List.map_nil, List.filter_cons, if_true, List.filter_nil,
      List.flatten_cons, List.flatten_nil, List.append_nil, readEntries, bind, Except.bind, hout]
  obtain ⟨file', hf⟩ := h [] .null _ file (by simp) hok hfile
  obtain ⟨c, hc, -, hc2⟩ := category (tenAt 1)
  have : c = "depth" := by simpa using hc2 true 1 10 ⟨rfl, rfl⟩
  subst this
  have ht : tideResults (some []) [some ((⟨[1], [0]⟩, (tenAt 1).json) : Stamp × Json ℚ)] = .error .indexError := by
    simp only [tideResults, hc, bind, Except.bind, Json.asStr, true_or, if_true, decide_true, tideLoop,
      time_meas true (tenAt 1) 1 10 ⟨rfl, rfl⟩, List.length_nil, tideSeek, tideRecord]
    simp
  simp only [parseTide, keepResults, returned, List.map_cons, List.map_nil, List.filter_cons, if_true, List.filter_nil, List.mapM_cons,
    ht, bind, Except.bind] at hf
  cases hf

/-- The claim: whatever the order of the results, each corrected depth is corrected by the height at its time. -/
def TideAnyOrder : Prop := ∀ (tide : List (TSample ℚ)) (r r' : List Stamped), tide.Pairwise (fun a b => a.t < b.t) →
  (∀ e ∈ r, ∃ t v, DepthOf true e.2 t v) → tideResults (some tide) (returned r) = .ok (returned r') →
  List.Forall₂ (fun e e' => ∀ t v v', DepthOf true e.2 t v → DepthOf true e'.2 t v' → v' = v ∨ ∃ h, TideAt tide t h ∧ v' = v - h) r r'

/-- C237: false: a depth recorded after a later one is corrected by a height outside the samples around its time. -/
theorem C237_order_false : ¬ TideAnyOrder := by
  intro h
  have hl := loop_eq true [⟨0, 0⟩, ⟨1, 1⟩, ⟨2, 0⟩, ⟨3, 0⟩] [(⟨[1], [5]⟩, tenAt (3/2)), (⟨[0], [5]⟩, tenAt (1/2))]
    [⟨3/2, 10⟩, ⟨1/2, 10⟩] [⟨3/2, 19/2⟩, ⟨1/2, 17/2⟩] 0 (.cons ⟨rfl, rfl⟩ (.cons ⟨rfl, rfl⟩ .nil))
    (by norm_num [tideCorrect, tideSeek, tideApply, interpolate, bind, Except.bind])
  obtain ⟨b, e, hl⟩ := hl
  obtain ⟨c, hc, -, hc2⟩ := category (tenAt (3/2))
  have : c = "depth" := by simpa using hc2 true (3/2) 10 ⟨rfl, rfl⟩
  subst this
  have ht : tideResults (some [⟨0, 0⟩, ⟨1, 1⟩, ⟨2, 0⟩, ⟨3, 0⟩]) (returned [(⟨[1], [5]⟩, tenAt (3/2)), (⟨[0], [5]⟩, tenAt (1/2))])
      = .ok (returned [(⟨[1], [5]⟩, withDepth (19/2) (tenAt (3/2))), (⟨[0], [5]⟩, withDepth (17/2) (tenAt (1/2)))]) := by
    simp only [returned, List.map_cons, List.map_nil, withDepths, List.zipWith_cons_cons, List.zipWith_nil_right] at hl ⊢
    simp only [tideResults, hc, bind, Except.bind, Json.asStr, true_or, if_true, decide_true, hl]
    simp
  have := h _ _ _ (by norm_num) (by
    intro e he
    simp only [List.mem_cons, List.not_mem_nil, or_false] at he
    rcases he with rfl | rfl
    · exact ⟨_, _, rfl, rfl⟩
    · exact ⟨_, _, rfl, rfl⟩) ht
  cases this with
  | cons _ h2 =>
    cases h2 with
    | cons h3 _ =>
      rcases h3 (1/2) 10 (17/2) ⟨rfl, rfl⟩ ⟨rfl, rfl⟩ with h4 | ⟨x, ⟨i, a, b', ha, hb, h5, h6, h7⟩, hx⟩
      · norm_num at h4
      · have hx' : x = 3/2 := by linarith
        subst hx'
        match i, ha, hb with
        | 0, ha, hb =>
          simp at ha hb
          subst ha hb
          norm_num [OnLine] at h7
        | 1, ha, hb => simp at ha; subst ha; norm_num at h5
        | 2, ha, hb => simp at ha; subst ha; norm_num at h5
        | (k + 3), ha, hb => simp at hb

end Oplab.Props
