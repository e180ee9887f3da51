import Verif.Spec.ParsePlots
import Verif.Lemmas.Digits
import Mathlib.Tactic.Linarith
import Mathlib.Tactic.NormNum
import Mathlib.Tactic.Positivity

/-! C264: the overview of a parsed dive. -/

namespace Oplab.Props
open Oplab Oplab.Spec

private theorem bind_ok {α β : Type} {x : Res α} {f : α → Res β} {c : β} (h : (x >>= f) = .ok c) :
    ∃ a, x = .ok a ∧ f a = .ok c := by
  cases x with
  | error e => exact absurd h (by intro h; cases h)
  | ok a => exact ⟨a, rfl, h⟩

private def empty : FrameGroup := ⟨[], [], []⟩

private def grp (s : List (String × FrameGroup)) (c : String) : FrameGroup := (s.lookup c).getD empty

private def isOther (r : PlotRec) : Bool := decide (r.frame ≠ "body" ∧ r.frame ≠ "inertial")

/-- What a group should hold, given the records of its category. -/
private def Holds (g : FrameGroup) (l : List PlotRec) : Prop :=
  g.body = l.filter (fun r => decide (r.frame = "body")) ∧ g.inertial = l.filter (fun r => decide (r.frame = "inertial")) ∧
    g.other = l.filter isOther ∧ g.other.length ≤ 1

private theorem put_holds {g g' : FrameGroup} {r : PlotRec} {l : List PlotRec} (h : groupPut g r = .ok g') (hg : Holds g l) :
    Holds g' (l ++ [r]) := by
  obtain ⟨h1, h2, h3, h4⟩ := hg
  unfold groupPut at h
  by_cases hb : r.frame = "body"
  · rw [if_pos hb] at h
    cases h
    refine ⟨?_, ?_, ?_, h4⟩ <;> simp [List.filter_append, hb, h1, h2, h3, isOther]
  rw [if_neg hb] at h
  by_cases hi : r.frame = "inertial"
  · rw [if_pos hi] at h
    cases h
    refine ⟨?_, ?_, ?_, h4⟩ <;> simp [List.filter_append, hi, h1, h2, h3, isOther]
  rw [if_neg hi] at h
  by_cases ho : g.other = []
  · rw [if_pos ho] at h
    cases h
    rw [ho] at h3
    refine ⟨?_, ?_, ?_, by simp⟩ <;> simp [List.filter_append, hb, hi, h1, h2, isOther]
    have := List.filter_eq_nil_iff.mp h3.symm
    intro a ha hab
    have := this a ha
    simpa [isOther, hab] using this
  · rw [if_neg ho] at h; cases h

private theorem putRec_grp {s s' : List (String × FrameGroup)} {r : PlotRec} (h : putRec s r = .ok s') :
    (∀ c, c ≠ r.category → grp s' c = grp s c) ∧ groupPut (grp s r.category) r = .ok (grp s' r.category) ∧
      (∀ c, c ∈ s'.map Prod.fst ↔ c ∈ s.map Prod.fst ∨ c = r.category) ∧ ((s.map Prod.fst).Nodup → (s'.map Prod.fst).Nodup) := by
  induction s generalizing s' with
  | nil =>
    obtain ⟨g, hg, h⟩ := bind_ok h
    cases h
    refine ⟨fun c hc => ?_, ?_, by simp, by simp⟩
    · unfold grp; simp [List.lookup, beq_eq_false_iff_ne.mpr hc]
    · unfold grp; simpa [List.lookup, empty] using hg
  | cons p s ih =>
    obtain ⟨c, g⟩ := p
    unfold putRec at h
    by_cases hc : c = r.category
    · rw [if_pos hc] at h
      obtain ⟨g', hg, h⟩ := bind_ok h
      cases h
      subst hc
      refine ⟨fun d hd => ?_, ?_, ?_, by simp⟩
      · unfold grp; simp [List.lookup, beq_eq_false_iff_ne.mpr hd]
      · unfold grp; simpa [List.lookup] using hg
      · intro d; simp only [List.map_cons, List.mem_cons]; tauto
    · rw [if_neg hc] at h
      obtain ⟨t, ht, h⟩ := bind_ok h
      cases h
      obtain ⟨h1, h2, h3, h4⟩ := ih ht
      refine ⟨fun d hd => ?_, ?_, ?_, ?_⟩
      · have := h1 d hd
        unfold grp at this ⊢
        by_cases hdc : d = c
        · subst hdc; simp [List.lookup]
        · simpa [List.lookup, beq_eq_false_iff_ne.mpr hdc] using this
      · have e : (r.category == c) = false := beq_eq_false_iff_ne.mpr (Ne.symm hc)
        unfold grp at h2 ⊢
        simpa [List.lookup, e] using h2
      · intro d
        simp only [List.map_cons, List.mem_cons, h3]
        tauto
      · intro hn
        simp only [List.map_cons, List.nodup_cons] at hn ⊢
        refine ⟨?_, h4 hn.2⟩
        rw [h3]
        rintro (h | h)
        · exact hn.1 h
        · exact hc h

/-- The records of a category. -/
private def catOf (data : List (Option PlotRec)) (c : String) : List PlotRec :=
  data.filterMap fun | none => none | some r => if r.category = c then some r else none

private theorem groupAll_holds {data : List (Option PlotRec)} {s s' : List (String × FrameGroup)} {pre : String → List PlotRec}
    (h : groupAll s data = .ok s') (hp : ∀ c, c ≠ "origin" → Holds (grp s c) (pre c)) (ho : "origin" ∉ s.map Prod.fst)
    (hn : (s.map Prod.fst).Nodup) (hk : ∀ c, c ≠ "origin" → pre c ≠ [] → c ∈ s.map Prod.fst) :
    (∀ c, c ≠ "origin" → Holds (grp s' c) (pre c ++ catOf data c)) ∧ "origin" ∉ s'.map Prod.fst ∧ (s'.map Prod.fst).Nodup ∧
      (∀ c, c ≠ "origin" → pre c ++ catOf data c ≠ [] → c ∈ s'.map Prod.fst) := by
  induction data generalizing s pre with
  | nil =>
    cases h
    exact ⟨fun c hc => by simpa [catOf] using hp c hc, ho, hn, fun c hc => by simpa [catOf] using hk c hc⟩
  | cons x l ih =>
    cases x with
    | none => exact ih h hp ho hn hk
    | some r =>
      unfold groupAll at h
      by_cases hr : r.category = "origin"
      · rw [if_pos hr] at h
        have e : ∀ c, c ≠ "origin" → catOf (some r :: l) c = catOf l c := fun c hc => by
          have hne : r.category ≠ c := fun h => hc (h.symm.trans hr)
          simp [catOf, hne]
        obtain ⟨h1, h2, h3, h4⟩ := ih h hp ho hn hk
        refine ⟨fun c hc => by rw [e c hc]; exact h1 c hc, h2, h3, fun c hc => by rw [e c hc]; exact h4 c hc⟩
      · rw [if_neg hr] at h
        obtain ⟨t, ht, h⟩ := bind_ok h
        obtain ⟨g1, g2, g3, g4⟩ := putRec_grp ht
        obtain ⟨h1, h2, h3, h4⟩ := ih (pre := fun c => pre c ++ if r.category = c then [r] else []) h
          (fun c hc => by
            by_cases e : r.category = c
            · subst e
              simpa using put_holds g2 (hp _ hc)
            · rw [g1 c (Ne.symm e)]
              simpa [e] using hp c hc)
          (by rw [g3]; rintro (h | h); exacts [ho h, hr h.symm]) (g4 hn)
          (fun c hc => by
            intro hne
            rw [g3]
            by_cases e : r.category = c
            · exact .inr e.symm
            · exact .inl (hk c hc (by simpa [e] using hne)))
        have e : ∀ c, (pre c ++ if r.category = c then [r] else []) ++ catOf l c = pre c ++ catOf (some r :: l) c := fun c => by
          by_cases e : r.category = c <;> simp [catOf, e]
        exact ⟨fun c hc => by rw [← e c]; exact h1 c hc, h2, h3, fun c hc => by rw [← e c]; exact h4 c hc⟩

private theorem records_cat (data : List (Option PlotRec)) (c f : String) :
    recordsOf data c f = (catOf data c).filter fun r => decide (r.frame = f) := by
  induction data with
  | nil => rfl
  | cons x l ih =>
    cases x with
    | none => exact ih
    | some r =>
      by_cases h1 : r.category = c
      · by_cases h2 : r.frame = f
        · simpa [recordsOf, catOf, h1, h2] using ih
        · simpa [recordsOf, catOf, h1, h2] using ih
      · simpa [recordsOf, catOf, h1] using ih

private theorem allTraces_mem {L : List (List PlotRec)} {T : List PTrace} (h : allTraces L = some T) :
    List.Forall₂ (fun l t => ∃ r m, l = r :: m ∧ data2trace r m = some t) (L.filter (fun l => decide (l ≠ []))) T := by
  induction L generalizing T with
  | nil => cases h; exact .nil
  | cons l L ih =>
    cases l with
    | nil => simpa using ih h
    | cons r m =>
      unfold allTraces at h
      cases ht : data2trace r m with
      | none => rw [ht] at h; cases h
      | some t =>
        rw [ht] at h
        simp only at h
        cases hT : allTraces L with
        | none => rw [hT] at h; cases h
        | some T' =>
          rw [hT] at h
          cases h
          simpa using List.Forall₂.cons ⟨r, m, rfl, ht⟩ (ih hT)

private theorem trace_fields {r : PlotRec} {m : List PlotRec} {t : PTrace} (h : data2trace r m = some t) :
    t.category = r.category ∧ t.frame = r.frame ∧ t.count = (r :: m).length ∧ t.points = (r :: m).map (fun k => timeLabel k.stamp) ∧
      ∃ d, updateGap ((r :: m).map (·.stamp)) = some d ∧ t.rate = rateText d := by
  unfold data2trace at h
  split at h
  · cases h
  · rename_i d hd
    cases h
    exact ⟨rfl, rfl, rfl, rfl, d, hd, rfl⟩

private theorem mem_cat {data : List (Option PlotRec)} {c : String} {r : PlotRec} (h : r ∈ catOf data c) : r.category = c := by
  simp only [catOf, List.mem_filterMap] at h
  obtain ⟨x, _, hx⟩ := h
  cases x with
  | none => cases hx
  | some q =>
    simp only at hx
    split at hx
    · cases hx; assumption
    · cases hx

/-- The lists of a category: each has the records of one frame. -/
private theorem part_spec {data : List (Option PlotRec)} {c : String} {g : FrameGroup} (hg : Holds g (catOf data c)) {l : List PlotRec}
    (hl : l ∈ [g.body, g.inertial, g.other]) {r : PlotRec} {m : List PlotRec} (e : l = r :: m) :
    r.category = c ∧ l = recordsOf data c r.frame ∧
      ((l = g.body ∧ r.frame = "body") ∨ (l = g.inertial ∧ r.frame = "inertial") ∨ (l = g.other ∧ isOther r = true)) := by
  obtain ⟨h1, h2, h3, h4⟩ := hg
  simp only [List.mem_cons, List.not_mem_nil, or_false] at hl
  have key : ∀ p : PlotRec → Bool, l = (catOf data c).filter p → r.category = c ∧ p r = true := fun p hp => by
    have : r ∈ (catOf data c).filter p := by rw [← hp, e]; simp
    rw [List.mem_filter] at this
    exact ⟨mem_cat this.1, this.2⟩
  rcases hl with hl | hl | hl
  · obtain ⟨k1, k2⟩ := key _ (hl.trans h1)
    have k3 : r.frame = "body" := by simpa using k2
    refine ⟨k1, ?_, .inl ⟨hl, k3⟩⟩
    rw [records_cat, k3, hl, h1]
  · obtain ⟨k1, k2⟩ := key _ (hl.trans h2)
    have k3 : r.frame = "inertial" := by simpa using k2
    refine ⟨k1, ?_, .inr (.inl ⟨hl, k3⟩)⟩
    rw [records_cat, k3, hl, h2]
  · obtain ⟨k1, k2⟩ := key _ (hl.trans h3)
    refine ⟨k1, ?_, .inr (.inr ⟨hl, k2⟩)⟩
    have hm : m = [] := by
      rw [← hl, e] at h4
      simpa using h4
    subst hm
    have hsub : (catOf data c).filter (fun q => decide (q.frame = r.frame)) =
        ((catOf data c).filter isOther).filter (fun q => decide (q.frame = r.frame)) := by
      rw [List.filter_filter]
      refine List.filter_congr fun q _ => ?_
      by_cases hq : q.frame = r.frame
      · simp only [hq, decide_true, Bool.true_and]
        unfold isOther at k2 ⊢
        rw [hq]
        exact k2.symm
      · simp [hq]
    rw [records_cat, hsub, ← h3, ← hl, e]
    simp

private theorem drawn_inv {data : List (Option PlotRec)} {a b : ℚ} {T : List PTrace} (h : parsePlots data = .drawn a b T) :
    ∃ s, entryTime data 1 = .ok a ∧ entryTime data (-1) = .ok b ∧ groupAll [] data = .ok s ∧
      allTraces (s.flatMap fun c => [c.2.body, c.2.inertial, c.2.other]) = some T := by
  unfold parsePlots at h
  split at h
  · cases h
  · rename_i st fi s ho
    obtain ⟨x, hx, ho⟩ := bind_ok ho
    obtain ⟨y, hy, ho⟩ := bind_ok ho
    obtain ⟨z, hz, ho⟩ := bind_ok ho
    cases ho
    split at h
    · cases h
    · rename_i t ht
      cases h
      exact ⟨s, hx, hy, hz, ht⟩

private theorem grp_mem {s : List (String × FrameGroup)} (hn : (s.map Prod.fst).Nodup) {c : String} {g : FrameGroup} (h : (c, g) ∈ s) :
    grp s c = g := by
  induction s with
  | nil => cases h
  | cons p s ih =>
    simp only [List.map_cons, List.nodup_cons] at hn
    rcases List.mem_cons.mp h with rfl | hm
    · simp [grp, List.lookup]
    · have : c ≠ p.1 := by
        rintro rfl
        exact hn.1 (List.mem_map.mpr ⟨_, hm, rfl⟩)
      have := beq_eq_false_iff_ne.mpr this
      obtain ⟨d, q⟩ := p
      simpa [grp, List.lookup, this] using ih hn.2 hm

private theorem holds_all {data : List (Option PlotRec)} {s : List (String × FrameGroup)} (h : groupAll [] data = .ok s) :
    (∀ c, c ≠ "origin" → Holds (grp s c) (catOf data c)) ∧ "origin" ∉ s.map Prod.fst ∧ (s.map Prod.fst).Nodup ∧
      (∀ c, c ≠ "origin" → catOf data c ≠ [] → c ∈ s.map Prod.fst) := by
  simpa using groupAll_holds (pre := fun _ => []) h (fun c _ => ⟨rfl, rfl, rfl, by simp [grp, empty]⟩) (by simp) (by simp) (by simp)

/-- **C264**: each trace, and its row of the table, is about all records of one category and frame, in their order. -/
theorem C264_traces (data : List (Option PlotRec)) (a b : ℚ) (T : List PTrace) (h : parsePlots data = .drawn a b T) (t : PTrace)
    (ht : t ∈ T) :
    t.category ≠ "origin" ∧ recordsOf data t.category t.frame ≠ [] ∧ t.count = (recordsOf data t.category t.frame).length ∧
      t.points = (recordsOf data t.category t.frame).map fun k => timeLabel k.stamp := by
  obtain ⟨s, _, _, hs, hT⟩ := drawn_inv h
  obtain ⟨h1, h2, h3, _⟩ := holds_all hs
  have hf := allTraces_mem hT
  obtain ⟨i, hi, rfl⟩ := List.getElem_of_mem ht
  have hlen := hf.length_eq
  obtain ⟨r, m, e, hd⟩ := List.Forall₂.get hf (i := i) (by omega) hi
  have hl := List.getElem_mem (l := (s.flatMap fun c => [c.2.body, c.2.inertial, c.2.other]).filter (fun l => decide (l ≠ []))) (n := i) (by omega)
  rw [List.mem_filter, List.mem_flatMap] at hl
  obtain ⟨⟨⟨c, g⟩, hc, hl⟩, _⟩ := hl
  have hco : c ≠ "origin" := by
    rintro rfl
    exact h2 (List.mem_map.mpr ⟨_, hc, rfl⟩)
  have hg := h1 c hco
  rw [grp_mem h3 hc] at hg
  obtain ⟨p1, p2, _⟩ := part_spec hg hl e
  obtain ⟨f1, f2, f3, f4, _⟩ := trace_fields hd
  simp only [List.get_eq_getElem] at e f1 f2 f3 f4
  rw [e] at p2
  rw [f1, f2, f3, f4, p1, ← p2]
  exact ⟨hco, by simp, rfl, rfl⟩

/-- **C264**: every category and frame has one. -/
theorem C264_complete (data : List (Option PlotRec)) (a b : ℚ) (T : List PTrace) (h : parsePlots data = .drawn a b T) (c f : String)
    (hc : c ≠ "origin") (hr : recordsOf data c f ≠ []) : ∃ t ∈ T, t.category = c ∧ t.frame = f := by
  obtain ⟨s, _, _, hs, hT⟩ := drawn_inv h
  obtain ⟨h1, h2, h3, h4⟩ := holds_all hs
  have hcat : catOf data c ≠ [] := by
    intro e
    rw [records_cat, e] at hr
    exact hr rfl
  obtain ⟨⟨c', g⟩, hm, hc'⟩ := List.mem_map.mp (h4 c hc hcat)
  simp only at hc'
  subst hc'
  have hg := h1 c' hc
  rw [grp_mem h3 hm] at hg
  have : ∃ l ∈ [g.body, g.inertial, g.other], ∃ r ∈ l, r.frame = f := by
    rw [records_cat] at hr
    obtain ⟨r, hr⟩ := List.exists_mem_of_ne_nil _ hr
    rw [List.mem_filter] at hr
    have hf : r.frame = f := by simpa using hr.2
    obtain ⟨g1, g2, g3, _⟩ := hg
    by_cases b1 : r.frame = "body"
    · exact ⟨g.body, by simp, r, by rw [g1, List.mem_filter]; exact ⟨hr.1, by simpa using b1⟩, hf⟩
    · by_cases b2 : r.frame = "inertial"
      · exact ⟨g.inertial, by simp, r, by rw [g2, List.mem_filter]; exact ⟨hr.1, by simpa using b2⟩, hf⟩
      · exact ⟨g.other, by simp, r, by rw [g3, List.mem_filter]; exact ⟨hr.1, by simp [isOther, b1, b2]⟩, hf⟩
  obtain ⟨l, hl, r, hrl, hrf⟩ := this
  have hf := allTraces_mem hT
  have hmem : l ∈ (s.flatMap fun c => [c.2.body, c.2.inertial, c.2.other]).filter (fun l => decide (l ≠ [])) := by
    rw [List.mem_filter, List.mem_flatMap]
    exact ⟨⟨_, hm, hl⟩, by simpa using List.ne_nil_of_mem hrl⟩
  obtain ⟨i, hi, e⟩ := List.getElem_of_mem hmem
  have hlen := hf.length_eq
  obtain ⟨r', m, e', hd⟩ := List.Forall₂.get hf (i := i) hi (by omega)
  simp only [List.get_eq_getElem] at e' hd
  rw [e] at e'
  obtain ⟨p1, p2, _⟩ := part_spec hg hl e'
  obtain ⟨f1, f2, _⟩ := trace_fields hd
  refine ⟨_, List.getElem_mem (by omega), f1.trans p1, f2.trans ?_⟩
  rw [p2, records_cat, List.mem_filter] at hrl
  have : r.frame = r'.frame := by simpa using hrl.2
  rw [← this, hrf]

private theorem forall2_pairwise {α β : Type} {R : α → β → Prop} {P : α → α → Prop} {Q : β → β → Prop} {l : List α} {m : List β}
    (h : List.Forall₂ R l m) (hp : l.Pairwise P) (himp : ∀ a b c d, R a c → R b d → P a b → Q c d) : m.Pairwise Q := by
  induction h with
  | nil => exact .nil
  | cons hr hs ih =>
    rename_i a c l m
    rw [List.pairwise_cons] at hp ⊢
    refine ⟨fun d hd => ?_, ih hp.2⟩
    obtain ⟨i, hi, rfl⟩ := List.getElem_of_mem hd
    have hlen := hs.length_eq
    have := List.Forall₂.get hs (i := i) (by omega) hi
    exact himp _ _ _ _ hr this (hp.1 _ (List.getElem_mem (by omega)))

/-- Two lists do not begin with records of the same category and frame. -/
private def Differ (l m : List PlotRec) : Prop :=
  ∀ r r' k k', l = r :: k → m = r' :: k' → (r.category, r.frame) ≠ (r'.category, r'.frame)

/-- **C264**: and no two traces have the same title. -/
theorem C264_titles (data : List (Option PlotRec)) (a b : ℚ) (T : List PTrace) (h : parsePlots data = .drawn a b T) :
    (T.map fun t => (t.category, t.frame)).Nodup := by
  obtain ⟨s, _, _, hs, hT⟩ := drawn_inv h
  obtain ⟨h1, h2, h3, _⟩ := holds_all hs
  have hf := allTraces_mem hT
  have hh : ∀ p ∈ s, Holds p.2 (catOf data p.1) := fun p hp => by
    have := h1 p.1 (by rintro e; exact h2 (List.mem_map.mpr ⟨p, hp, e⟩))
    rwa [grp_mem h3 (show (p.1, p.2) ∈ s from hp)] at this
  have hP : (s.flatMap fun c => [c.2.body, c.2.inertial, c.2.other]).Pairwise Differ := by
    rw [List.pairwise_flatMap]
    constructor
    · intro p hp
      have hg := hh p hp
      have sp := fun l hl r m e => part_spec hg (l := l) hl (r := r) (m := m) e
      obtain ⟨g1, g2, g3, _⟩ := hg
      have key1 : ∀ r k, p.2.body = r :: k → r.frame = "body" := fun r k e => by
        have : r ∈ p.2.body := by rw [e]; simp
        rw [g1, List.mem_filter] at this
        simpa using this.2
      have key2 : ∀ r k, p.2.inertial = r :: k → r.frame = "inertial" := fun r k e => by
        have : r ∈ p.2.inertial := by rw [e]; simp
        rw [g2, List.mem_filter] at this
        simpa using this.2
      have key3 : ∀ r k, p.2.other = r :: k → r.frame ≠ "body" ∧ r.frame ≠ "inertial" := fun r k e => by
        have : r ∈ p.2.other := by rw [e]; simp
        rw [g3, List.mem_filter] at this
        simpa [isOther] using this.2
      simp only [List.pairwise_cons, List.mem_cons, List.not_mem_nil, or_false, List.Pairwise.nil, and_true, false_imp_iff, implies_true]
      refine ⟨?_, ?_⟩
      · rintro m (rfl | rfl) r r' k k' e e' he
        · have := (Prod.ext_iff.mp he).2
          simp only [key1 r k e, key2 r' k' e'] at this
          exact absurd this (by decide)
        · have := (Prod.ext_iff.mp he).2
          simp only [key1 r k e] at this
          exact (key3 r' k' e').1 this.symm
      · rintro m rfl r r' k k' e e' he
        have := (Prod.ext_iff.mp he).2
        simp only [key2 r k e] at this
        exact (key3 r' k' e').2 this.symm
    · have hnp : s.Pairwise fun p q => p.1 ≠ q.1 := by
        unfold List.Nodup at h3
        rwa [List.pairwise_map] at h3
      refine (List.pairwise_iff_forall_sublist.mpr fun {p q} hsub => ?_)
      have hpq := (List.pairwise_iff_forall_sublist.mp hnp) hsub
      have mp : p ∈ s := hsub.subset (by simp)
      have mq : q ∈ s := hsub.subset (by simp)
      intro l hl m hm r r' k k' e e' he
      have e1 := (part_spec (hh p mp) hl e).1
      have e2 := (part_spec (hh q mq) hm e').1
      have := (Prod.ext_iff.mp he).1
      simp only [e1, e2] at this
      exact hpq this
  unfold List.Nodup
  rw [List.pairwise_map]
  refine forall2_pairwise hf (hP.filter _) ?_
  rintro l m t u ⟨r, k, e, hd⟩ ⟨r', k', e', hd'⟩ hdiff
  obtain ⟨f1, f2, _⟩ := trace_fields hd
  obtain ⟨f1', f2', _⟩ := trace_fields hd'
  rw [f1, f2, f1', f2']
  exact hdiff r r' k k' e e'

/-- **C264**: start and end are the times of the second entry, which follows the origin, and of the last. -/
theorem C264_span (data : List (Option PlotRec)) (a b : ℚ) (T : List PTrace) (h : parsePlots data = .drawn a b T) :
    (∃ r, data[1]? = some (some r) ∧ r.stamp = a) ∧ (∃ r, data.getLast? = some (some r) ∧ r.stamp = b) := by
  obtain ⟨s, h1, h2, _⟩ := drawn_inv h
  have hlen : 1 < data.length := by
    obtain ⟨x, hx, _⟩ := bind_ok h1
    by_contra hc
    have : data[1]? = none := List.getElem?_eq_none (by omega)
    simp [pyGet, this] at hx
  constructor
  · obtain ⟨x, hx, h1⟩ := bind_ok h1
    have : data[1]? = some data[1] := List.getElem?_eq_getElem hlen
    simp only [pyGet] at hx
    norm_num at hx
    rw [this] at hx
    cases hx
    split at h1
    · cases h1
    · rename_i r hr
      cases h1
      exact ⟨r, by rw [this, hr], rfl⟩
  · obtain ⟨x, hx, h2⟩ := bind_ok h2
    have e : pyGet data (-1) = .ok (data[data.length - 1]) := by
      unfold pyGet
      have e1 : ((-1 : Int) + data.length).toNat = data.length - 1 := by omega
      simp only [show (-1 : Int) < 0 by norm_num, if_true, e1]
      rw [if_neg (by omega), List.getElem?_eq_getElem (by omega)]
    rw [e] at hx
    cases hx
    split at h2
    · cases h2
    · rename_i r hr
      cases h2
      refine ⟨r, ?_, rfl⟩
      rw [List.getLast?_eq_getElem?, List.getElem?_eq_getElem (by omega), hr]

private def Small (n : ℕ) (d prev : ℚ) (rest : List ℚ) : Prop :=
  11 - n ≤ rest.length ∧ ∀ x ∈ List.take (11 - n) (d :: gapsOf (prev :: rest)), x < 2 / 1000

private theorem gapLoop_eq (rest : List ℚ) : ∀ (d : ℚ) (n : ℕ) (prev : ℚ), n ≤ 10 →
    (Small n d prev rest → gapLoop d n prev rest = none) ∧
    (¬ Small n d prev rest → gapLoop d n prev rest = some (((d :: gapsOf (prev :: rest)).find? fun d => decide (2 / 1000 ≤ d)).getD
        ((d :: gapsOf (prev :: rest)).getLast?.getD 0))) := by
  induction rest with
  | nil =>
    intro d n prev hn
    refine ⟨fun h => absurd h.1 (by simp only [List.length_nil]; omega), fun _ => ?_⟩
    by_cases h : (2 / 1000 : ℚ) ≤ d
    · simp only [gapLoop, gapsOf, List.find?, h, decide_true, Option.getD_some]
    · simp only [gapLoop, gapsOf, List.find?, h, decide_false, Option.getD_none, List.getLast?_singleton, Option.getD_some]
  | cons t rest ih =>
    intro d n prev hn
    unfold gapLoop
    by_cases hd : d < 2 / 1000
    · rw [if_pos (.inr hd)]
      by_cases hx : 10 < n + 1
      · rw [if_pos hx]
        obtain rfl : n = 10 := by omega
        exact ⟨fun _ => rfl, fun h => absurd ⟨by simp, by simpa using hd⟩ h⟩
      · rw [if_neg hx]
        have e1 : 11 - n = (11 - (n + 1)) + 1 := by omega
        have hd' : decide (2 / 1000 ≤ d) = false := by simpa using hd
        have e2 : Small n d prev (t :: rest) ↔ Small (n + 1) (t - prev) t rest := by
          unfold Small
          rw [e1]
          simp only [gapsOf, List.take_succ_cons, List.mem_cons, forall_eq_or_imp, hd, true_and, List.length_cons, Nat.add_le_add_iff_right]
        rw [e2]
        obtain ⟨i1, i2⟩ := ih (t - prev) (n + 1) t (by omega)
        refine ⟨i1, fun h => ?_⟩
        rw [i2 h]
        simp only [gapsOf, List.find?, hd', List.getLast?_cons_cons]
    · have h2 : 2 / 1000 ≤ d := not_lt.mp hd
      have h0 : ¬ (d = 0 ∨ d < 2 / 1000) := by
        rintro (h | h)
        · rw [h] at h2; norm_num at h2
        · exact hd h
      rw [if_neg h0]
      refine ⟨?_, fun _ => ?_⟩
      · rintro ⟨_, h⟩
        have e1 : 11 - n = (10 - n) + 1 := by omega
        rw [e1] at h
        exact absurd (h d (by simp)) hd
      · simp only [List.find?, h2, decide_true, Option.getD_some]

/-- **C264**: the update rate is computed from the first difference of at least two milliseconds, or from the last difference if there is none;
but if there are eleven records, and the first nine differences are smaller, the program leaves. -/
theorem C264_rate (l : List ℚ) :
    updateGap l = if 11 ≤ l.length ∧ ∀ x ∈ (gapsOf l).take 9, x < 2 / 1000 then none else some (shownGap l) := by
  match l with
  | [] => simp [updateGap, shownGap, gapsOf]
  | [_] => simp [updateGap, shownGap, gapsOf]
  | a :: b :: rest =>
    change gapLoop (b - a) 2 b rest = _
    obtain ⟨h1, h2⟩ := gapLoop_eq rest (b - a) 2 b (by norm_num)
    have e : (11 ≤ (a :: b :: rest).length ∧ ∀ x ∈ (gapsOf (a :: b :: rest)).take 9, x < 2 / 1000) ↔ Small 2 (b - a) b rest := by
      unfold Small
      refine and_congr ?_ Iff.rfl
      simp only [List.length_cons]
      omega
    by_cases hS : Small 2 (b - a) b rest
    · rw [h1 hS, if_pos (e.mpr hS)]
    · rw [h2 hS, if_neg (fun h => hS (e.mp h))]
      rfl

/-- **C264**: the rate in the table. -/
theorem C264_table (data : List (Option PlotRec)) (a b : ℚ) (T : List PTrace) (h : parsePlots data = .drawn a b T) (t : PTrace)
    (ht : t ∈ T) :
    t.rate = let d := shownGap ((recordsOf data t.category t.frame).map (·.stamp)); if d ≠ 0 then some (1 / d) else none := by
  obtain ⟨s, _, _, hs, hT⟩ := drawn_inv h
  obtain ⟨h1, h2, h3, _⟩ := holds_all hs
  have hf := allTraces_mem hT
  obtain ⟨i, hi, rfl⟩ := List.getElem_of_mem ht
  have hlen := hf.length_eq
  obtain ⟨r, m, e, hd⟩ := List.Forall₂.get hf (i := i) (by omega) hi
  have hl := List.getElem_mem (l := (s.flatMap fun c => [c.2.body, c.2.inertial, c.2.other]).filter (fun l => decide (l ≠ []))) (n := i) (by omega)
  rw [List.mem_filter, List.mem_flatMap] at hl
  obtain ⟨⟨⟨c, g⟩, hc, hl⟩, _⟩ := hl
  have hco : c ≠ "origin" := by
    rintro rfl
    exact h2 (List.mem_map.mpr ⟨_, hc, rfl⟩)
  have hg := h1 c hco
  rw [grp_mem h3 hc] at hg
  obtain ⟨p1, p2, _⟩ := part_spec hg hl e
  obtain ⟨f1, f2, _, _, d, f5, f6⟩ := trace_fields hd
  simp only [List.get_eq_getElem] at e f1 f2 f5 f6
  rw [e] at p2
  rw [f1, f2, f6, p1, ← p2]
  rw [C264_rate] at f5
  split at f5
  · cases f5
  · cases f5
    rfl

private theorem round6 (q : ℚ) (h0 : 0 ≤ q) : |(roundEven q : ℚ) - q| ≤ 1 / 2 := by
  have h1 := Nat.floor_le h0
  have h2 := Nat.lt_floor_add_one q
  unfold roundEven
  rw [abs_le]
  dsimp only
  split_ifs <;> push_cast <;> constructor <;> linarith

private theorem label_eq (t : ℚ) (h0 : 0 ≤ t) :
    shownTime (timeLabel t) = ⌊t⌋₊ + ((roundEven ((t - ⌊t⌋₊) * 10 ^ 6) % 10 ^ 6 : ℕ) : ℚ) / 10 ^ 6 := by
  have f1 := Nat.floor_le h0
  have f2 := Nat.lt_floor_add_one t
  have hq : 0 ≤ t - ⌊t⌋₊ := by linarith
  have hr := round6 ((t - ⌊t⌋₊) * 10 ^ 6) (by positivity)
  unfold shownTime timeLabel fixed6
  dsimp only
  rw [abs_of_nonneg hq]
  generalize roundEven ((t - ⌊t⌋₊) * 10 ^ 6) = m at hr ⊢
  have hm : m / 10 ^ 6 < 2 := by
    rw [Nat.div_lt_iff_lt_mul (by norm_num)]
    have : (m : ℚ) < 2 * 10 ^ 6 := by
      rw [abs_le] at hr
      linarith [hr.2]
    exact_mod_cast this
  have hdec : (decDigits (m / 10 ^ 6)).length = 1 := by
    unfold decDigits
    rw [if_pos (by omega)]
    rfl
  rw [if_neg (by linarith)]
  have e : ([] ++ decDigits (m / 10 ^ 6) ++ '.' :: padDigits 6 (m % 10 ^ 6)).drop 2 = padDigits 6 (m % 10 ^ 6) := by
    rw [List.nil_append]
    obtain ⟨c, hc⟩ := List.length_eq_one_iff.mp hdec
    rw [hc]
    rfl
  rw [e, List.take_of_length_le (by rw [padDigits_length]; norm_num), padDigits_fold 6 _ (Nat.mod_lt _ (by norm_num))]

/-- **C264** (partial: not in the last half microsecond of a second): points are drawn at their times. -/
theorem C264_times_partial (t : ℚ) (h0 : 0 ≤ t) (h : t - ⌊t⌋₊ < 1 - 1 / 2 / 10 ^ 6) :
    |shownTime (timeLabel t) - t| ≤ 1 / 2 / 10 ^ 6 := by
  have f1 := Nat.floor_le h0
  have hr := round6 ((t - ⌊t⌋₊) * 10 ^ 6) (mul_nonneg (by linarith) (by norm_num))
  rw [label_eq t h0]
  generalize roundEven ((t - ⌊t⌋₊) * 10 ^ 6) = m at hr ⊢
  rw [abs_le] at hr
  have hm : m < 10 ^ 6 := by
    have : (m : ℚ) < 10 ^ 6 := by linarith [hr.2]
    exact_mod_cast this
  rw [Nat.mod_eq_of_lt hm, abs_le]
  constructor <;> linarith [hr.1, hr.2]

/-- **C264**: in the last half microsecond the point is drawn a second too early. -/
theorem C264_times_late (t : ℚ) (h0 : 0 ≤ t) (h : 1 - 1 / 2 / 10 ^ 6 < t - ⌊t⌋₊) : shownTime (timeLabel t) = ⌊t⌋₊ := by
  have f2 := Nat.lt_floor_add_one t
  rw [label_eq t h0]
  have e : roundEven ((t - ⌊t⌋₊) * 10 ^ 6) = 10 ^ 6 := by
    have hf : ⌊(t - ⌊t⌋₊) * 10 ^ 6⌋₊ = 999999 := by
      rw [Nat.floor_eq_iff (mul_nonneg (by linarith) (by norm_num))]
      push_cast
      constructor <;> linarith
    unfold roundEven
    dsimp only
    rw [hf, if_neg (by push_cast; linarith), if_pos (by push_cast; linarith)]
    norm_num
  rw [e]
  simp

/-- **C264**: so not all points are drawn at their times. -/
theorem C264_times_false : ¬ TimesShown := by
  intro h
  have hf : ⌊(9999999 / 10000000 : ℚ)⌋₊ = 0 := by
    rw [Nat.floor_eq_zero]; norm_num
  have h1 := C264_times_late (9999999 / 10000000) (by norm_num) (by rw [hf]; norm_num)
  have h2 := h (9999999 / 10000000) (by norm_num)
  rw [h1, hf] at h2
  norm_num [abs_le] at h2

private def origin : PlotRec := ⟨"origin", "body", 0⟩

/-- **C264**: two measurements of a category with another frame than body and inertial end the program with a TypeError. -/
theorem C264_drawn_false : ¬ AlwaysDrawn := by
  intro h
  obtain ⟨s, f, t, e⟩ := h [some origin, some ⟨"usbl", "ship", 1⟩, some ⟨"usbl", "ship", 2⟩] (by decide) (by decide)
  obtain ⟨_, _, _, hg, _⟩ := drawn_inv e
  have : groupAll [] [some origin, some ⟨"usbl", "ship", 1⟩, some ⟨"usbl", "ship", 2⟩] = .error .typeError := by rfl
  rw [this] at hg
  cases hg

private theorem left_eq : parsePlots (some origin :: List.replicate 11 (some ⟨"usbl", "inertial", 1⟩)) = .left := by
  have hg : overviewGroups (some origin :: List.replicate 11 (some ⟨"usbl", "inertial", 1⟩)) =
      .ok (1, 1, [("usbl", ⟨[], List.replicate 11 ⟨"usbl", "inertial", 1⟩, []⟩)]) := by rfl
  unfold parsePlots
  rw [hg]
  have hd : data2trace ⟨"usbl", "inertial", 1⟩ (List.replicate 10 ⟨"usbl", "inertial", 1⟩) = none := by
    unfold data2trace
    rw [C264_rate, if_pos]
    refine ⟨by decide, ?_⟩
    intro x hx
    have : (gapsOf (List.map (fun x : PlotRec => x.stamp) (⟨"usbl", "inertial", 1⟩ :: List.replicate 10 ⟨"usbl", "inertial", 1⟩))).take 9 =
        List.replicate 9 0 := by
      simp [gapsOf, List.replicate]
    rw [this, List.mem_replicate] at hx
    rw [hx.2]
    norm_num
  have : allTraces (List.flatMap (fun c : String × FrameGroup => [c.2.body, c.2.inertial, c.2.other])
      [("usbl", ⟨[], List.replicate 11 ⟨"usbl", "inertial", 1⟩, []⟩)]) = none := by
    simp only [List.flatMap_cons, List.flatMap_nil, List.append_nil, List.replicate_succ (n := 10), allTraces, hd]
  simp only [this]

/-- **C264**: eleven measurements of the same time end the program, which says by its exit code that all is well; later dives are not parsed. -/
theorem C264_exit_false : ¬ ExitMeansDone := by
  intro h
  have e : ∀ ds, overviewDives ((some origin :: List.replicate 11 (some ⟨"usbl", "inertial", 1⟩)) :: ds) = (0, 0) := fun ds => by
    unfold overviewDives
    rw [left_eq]
  have := h [some origin :: List.replicate 11 (some ⟨"usbl", "inertial", 1⟩)] (by rw [e])
  rw [e] at this
  simp at this

/-- **C264** (partial: no overview leaves the program): the exit code is right. -/
theorem C264_exit_partial (ds : List (List (Option PlotRec))) (hl : ∀ d ∈ ds, parsePlots d ≠ .left) :
    ((overviewDives ds).2 = 0 ↔ ∀ d ∈ ds, ∃ a b T, parsePlots d = .drawn a b T) ∧ ((overviewDives ds).2 = 0 → (overviewDives ds).1 = ds.length) := by
  induction ds with
  | nil => simp [overviewDives]
  | cons d ds ih =>
    obtain ⟨i1, i2⟩ := ih fun e he => hl e (List.mem_cons_of_mem _ he)
    unfold overviewDives
    cases hd : parsePlots d with
    | failed e =>
      simp only [List.mem_cons, forall_eq_or_imp, hd]
      simp
    | left => exact absurd hd (hl d (by simp))
    | drawn a b T =>
      simp only [List.mem_cons, forall_eq_or_imp, hd, i1, List.length_cons, Nat.add_right_cancel_iff]
      refine ⟨⟨fun h => ⟨⟨a, b, T, rfl⟩, h⟩, fun h => h.2⟩, fun h => i2 (i1.mpr h)⟩

private theorem putRec_ok (s : List (String × FrameGroup)) (r : PlotRec) (h : isOther r = true → (grp s r.category).other = []) :
    ∃ s', putRec s r = .ok s' := by
  have key : ∀ g : FrameGroup, (isOther r = true → g.other = []) → ∃ g', groupPut g r = .ok g' := fun g hg => by
    unfold groupPut
    by_cases h1 : r.frame = "body"
    · exact ⟨_, by rw [if_pos h1]⟩
    by_cases h2 : r.frame = "inertial"
    · exact ⟨_, by rw [if_neg h1, if_pos h2]⟩
    · exact ⟨_, by rw [if_neg h1, if_neg h2, if_pos (hg (by simp [isOther, h1, h2]))]⟩
  induction s with
  | nil =>
    obtain ⟨g, hg⟩ := key ⟨[], [], []⟩ (fun _ => rfl)
    exact ⟨[(r.category, g)], by unfold putRec; rw [hg]; rfl⟩
  | cons p s ih =>
    obtain ⟨c, g⟩ := p
    unfold putRec
    by_cases hc : c = r.category
    · subst hc
      obtain ⟨g', hg⟩ := key g (fun ho => by simpa [grp, List.lookup] using h ho)
      exact ⟨(r.category, g') :: s, by rw [if_pos rfl, hg]; rfl⟩
    · have e : (r.category == c) = false := beq_eq_false_iff_ne.mpr (Ne.symm hc)
      obtain ⟨s', hs⟩ := ih (fun ho => by simpa [grp, List.lookup, e] using h ho)
      exact ⟨(c, g) :: s', by rw [if_neg hc, hs]; rfl⟩

private theorem groupAll_ok (data : List (Option PlotRec)) : ∀ s : List (String × FrameGroup),
    (∀ r, some r ∈ data → r.frame = "body" ∨ r.frame = "inertial") → ∃ s', groupAll s data = .ok s' := by
  induction data with
  | nil => exact fun s _ => ⟨s, rfl⟩
  | cons x l ih =>
    intro s h
    cases x with
    | none => exact ih s fun r hr => h r (List.mem_cons_of_mem _ hr)
    | some r =>
      unfold groupAll
      by_cases hr : r.category = "origin"
      · rw [if_pos hr]
        exact ih s fun r hr => h r (List.mem_cons_of_mem _ hr)
      · obtain ⟨s', hs⟩ := putRec_ok s r (fun ho => by
          rcases h r (by simp) with e | e <;> simp [isOther, e] at ho)
        rw [if_neg hr, hs]
        exact ih s' fun r hr => h r (List.mem_cons_of_mem _ hr)

private theorem traces_some {L : List (List PlotRec)}
    (h : ∀ l ∈ L, ¬ (11 ≤ (l.map (·.stamp)).length ∧ ∀ x ∈ (gapsOf (l.map (·.stamp))).take 9, x < 2 / 1000)) :
    ∃ T, allTraces L = some T := by
  induction L with
  | nil => exact ⟨[], rfl⟩
  | cons l L ih =>
    obtain ⟨T, hT⟩ := ih fun l hl => h l (List.mem_cons_of_mem _ hl)
    cases l with
    | nil => exact ⟨T, hT⟩
    | cons r m =>
      unfold allTraces data2trace
      rw [C264_rate, if_neg (h (r :: m) (by simp)), hT]
      exact ⟨_, rfl⟩

/-- **C264** (partial: frames body and inertial only, no eleven measurements of a category and frame in a row at the same time): the overview is drawn. -/
theorem C264_drawn_partial (data : List (Option PlotRec)) (h2 : 2 ≤ data.length) (hn : none ∉ data)
    (hf : ∀ r, some r ∈ data → r.frame = "body" ∨ r.frame = "inertial")
    (hg : ∀ c f, ¬ (11 ≤ (recordsOf data c f).length ∧ ∀ x ∈ (gapsOf ((recordsOf data c f).map (·.stamp))).take 9, x < 2 / 1000)) :
    ∃ s f t, parsePlots data = .drawn s f t := by
  obtain ⟨s, hs⟩ := groupAll_ok data [] hf
  have ent : ∀ i : Int, ∀ k : ℕ, k < data.length → (if i < 0 then i + data.length else i) = k → ∃ q, entryTime data i = .ok q := by
    intro i k hk e
    have : pyGet data i = .ok data[k] := by
      unfold pyGet
      rw [e]
      simp only [Int.toNat_natCast, List.getElem?_eq_getElem hk]
      rw [if_neg (by omega)]
    cases hx : data[k] with
    | none => exact absurd (hx ▸ List.getElem_mem hk) hn
    | some r => exact ⟨r.stamp, by unfold entryTime; rw [this, hx]; rfl⟩
  obtain ⟨a, ha⟩ := ent 1 1 (by omega) (by norm_num)
  obtain ⟨b, hb⟩ := ent (-1) (data.length - 1) (by omega) (by rw [if_pos (by norm_num)]; omega)
  have ho : overviewGroups data = .ok (a, b, s) := by
    unfold overviewGroups
    rw [ha, hb, hs]
    rfl
  obtain ⟨h1, h2', h3, _⟩ := holds_all hs
  obtain ⟨T, hT⟩ := traces_some (L := s.flatMap fun c => [c.2.body, c.2.inertial, c.2.other]) (fun l hl => by
    rw [List.mem_flatMap] at hl
    obtain ⟨⟨c, g⟩, hc, hl⟩ := hl
    have hco : c ≠ "origin" := by
      rintro rfl
      exact h2' (List.mem_map.mpr ⟨_, hc, rfl⟩)
    have hgg := h1 c hco
    rw [grp_mem h3 hc] at hgg
    cases l with
    | nil => simp
    | cons r m =>
      obtain ⟨_, p2, _⟩ := part_spec hgg hl rfl
      rw [p2]
      simpa using hg c r.frame)
  exact ⟨a, b, T, by unfold parsePlots; rw [ho]; simp only [hT]⟩

-- A dive with an origin, two velocities and a depth.
example : ∃ s f t, parsePlots [some origin, some ⟨"velocity", "body", 1⟩, some ⟨"depth", "inertial", 2⟩, some ⟨"velocity", "body", 3⟩] = .drawn s f t := by
  refine C264_drawn_partial _ (by decide) (by decide) ?_ ?_
  · intro r hr
    simp only [List.mem_cons, Option.some.injEq, List.not_mem_nil, or_false] at hr
    rcases hr with rfl | rfl | rfl | rfl <;> simp [origin]
  · rintro c f ⟨h, _⟩
    have : (recordsOf [some origin, some ⟨"velocity", "body", 1⟩, some ⟨"depth", "inertial", 2⟩, some ⟨"velocity", "body", 3⟩] c f).length ≤ 4 :=
      (List.length_filterMap_le _ _).trans (by simp)
    omega

end Oplab.Props
