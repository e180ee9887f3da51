import Verif.Spec.VehicleLogs
import Verif.Spec.Geometry
import Verif.Lemmas.Split
import Mathlib.Tactic.Ring
import Mathlib.Tactic.Linarith
import Mathlib.Tactic.NormNum
import Mathlib.Tactic.FieldSimp
import Mathlib.Tactic.Positivity
import Mathlib.Analysis.SpecialFunctions.Trigonometric.Basic

/-! # C194–C195: logs of vehicles -/

namespace Oplab.Props
open Oplab Oplab.Spec Real

/-! ## C194 -/

private theorem later_ok {α : Type} : ∀ (recs : List (Option ℝ × α)) (ts : List ℝ) (prev : ℝ) (out : List (Option ℝ × α)),
    recs.map Prod.fst = ts.map some → (prev :: ts).Pairwise (· < ·) → appendLater (some prev) out recs = .ok (out ++ recs)
  | [], _, _, out, _, _ => by simp [appendLater]
  | (t, a) :: recs, [], _, _, h, _ => by simp at h
  | (t, a) :: recs, x :: ts, prev, out, h, hp => by
    simp only [List.map_cons, List.cons.injEq] at h
    obtain ⟨rfl, h2⟩ := h
    have hlt : nanLess (some prev) (some x) := ⟨prev, x, rfl, rfl, (List.pairwise_cons.mp hp).1 x (by simp)⟩
    rw [appendLater, if_pos hlt, later_ok recs ts x _ h2 (List.pairwise_cons.mp hp).2]
    simp

private theorem measure_has (s : VehicleStd) (c : VehicleCategory) (r : AlrRow) :
    (AlrHas c r → ∃ m, alrMeasure s c r = some m ∧ categoryOf m = c ∧ AlrSays r m) ∧ (¬ AlrHas c r → alrMeasure s c r = none) := by
  obtain ⟨t, lock, ⟨vx, vy, vz⟩, roll, pitch, heading, depth, altitude, latitude, longitude⟩ := r
  cases c with
  | velocity =>
    by_cases hl : lock = some 1
    · rcases vx with _ | vx <;> rcases vy with _ | vy <;> rcases vz with _ | vz <;> simp [AlrHas, alrMeasure, hl, categoryOf, AlrSays]
    · simp [AlrHas, alrMeasure, hl]
  | orientation =>
    rcases roll with _ | roll <;> rcases pitch with _ | pitch <;> rcases heading with _ | heading <;>
      simp [AlrHas, alrMeasure, categoryOf, AlrSays]
  | depth => rcases depth with _ | d <;> simp [AlrHas, alrMeasure, categoryOf, AlrSays]
  | altitude =>
    by_cases hl : lock = some 1
    · rcases altitude with _ | d <;> simp [AlrHas, alrMeasure, hl, categoryOf, AlrSays]
    · simp [AlrHas, alrMeasure, hl]
  | usbl => rcases latitude with _ | la <;> rcases longitude with _ | lo <;> simp [AlrHas, alrMeasure, categoryOf, AlrSays]

open Classical in
/-- C194 (partial): of a log whose times increase, every row with a measurement of the category and no other gives one record, in order,
with the row's time and values; angles are given in degrees. Missing: rows without a time, see `C194_nan_time_false`. -/
theorem C194_records_partial (s : VehicleStd) (c : VehicleCategory) (rows : List AlrRow) (ts : List ℝ)
    (ht : (rows.filter fun r => AlrHas c r).map AlrRow.t = ts.map some) (hs : (0 :: ts).Pairwise (· < ·)) :
    ∃ out, parseAlr s c rows = .ok out ∧
      List.Forall₂ (fun r o => o.1 = r.t ∧ categoryOf o.2 = c ∧ AlrSays r o.2) (rows.filter fun r => AlrHas c r) out := by
  have key : ∀ rows : List AlrRow, List.Forall₂ (fun (r : AlrRow) (o : Option ℝ × VehicleRecord) => o.1 = r.t ∧ categoryOf o.2 = c ∧ AlrSays r o.2)
      (rows.filter fun r => AlrHas c r) (rows.filterMap fun r => (alrMeasure s c r).map fun m => (r.t, m)) := by
    intro rows
    induction rows with
    | nil => exact .nil
    | cons r rows ih =>
      obtain ⟨h1, h2⟩ := measure_has s c r
      by_cases h : AlrHas c r
      · obtain ⟨m, e, hm⟩ := h1 h
        simp only [List.filter_cons, h, decide_true, if_true, List.filterMap_cons, e, Option.map_some]
        exact .cons ⟨rfl, hm⟩ ih
      · simp only [List.filter_cons, h, decide_false, Bool.false_eq_true, if_false, List.filterMap_cons, h2 h, Option.map_none]
        exact ih
  have hk := key rows
  refine ⟨_, ?_, hk⟩
  have hfst : (rows.filterMap fun r => (alrMeasure s c r).map fun m => (r.t, m)).map Prod.fst = ts.map some := by
    rw [← ht]
    clear ht
    generalize (rows.filter fun r => AlrHas c r) = l1 at hk
    generalize (rows.filterMap fun r => (alrMeasure s c r).map fun m => (r.t, m)) = l2 at hk
    induction hk with
    | nil => rfl
    | cons h _ ih => simp only [List.map_cons, h.1, ih]
  rw [parseAlr, later_ok _ ts 0 [] hfst hs, List.nil_append]

/-- A row with a depth only. -/
private def depthRow (t d : Option ℝ) : AlrRow := ⟨t, none, ⟨none, none, none⟩, none, none, none, d, none, none, none⟩

open Classical in
/-- Non-vacuity: two depths and a row without one. -/
example : ([depthRow (some 1) (some 10), depthRow (some 2) none, depthRow (some 3) (some 11)].filter fun r => AlrHas .depth r).map AlrRow.t
    = [1, 3].map some ∧ ((0 : ℝ) :: [1, 3]).Pairwise (· < ·) := by
  constructor
  · simp [AlrHas, depthRow]
  · simp

/-- Full statement: every row with a time and a measurement has its record, whatever the other rows are. -/
def EveryRowRecorded : Prop := ∀ (s : VehicleStd) (rows : List AlrRow) (out : List (Option ℝ × VehicleRecord)),
  (rows.filterMap AlrRow.t).Pairwise (· < ·) → (∀ t ∈ rows.filterMap AlrRow.t, 0 < t) → parseAlr s .depth rows = .ok out →
  ∀ r ∈ rows, r.t ≠ none → r.depth ≠ none → ∃ o ∈ out, o.1 = r.t

/-- C194 is false if a time is missing: the row without a time and the one after it each replace the record before them. -/
theorem C194_nan_time_false : ¬ EveryRowRecorded ∧ ∀ (s : VehicleStd) (t1 t3 d1 d2 d3 : ℝ), 0 < t1 →
    parseAlr s .depth [depthRow (some t1) (some d1), depthRow none (some d2), depthRow (some t3) (some d3)]
      = .ok [(some t3, .depth d3 (d3 * s.depthFactor))] := by
  have h : ∀ (s : VehicleStd) (t1 t3 d1 d2 d3 : ℝ), 0 < t1 →
      parseAlr s .depth [depthRow (some t1) (some d1), depthRow none (some d2), depthRow (some t3) (some d3)]
        = .ok [(some t3, .depth d3 (d3 * s.depthFactor))] := by
    intro s t1 t3 d1 d2 d3 h1
    have n1 : nanLess (some 0) (some t1) := ⟨0, t1, rfl, rfl, h1⟩
    have n2 : ¬ nanLess (some t1) none := by rintro ⟨a, b, -, h, -⟩; cases h
    have n3 : ¬ nanLess none (some t3) := by rintro ⟨a, b, h, -⟩; cases h
    simp only [parseAlr, depthRow, alrMeasure, List.filterMap_cons, Option.map_some, List.filterMap_nil]
    rw [appendLater, if_pos n1, appendLater, if_neg n2, if_neg (by simp), appendLater, if_neg n3, if_neg (by simp), appendLater]
    rfl
  refine ⟨?_, h⟩
  intro hf
  obtain ⟨o, ho, e⟩ := hf ⟨0, 0, 0, 0, 0⟩ [depthRow (some 1) (some 10), depthRow none (some 11), depthRow (some 3) (some 12)] _
    (by simp [depthRow]) (by simp [depthRow]) (h _ 1 3 10 11 12 one_pos) (depthRow (some 1) (some 10)) (by simp) (by simp [depthRow])
    (by simp [depthRow])
  rw [List.mem_singleton.mp ho] at e
  simp [depthRow] at e

/-- A column with a name that is unique in the table is found. -/
private theorem find_column (cs : List Column) (c : Column) (hn : (cs.map Column.name).Nodup) (hc : c ∈ cs) :
    columnOf cs c.name = .ok c.values := by
  have : cs.filter (fun d => d.name = c.name) = [c] := by
    induction cs with
    | nil => simp at hc
    | cons d cs ih =>
      simp only [List.map_cons, List.nodup_cons, List.mem_map, not_exists, not_and] at hn
      rcases List.mem_cons.mp hc with rfl | hc
      · rw [List.filter_cons_of_pos (by simp)]
        congr 1
        rw [List.filter_eq_nil_iff]
        intro e he
        simpa using hn.1 e he
      · have hne : d.name ≠ c.name := fun e => hn.1 c hc e.symm
        rw [List.filter_cons_of_neg (by simpa using hne)]
        exact ih hn.2 hc
  rw [columnOf, this]

private theorem filter_rename (old new n : String) (cs : List Column) (h1 : n ≠ old) (h2 : n ≠ new) :
    (renameColumn old new cs).filter (fun c => c.name = n) = cs.filter (fun c => c.name = n) := by
  induction cs with
  | nil => rfl
  | cons c cs ih =>
    unfold renameColumn at ih ⊢
    rw [List.map_cons]
    by_cases ho : c.name = old
    · rw [if_pos ho, List.filter_cons_of_neg (by simpa using h2.symm), List.filter_cons_of_neg (by rw [ho]; simpa using h1.symm), ih]
    · rw [if_neg ho]
      by_cases hn : c.name = n
      · rw [List.filter_cons_of_pos (by simpa using hn), List.filter_cons_of_pos (by simpa using hn), ih]
      · rw [List.filter_cons_of_neg (by simpa using hn), List.filter_cons_of_neg (by simpa using hn), ih]

private theorem rename_mem (old new : String) (cs : List Column) (c : Column) (hc : c ∈ cs) (ho : c.name = old)
    (hn : (cs.map Column.name).Nodup) (hnew : ∀ d ∈ cs, d.name ≠ new) : columnOf (renameColumn old new cs) new = .ok c.values := by
  have : (renameColumn old new cs).filter (fun d => d.name = new) = [{ c with name := new }] := by
    induction cs with
    | nil => simp at hc
    | cons d cs ih =>
      simp only [List.map_cons, List.nodup_cons, List.mem_map, not_exists, not_and] at hn
      unfold renameColumn at ih ⊢
      rw [List.map_cons]
      rcases List.mem_cons.mp hc with rfl | hc
      · rw [if_pos ho, List.filter_cons_of_pos (by simp)]
        congr 1
        rw [List.filter_eq_nil_iff]
        intro e he
        obtain ⟨f, hf, rfl⟩ := List.mem_map.mp he
        have hne : f.name ≠ old := fun e => hn.1 f hf (e.trans ho.symm)
        rw [if_neg hne]
        simpa using hnew f (List.mem_cons_of_mem _ hf)
      · have hne : d.name ≠ old := fun e => hn.1 c hc (ho.trans e.symm)
        rw [if_neg hne, List.filter_cons_of_neg (by simpa using hnew d (by simp))]
        exact ih hc hn.2 fun e he => hnew e (List.mem_cons_of_mem _ he)
  rw [columnOf, this]

private theorem rename_two (old new : String) (cs : List Column) (c d : Column) (hc : c ∈ cs) (ho : c.name = old) (hd : d ∈ cs) (hn : d.name = new)
    (hne : old ≠ new) : columnOf (renameColumn old new cs) new = .error .keyError := by
  have hlen : 2 ≤ ((renameColumn old new cs).filter fun d => d.name = new).length := by
    have : ∀ cs : List Column, c ∈ cs → d ∈ cs → 2 ≤ ((renameColumn old new cs).filter fun d => d.name = new).length := by
      intro cs
      induction cs with
      | nil => intro h; simp at h
      | cons e cs ih =>
        intro hc hd
        have one : ∀ f ∈ cs, f.name = old ∨ f.name = new → 1 ≤ ((renameColumn old new cs).filter fun d => d.name = new).length := by
          intro f hf hfn
          refine List.length_pos_of_mem (a := { f with name := new }) (List.mem_filter.mpr ⟨List.mem_map.mpr ⟨f, hf, ?_⟩, by simp⟩)
          rcases hfn with h | h
          · rw [if_pos h]
          · split
            · rfl
            · rw [← h]
        have hcd : c ≠ d := by rintro rfl; exact hne (ho.symm.trans hn)
        unfold renameColumn at ih one ⊢
        rw [List.map_cons]
        rcases List.mem_cons.mp hc with rfl | hc'
        · have hd' : d ∈ cs := (List.mem_cons.mp hd).resolve_left fun e => hcd e.symm
          rw [if_pos ho, List.filter_cons_of_pos (by simp), List.length_cons]
          have := one d hd' (Or.inr hn)
          omega
        · rcases List.mem_cons.mp hd with rfl | hd'
          · rw [if_neg (by rw [hn]; exact hne.symm), List.filter_cons_of_pos (by simpa using hn), List.length_cons]
            have := one c hc' (Or.inl ho)
            omega
          · have := ih hc' hd'
            refine le_trans this ?_
            rw [List.filter_cons]
            by_cases hb : decide ((if e.name = old then ({ e with name := new } : Column) else e).name = new) = true
            · rw [if_pos hb]; exact Nat.le_succ _
            · rw [if_neg hb]
    exact this cs hc hd
  rw [columnOf]
  generalize (renameColumn old new cs).filter (fun d => d.name = new) = l at hlen
  rcases l with _ | ⟨a, _ | ⟨b, l⟩⟩
  · rfl
  · simp at hlen
  · rfl

/-- C194 (partial): the times of a table are the corrected ones if there are any, else those named "timestamp", else those named
"epoch_timestamp"; the other columns keep their names. Missing: tables with both "epoch_timestamp" and another of these, see
`C194_columns_false`. -/
theorem C194_columns_partial (cs : List Column) (hn : (cs.map Column.name).Nodup) :
    (∀ c ∈ cs, c.name = "corrected_timestamp" → (∀ d ∈ cs, d.name ≠ "epoch_timestamp") → columnOf (alrRename cs) "epoch_timestamp" = .ok c.values) ∧
    (∀ c ∈ cs, c.name = "timestamp" → (∀ d ∈ cs, d.name ≠ "epoch_timestamp" ∧ d.name ≠ "corrected_timestamp") →
      columnOf (alrRename cs) "epoch_timestamp" = .ok c.values) ∧
    (∀ c ∈ cs, c.name = "epoch_timestamp" → (∀ d ∈ cs, d.name ≠ "timestamp" ∧ d.name ≠ "corrected_timestamp") →
      columnOf (alrRename cs) "epoch_timestamp" = .ok c.values) ∧
    (∀ name : String, name ≠ "epoch_timestamp" → name ≠ "timestamp" → name ≠ "corrected_timestamp" →
      columnOf (alrRename cs) name = columnOf cs name) := by
  refine ⟨?_, ?_, ?_, ?_⟩
  · intro c hc e h
    have : cs.any (fun c => c.name = "corrected_timestamp") = true := List.any_eq_true.mpr ⟨c, hc, by simpa using e⟩
    rw [alrRename, if_pos this]
    exact rename_mem _ _ cs c hc e hn h
  · intro c hc e h
    have h0 : ¬ cs.any (fun c => c.name = "corrected_timestamp") = true := by
      rw [List.any_eq_true]; rintro ⟨d, hd, e⟩; exact (h d hd).2 (by simpa using e)
    have : cs.any (fun c => c.name = "timestamp") = true := List.any_eq_true.mpr ⟨c, hc, by simpa using e⟩
    rw [alrRename, if_neg h0, if_pos this]
    exact rename_mem _ _ cs c hc e hn fun d hd => (h d hd).1
  · intro c hc e h
    have h0 : ¬ cs.any (fun c => c.name = "corrected_timestamp") = true := by
      rw [List.any_eq_true]; rintro ⟨d, hd, e⟩; exact (h d hd).2 (by simpa using e)
    have h1 : ¬ cs.any (fun c => c.name = "timestamp") = true := by
      rw [List.any_eq_true]; rintro ⟨d, hd, e⟩; exact (h d hd).1 (by simpa using e)
    rw [alrRename, if_neg h0, if_neg h1, ← e]
    exact find_column cs c hn hc
  · intro name h1 h2 h3
    rw [alrRename]
    split
    · rw [columnOf, columnOf, filter_rename _ _ _ _ h3 h1]
    · split
      · rw [columnOf, columnOf, filter_rename _ _ _ _ h2 h1]
      · rfl

/-- C194: the table of a Matlab file is used as it is, with its own column for the bottom lock; the table of a csv file with the times renamed; any other
file ends the parser. -/
theorem C194_table (extension : String) (cs cs' : List Column) (lock : String) :
    alrTable extension cs = .ok (cs', lock) ↔
      (extension = ".mat" ∧ cs' = cs ∧ lock = "DVL_down_BT_is_good") ∨ (extension = ".csv" ∧ cs' = alrRename cs ∧ lock = "DVL_down_BT_valid") := by
  unfold alrTable
  split
  · rename_i h1
    constructor
    · intro h
      cases h
      exact Or.inl ⟨h1, rfl, rfl⟩
    · rintro (⟨-, rfl, rfl⟩ | ⟨h, -⟩)
      · rfl
      · rw [h1] at h
        exact absurd h (by decide)
  · rename_i h1
    split
    · rename_i h2
      constructor
      · intro h
        cases h
        exact Or.inr ⟨h2, rfl, rfl⟩
      · rintro (⟨h, -⟩ | ⟨-, rfl, rfl⟩)
        · exact absurd h h1
        · rfl
    · rename_i h2
      constructor
      · intro h
        cases h
      · rintro (⟨h, -⟩ | ⟨h, -⟩)
        · exact absurd h h1
        · exact absurd h h2

/-- Non-vacuity: a table with plain and corrected times. -/
example : (([⟨"timestamp", [some 1]⟩, ⟨"corrected_timestamp", [some 2]⟩, ⟨"AUV_depth", [some 3]⟩] : List Column).map Column.name).Nodup := by
  simp

/-- Full statement: the corrected times are used whenever there are any. -/
def CorrectedTimesUsed : Prop := ∀ (cs : List Column) (c : Column), (cs.map Column.name).Nodup → c ∈ cs → c.name = "corrected_timestamp" →
  columnOf (alrRename cs) "epoch_timestamp" = .ok c.values

/-- C194 is false for every table that has times named "epoch_timestamp" and corrected ones: they cannot be read. -/
theorem C194_columns_false : ¬ CorrectedTimesUsed ∧ ∀ (cs : List Column) (c d : Column), c ∈ cs → c.name = "corrected_timestamp" → d ∈ cs →
    d.name = "epoch_timestamp" → columnOf (alrRename cs) "epoch_timestamp" = .error .keyError := by
  have h : ∀ (cs : List Column) (c d : Column), c ∈ cs → c.name = "corrected_timestamp" → d ∈ cs →
      d.name = "epoch_timestamp" → columnOf (alrRename cs) "epoch_timestamp" = .error .keyError := by
    intro cs c d hc e hd e2
    have : cs.any (fun c => c.name = "corrected_timestamp") = true := List.any_eq_true.mpr ⟨c, hc, by simpa using e⟩
    rw [alrRename, if_pos this]
    exact rename_two _ _ cs c d hc e hd e2 (by decide)
  refine ⟨?_, h⟩
  intro hf
  have h1 := hf [⟨"epoch_timestamp", []⟩, ⟨"corrected_timestamp", []⟩] ⟨"corrected_timestamp", []⟩ (by simp) (by simp) rfl
  rw [h _ ⟨"corrected_timestamp", []⟩ ⟨"epoch_timestamp", []⟩ (by simp) rfl (by simp) rfl] at h1
  cases h1

/-- C194: every entry of an Autosub log whose times increase gives one record, in order, with its time. -/
theorem C194_autosub (s : VehicleStd) (entries : List (Option ℝ × AutosubEntry)) (ts : List ℝ) (ht : entries.map Prod.fst = ts.map some)
    (hs : (0 :: ts).Pairwise (· < ·)) : ∃ out, parseAutosub s entries = .ok out ∧
      List.Forall₂ (fun e o => o.1 = e.1 ∧
        match e.2, o.2 with
        | .adcp n e d _, .velocity v _ => v = ⟨-n / 1000, -e / 1000, -d / 1000⟩
        | .ins a b c, .orientation r p y => a = r * π / 180 ∧ b = p * π / 180 ∧ c = y * π / 180
        | .depCtl d, .depth x _ => x = d
        | .adcpLog a, .altitude x _ => x = a
        | _, _ => False) entries out := by
  refine ⟨_, by rw [parseAutosub, later_ok _ ts 0 [] (by rw [List.map_map]; exact ht) hs, List.nil_append], ?_⟩
  clear ht hs
  induction entries with
  | nil => exact .nil
  | cons e es ih =>
    refine .cons ⟨rfl, ?_⟩ ih
    obtain ⟨t, e⟩ := e
    have hpi : (π : ℝ) ≠ 0 := Real.pi_ne_zero
    cases e with
    | adcp n e d err => simp only [autosubMeasure, V3.mk.injEq]; refine ⟨?_, ?_, ?_⟩ <;> ring
    | ins a b c => simp only [autosubMeasure]; refine ⟨?_, ?_, ?_⟩ <;> field_simp
    | depCtl d => rfl
    | adcpLog a => rfl

/-- Non-vacuity: two entries. -/
example : ([(some 1, .depCtl 3), (some 2, .depCtl 4)] : List (Option ℝ × AutosubEntry)).map Prod.fst = [1, 2].map some
    ∧ ((0 : ℝ) :: [1, 2]).Pairwise (· < ·) := by
  constructor
  · rfl
  · simp

/-- Full statement: standard deviations are not negative. -/
def VehicleStdOk : Prop := (∀ (s : VehicleStd) (c : VehicleCategory) (r : AlrRow), 0 ≤ s.velocityFactor → 0 ≤ s.velocityOffset → 0 ≤ s.depthFactor →
  0 ≤ s.altitudeFactor → ∀ m ∈ alrMeasure s c r, StdOk m) ∧ ∀ (s : VehicleStd) (e : AutosubEntry), 0 ≤ s.depthFactor → 0 ≤ s.altitudeFactor →
  StdOk (autosubMeasure s e)

/-- C194's standard deviations are false: that of an Autosub velocity is the error velocity with its sign, and that of a depth above the
surface is negative. -/
theorem C194_std_false : ¬ VehicleStdOk ∧ ¬ StdOk (autosubMeasure ⟨0, 0, 0, 0, 0⟩ (.adcp 1 1 1 (-1))) := by
  have h : ¬ StdOk (autosubMeasure ⟨0, 0, 0, 0, 0⟩ (.adcp 1 1 1 (-1))) := by
    simp only [autosubMeasure, StdOk]
    norm_num
  exact ⟨fun hf => h (hf.2 _ _ le_rfl le_rfl), h⟩

/-- C194's standard deviations (partial): not negative for velocities, and for depths and altitudes that are not. Missing: Autosub velocities
and depths above the surface, see `C194_std_false`. -/
theorem C194_std_partial (s : VehicleStd) (c : VehicleCategory) (r : AlrRow) (h1 : 0 ≤ s.velocityFactor) (h2 : 0 ≤ s.velocityOffset)
    (h3 : 0 ≤ s.depthFactor) (h4 : 0 ≤ s.altitudeFactor) (hd : ∀ d ∈ r.depth, 0 ≤ d) (ha : ∀ a ∈ r.altitude, 0 ≤ a) :
    ∀ m ∈ alrMeasure s c r, StdOk m := by
  have hv : ∀ v, 0 ≤ velStd s.velocityFactor s.velocityOffset v := by intro v; unfold velStd; positivity
  obtain ⟨t, lock, ⟨vx, vy, vz⟩, roll, pitch, heading, depth, altitude, latitude, longitude⟩ := r
  intro m hm
  cases c with
  | velocity =>
    by_cases hl : lock = some 1
    · rcases vx with _ | vx <;> rcases vy with _ | vy <;> rcases vz with _ | vz <;> simp [alrMeasure, hl] at hm
      subst hm
      exact ⟨hv _, hv _, hv _⟩
    · simp [alrMeasure, hl] at hm
  | orientation =>
    rcases roll with _ | roll <;> rcases pitch with _ | pitch <;> rcases heading with _ | heading <;> simp [alrMeasure] at hm
    subst hm; trivial
  | depth =>
    rcases depth with _ | d <;> simp [alrMeasure] at hm
    subst hm
    exact mul_nonneg (hd d rfl) h3
  | altitude =>
    by_cases hl : lock = some 1
    · rcases altitude with _ | a <;> simp [alrMeasure, hl] at hm
      subst hm
      exact mul_nonneg (ha a rfl) h4
    · simp [alrMeasure, hl] at hm
  | usbl =>
    rcases latitude with _ | la <;> rcases longitude with _ | lo <;> simp [alrMeasure] at hm
    subst hm; trivial

/-- Full statement: velocities are turned by the mounting angle of the DVL. -/
def AlrTurned : Prop := ∀ (s : VehicleStd) (r : AlrRow) (x y z : ℝ) (v std : V3 ℝ), r.v = ⟨some x, some y, some z⟩ →
  alrMeasure s .velocity r = some (.velocity v std) → v = rotZ (rad s.yaw) ⟨x, y, z⟩

/-- C194 is false for a DVL that is not in line with the vehicle: its mounting angle has no effect on any record. -/
theorem C194_mounting_false : ¬ AlrTurned ∧ ∀ (s : VehicleStd) (yaw : ℝ) (c : VehicleCategory) (rows : List AlrRow)
    (entries : List (Option ℝ × AutosubEntry)), parseAlr { s with yaw := yaw } c rows = parseAlr s c rows ∧
    parseAutosub { s with yaw := yaw } entries = parseAutosub s entries := by
  refine ⟨?_, fun s yaw c rows entries => ⟨rfl, ?_⟩⟩
  · intro h
    have h1 := h ⟨0, 0, 0, 0, 180⟩ ⟨none, some 1, ⟨some 1, some 0, some 0⟩, none, none, none, none, none, none, none⟩ 1 0 0 ⟨1, 0, 0⟩
      ⟨velStd 0 0 1, velStd 0 0 0, velStd 0 0 0⟩ rfl (by simp [alrMeasure])
    have h2 := congrArg V3.x h1
    have hr : rad 180 = π := by unfold rad; ring
    simp only [rotZ, hr, Real.cos_pi, Real.sin_pi] at h2
    norm_num at h2
  · unfold parseAutosub
    have : (fun e : Option ℝ × AutosubEntry => (e.1, autosubMeasure { s with yaw := yaw } e.2)) = fun e => (e.1, autosubMeasure s e.2) := by
      funext e
      cases e.2 <;> rfl
    rw [this]

/-! ## C195 -/

open Classical in
private theorem eiva_step (yaw : ℝ) (s : EivaState) (m : EivaMsg) (hm : ¬ EivaMissing m) :
    (∀ r p h, EivaComplete m r p h → eivaOrientation yaw s m = ⟨some m.t, some (eivaOffset yaw ⟨r, p, h⟩)⟩) ∧
    ((¬ ∃ r p h, EivaComplete m r p h) → (eivaOrientation yaw s m).t = none ∨ (eivaOrientation yaw s m).rpy = none) := by
  obtain ⟨t, ro, pi, he⟩ := m
  rcases ro with _ | ro
  · exact absurd (Or.inl rfl) hm
  rcases pi with _ | pi
  · exact absurd (Or.inr (Or.inl rfl)) hm
  rcases he with _ | he
  · exact absurd (Or.inr (Or.inr rfl)) hm
  constructor
  · rintro r p h ⟨h0, h1, h2, h3⟩
    simp only [Option.some.injEq] at h1 h2 h3
    subst h1 h2 h3
    simp only [eivaOrientation, if_neg h0]
  · intro hn
    by_cases h0 : t = 0
    · left; simp only [eivaOrientation, if_pos h0]
    · right
      rcases ro with _ | ro
      · simp only [eivaOrientation, if_neg h0]
      rcases pi with _ | pi
      · simp only [eivaOrientation, if_neg h0]
      rcases he with _ | he
      · simp only [eivaOrientation, if_neg h0]
      exact absurd ⟨ro, pi, he, h0, rfl, rfl, rfl⟩ hn

/-- The orientation of a telegram. -/
noncomputable def eivaOwn (yaw : ℝ) (m : EivaMsg) : Option (ℝ × V3 ℝ) :=
  match m.roll, m.pitch, m.heading with
  | some (some r), some (some p), some (some h) =>
    if m.t = 0 then none
    else some (m.t, ⟨(rotZ (rad yaw) ⟨r, p, 0⟩).x, (rotZ (rad yaw) ⟨r, p, 0⟩).y, h⟩)
  | _, _, _ => none

/-- C195 (partial): every EIVA telegram with its three numbers, a heading within the circle and a time gives one orientation, in order, with
its own time and values, whatever was read before; the others give none. Missing: telegrams without all fields, see `C195_stale_false`. -/
theorem C195_orientations_partial (yaw : ℝ) (s : EivaState) (ms : List EivaMsg) (hm : ∀ m ∈ ms, ¬ EivaMissing m)
    (hh : ∀ m ∈ ms, ∀ h, m.heading = some (some h) → 0 ≤ h ∧ h ≤ 360) :
    eivaOrientations true yaw s ms = ms.filterMap (eivaOwn yaw) := by
  induction ms generalizing s with
  | nil => rfl
  | cons m ms ih =>
    have ih' := fun s => ih s (fun x hx => hm x (List.mem_cons_of_mem _ hx)) fun x hx => hh x (List.mem_cons_of_mem _ hx)
    obtain ⟨h1, h2⟩ := eiva_step yaw s m (hm m (by simp))
    by_cases hc : ∃ r p h, EivaComplete m r p h
    · obtain ⟨r, p, h, hc⟩ := hc
      obtain ⟨h0, e1, e2, e3⟩ := hc
      obtain ⟨a, b⟩ := hh m (by simp) h e3
      have hoff : eivaOffset yaw ⟨r, p, h⟩ = ⟨(rotZ (rad yaw) ⟨r, p, 0⟩).x, (rotZ (rad yaw) ⟨r, p, 0⟩).y, h⟩ := by
        have hb : bodyToInertial 0 0 yaw ⟨r, p, h⟩ = rotZ (rad yaw) ⟨r, p, h⟩ := by
          simp [bodyToInertial, rotZ, rad, degToRad, V3.mk.injEq]
          ring
        simp only [eivaOffset, hb, rotZ, gt_iff_lt, not_lt.mpr b, if_false, not_lt.mpr a]
      have hown : eivaOwn yaw m = some (m.t, eivaOffset yaw ⟨r, p, h⟩) := by
        rw [hoff]
        simp only [eivaOwn, e1, e2, e3, if_neg h0]
      rw [eivaOrientations, h1 r p h ⟨h0, e1, e2, e3⟩, List.filterMap_cons, hown]
      simp only [if_true, ih']
    · have hown : eivaOwn yaw m = none := by
        unfold eivaOwn
        split
        · rename_i r p h e1 e2 e3
          by_cases h0 : m.t = 0
          · rw [if_pos h0]
          · exact absurd ⟨r, p, h, h0, e1, e2, e3⟩ hc
        · rfl
      rw [List.filterMap_cons, hown, eivaOrientations]
      rcases h2 hc with h | h
      · simp only [h, ih']
      · rw [h]
        cases (eivaOrientation yaw s m).t <;> simp only [ih']

/-- C195: a heading of an EIVA telegram up to one turn outside the circle is brought back into it. -/
theorem C195_heading (yaw r p h : ℝ) (h1 : -360 ≤ h) (h2 : h ≤ 720) :
    ∃ k : ℤ, (eivaOffset yaw ⟨r, p, h⟩).z = h + 360 * k ∧ 0 ≤ (eivaOffset yaw ⟨r, p, h⟩).z ∧ (eivaOffset yaw ⟨r, p, h⟩).z ≤ 360 := by
  have hb : (bodyToInertial 0 0 yaw ⟨r, p, h⟩ : V3 ℝ).z = h := by simp [bodyToInertial, degToRad]
  simp only [eivaOffset, hb]
  by_cases ha : h > 360
  · simp only [if_pos ha, if_neg (show ¬ h - 360 < 0 by linarith)]
    exact ⟨-1, by push_cast; ring, by linarith, by linarith⟩
  · simp only [if_neg ha]
    by_cases hc : h < 0
    · simp only [if_pos hc]
      exact ⟨1, by push_cast; ring, by linarith, by linarith⟩
    · simp only [if_neg hc]
      exact ⟨0, by simp, not_lt.mp hc, not_lt.mp ha⟩

example : (-360 : ℝ) ≤ -10 ∧ (-10 : ℝ) ≤ 720 := by norm_num

/-- Non-vacuity: a complete telegram and one that has no number for its roll. -/
example : (∀ m ∈ [(⟨5, some (some 1), some (some 2), some (some 3)⟩ : EivaMsg), ⟨6, some none, some (some 2), some (some 3)⟩], ¬ EivaMissing m) ∧
    (([⟨5, some (some 1), some (some 2), some (some 3)⟩, ⟨6, some none, some (some 2), some (some 3)⟩] : List EivaMsg).filterMap (eivaOwn 0)).length
      = 1 := by
  constructor
  · simp [EivaMissing]
  · simp [eivaOwn]

/-- Full statement: a telegram without all fields gives no orientation. -/
def EivaOnlyComplete : Prop := ∀ (yaw : ℝ) (ms : List EivaMsg), ∀ o ∈ eivaOrientations true yaw ⟨none, none⟩ ms,
  ∃ m ∈ ms, m.t = o.1 ∧ ¬ EivaMissing m

/-- C195 is false for telegrams without a heading: the orientation before is recorded again with the new time. -/
theorem C195_stale_false : ¬ EivaOnlyComplete ∧ ∀ (yaw : ℝ) (s : EivaState) (m : EivaMsg) (v : V3 ℝ), s.rpy = some v → m.t ≠ 0 → EivaMissing m →
    eivaOrientations true yaw s [m] = [(m.t, v)] := by
  have h : ∀ (yaw : ℝ) (s : EivaState) (m : EivaMsg) (v : V3 ℝ), s.rpy = some v → m.t ≠ 0 → EivaMissing m →
      eivaOrientation yaw s m = ⟨some m.t, some v⟩ := by
    intro yaw s m v hv h0 hm
    obtain ⟨st, sr⟩ := s
    simp only at hv
    subst hv
    obtain ⟨t, ro, pi, he⟩ := m
    unfold eivaOrientation
    rw [if_neg h0]
    rcases hm with h | h | h <;> simp only at h <;> subst h
    · rfl
    · cases ro <;> rfl
    · cases ro <;> cases pi <;> rfl
  constructor
  · intro hf
    obtain ⟨m, hm, e, hn⟩ := hf 0 [⟨5, some (some 1), some (some 2), some (some 3)⟩, ⟨6, some (some 1), some (some 2), none⟩]
      (6, eivaOffset 0 ⟨1, 2, 3⟩) (by
        have e1 : eivaOrientation 0 ⟨none, none⟩ ⟨5, some (some 1), some (some 2), some (some 3)⟩ = ⟨some 5, some (eivaOffset 0 ⟨1, 2, 3⟩)⟩ := by
          simp [eivaOrientation]
        have e2 := h 0 ⟨some 5, some (eivaOffset 0 ⟨1, 2, 3⟩)⟩ ⟨6, some (some 1), some (some 2), none⟩ _ rfl (by norm_num) (Or.inr (Or.inr rfl))
        simp [eivaOrientations, e1, e2])
    simp only [List.mem_cons, List.not_mem_nil, or_false] at hm
    rcases hm with rfl | rfl
    · norm_num at e
    · exact hn (Or.inr (Or.inr rfl))
  · intro yaw s m v hv h0 hm
    simp [eivaOrientations, h yaw s m v hv h0 hm]

/-- C195: without an offset for standard deviations in mission.yaml no orientation is recorded. -/
theorem C195_no_std (yaw : ℝ) (s : EivaState) (ms : List EivaMsg) : eivaOrientations false yaw s ms = [] := by
  induction ms generalizing s with
  | nil => rfl
  | cons m ms ih =>
    rw [eivaOrientations]
    cases (eivaOrientation yaw s m).t <;> cases (eivaOrientation yaw s m).rpy <;> simp [ih]

/-- A line with a position of transponder `n`, whose number ends in the tenth column. -/
def eivaUsblText (w n : ℕ) (rest : List Char) : List Char :=
  ['P', ' ', ' ', 'D', ' ', ' '] ++ ((List.replicate (4 - w) ' ' ++ padDigits w n) ++ rest)

private theorem eiva_line (label : BeaconLabel) (w n : ℕ) (hw : 0 < w) (h4 : w ≤ 4) (hn : n < 10 ^ w) (rest : List Char) :
    eivaUsblLine label (eivaUsblText w n rest) = .ok (decide (label = .num n)) := by
  have hs : slice (eivaUsblText w n rest) 6 10 = List.replicate (4 - w) ' ' ++ padDigits w n :=
    slice_between _ _ rest 6 10 rfl (by simp [padDigits_length]; omega)
  have hdig : ∀ c : Char, c.isDigit = true → isBlank c = false := by
    intro c h
    by_contra hn
    rw [Bool.not_eq_false] at hn
    simp only [isBlank, decide_eq_true_eq] at hn
    rcases hn with rfl | rfl | rfl | rfl <;> revert h <;> decide
  have hall := List.all_eq_true.mp (padDigits_all w n)
  have hstrip : ∀ k, stripBlanks (List.replicate k ' ' ++ padDigits w n) = padDigits w n := by
    intro k
    induction k with
    | zero =>
      rw [List.replicate_zero, List.nil_append]
      exact stripBlanks_id _ (fun c hc => hdig c (hall c (List.mem_of_mem_head? hc))) fun c hc => hdig c (hall c (List.mem_of_mem_getLast? hc))
    | succ k ih =>
      refine Eq.trans ?_ ih
      unfold stripBlanks
      rw [List.replicate_succ, List.cons_append, List.dropWhile_cons_of_pos (by decide)]
  have hb : blankInt (List.replicate (4 - w) ' ' ++ padDigits w n) = .ok n := by
    rw [blankInt, hstrip, pyInt_padDigits w n hw hn]
  unfold eivaUsblLine
  rw [if_pos (by rfl), hs, hb]
  rfl

/-- Full statement: the positions of the transponder with the label of mission.yaml are found. -/
def EivaLabelFound : Prop := ∀ (label : BeaconLabel) (w n : ℕ) (rest : List Char), 0 < w → w ≤ 4 → n < 10 ^ w → label.str = padDigits w n →
  eivaUsblLine label (eivaUsblText w n rest) = .ok true

/-- C195 is false for a label given as text: depths of the transponder are found (C153), positions are not. -/
theorem C195_label_false : ¬ EivaLabelFound := by
  intro h
  have h1 := h (.text ['3']) 1 3 [] (by norm_num) (by norm_num) (by norm_num) (by rfl)
  rw [eiva_line (.text ['3']) 1 3 (by norm_num) (by norm_num) (by norm_num) []] at h1
  simp at h1

/-- C195's labels (partial): for a label given as a number, positions of its transponder are found, and no others. Missing: labels given as
text, see `C195_label_false`. -/
theorem C195_label_partial (k w n : ℕ) (hw : 0 < w) (h4 : w ≤ 4) (hn : n < 10 ^ w) (rest : List Char) :
    eivaUsblLine (.num k) (eivaUsblText w n rest) = .ok (decide (k = n)) := by
  rw [eiva_line (.num k) w n hw h4 hn rest]
  congr 1
  simp

/-- Non-vacuity: number 3 of two digits. -/
example : 0 < 2 ∧ 2 ≤ 4 ∧ 3 < 10 ^ 2 := by norm_num

/-- C195 (partial) for NTNU logs: every row gives one altitude, and every row whose velocity, turned by the mounting angle, is within 32 m/s
gives it, with their standard deviations, in the order of files and rows, with the date of the file's name and the time of day of the row. Missing: rows after
midnight, see `C195_midnight_false`; rows without bottom lock, see `C195_no_lock_false`. -/
theorem C195_ntnu_partial (machine : ℚ) (s : VehicleStd) (files : List (DateTime × List NtnuRow))
    (hd : ∀ f ∈ files, ∀ r ∈ f.2, r.time.year = f.1.year ∧ r.time.month = f.1.month ∧ r.time.day = f.1.day) :
    (∃ out, parseNtnuDvl machine s (some true) files = .ok out ∧ List.Forall₂ (fun r o => o.1 = naiveEpoch machine r.time ∧
      o.2 = .altitude ((r.alt1 + r.alt3) / 2) ((r.alt1 + r.alt3) / 2 * s.altitudeFactor)) (files.flatMap Prod.snd) out) ∧
    parseNtnuDvl machine s (some false) files = .ok ((files.flatMap Prod.snd).filterMap fun r => (ntnuVelocity s.yaw r.v).map fun v =>
      (naiveEpoch machine r.time, VehicleRecord.velocity v ⟨|v.x| * s.velocityFactor + s.velocityOffset, |v.y| * s.velocityFactor + s.velocityOffset,
        |v.z| * s.velocityFactor + s.velocityOffset⟩)) := by
  have ht : ∀ f ∈ files, ∀ r ∈ f.2, ntnuDvlTime machine f.1 r.time = naiveEpoch machine r.time := by
    intro f hf r hr
    obtain ⟨h1, h2, h3⟩ := hd f hf r hr
    rw [ntnuDvlTime, ← h1, ← h2, ← h3]
  clear hd
  constructor
  · induction files with
    | nil => exact ⟨[], rfl, .nil⟩
    | cons f files ih =>
      obtain ⟨date, rows⟩ := f
      obtain ⟨out, e, h⟩ := ih fun f hf => ht f (List.mem_cons_of_mem _ hf)
      refine ⟨_, by simp only [parseNtnuDvl, e, bind, Except.bind]; rfl, ?_⟩
      rw [List.flatMap_cons]
      refine List.rel_append ?_ h
      have hr : ∀ r ∈ rows, ntnuDvlTime machine date r.time = naiveEpoch machine r.time := ht _ (List.mem_cons_self ..)
      show List.Forall₂ _ rows _
      clear h e ht
      induction rows with
      | nil => exact .nil
      | cons r rows ih2 =>
        exact .cons ⟨hr r (by simp), rfl⟩ (ih2 fun x hx => hr x (List.mem_cons_of_mem _ hx))
  · induction files with
    | nil => rfl
    | cons f files ih =>
      obtain ⟨date, rows⟩ := f
      have e := ih fun f hf => ht f (List.mem_cons_of_mem _ hf)
      simp only [parseNtnuDvl, e, bind, Except.bind]
      rw [List.flatMap_cons, List.filterMap_append]
      refine congrArg (fun l => Except.ok (l ++ _)) (List.filterMap_congr ?_)
      intro r hr
      rw [ht _ (List.mem_cons_self ..) r hr]
      rfl

/-- Non-vacuity: a file with a row of its date. -/
example : ∀ f ∈ [((⟨2021, 11, 17, 0, 0, 0, 0⟩ : DateTime), [(⟨⟨2021, 11, 17, 19, 30, 22, 0⟩, ⟨1, 0, 0⟩, 3, 4⟩ : NtnuRow)])], ∀ r ∈ f.2,
    r.time.year = f.1.year ∧ r.time.month = f.1.month ∧ r.time.day = f.1.day := by simp

/-- Full statement: the time of a row is its own, also if the log goes on after midnight. -/
def NtnuDvlTimeRight : Prop := ∀ (machine : ℚ) (file row : DateTime), file.ok = true → row.ok = true → file.seconds ≤ row.seconds →
  row.seconds ≤ file.seconds + 3600 → ntnuDvlTime machine file row = naiveEpoch machine row

/-- C195 is false after midnight: the rows get times of the morning before. -/
theorem C195_midnight_false : ¬ NtnuDvlTimeRight := by
  intro h
  have s1 : (⟨2021, 11, 17, 23, 50, 0, 0⟩ : DateTime).seconds = 1637193000 := by decide
  have s2 : (⟨2021, 11, 18, 0, 10, 0, 0⟩ : DateTime).seconds = 1637194200 := by decide
  have s3 : (⟨2021, 11, 17, 0, 10, 0, 0⟩ : DateTime).seconds = 1637107800 := by decide
  have h1 := h 0 ⟨2021, 11, 17, 23, 50, 0, 0⟩ ⟨2021, 11, 18, 0, 10, 0, 0⟩ (by decide) (by decide) (by rw [s1, s2]; norm_num) (by rw [s1, s2]; norm_num)
  simp only [ntnuDvlTime, naiveEpoch, s2, s3] at h1
  norm_num at h1

/-- C195 is false for rows without bottom lock: the value -32 that stands for it is taken for a velocity. -/
theorem C195_no_lock_false : ntnuVelocity 0 ⟨-32, -32, -32⟩ = some ⟨-32, -32, -32⟩ := by
  have : bodyToInertial 0 0 0 (⟨-32, -32, -32⟩ : V3 ℝ) = ⟨-32, -32, -32⟩ := by
    simp [bodyToInertial, degToRad]
  unfold ntnuVelocity
  rw [this]
  norm_num

/-- C195: a category that NTNU logs do not have ends the program exactly if there is a file. -/
theorem C195_other_category (machine : ℚ) (s : VehicleStd) (files : List (DateTime × List NtnuRow)) :
    (files = [] → parseNtnuDvl machine s none files = .ok []) ∧ (files ≠ [] → parseNtnuDvl machine s none files = .error .quit) := by
  cases files with
  | nil => exact ⟨fun _ => rfl, fun h => absurd rfl h⟩
  | cons f fs => exact ⟨fun h => by simp at h, fun _ => rfl⟩

end Oplab.Props
