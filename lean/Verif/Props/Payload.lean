import Verif.Spec.Payload
import Mathlib.Tactic.Ring
import Mathlib.Tactic.Linarith
import Mathlib.Data.List.Forall2

/-! # C200: payloads -/

namespace Oplab.Props
open Oplab Oplab.Spec

private theorem setColumn_new (name : String) (v : PCell) : ∀ l : List (String × PCell), name ∉ l.map Prod.fst → setColumn name v l = l ++ [(name, v)]
  | [], _ => rfl
  | (k, w) :: r, h => by
    simp only [List.map_cons, List.mem_cons, not_or] at h
    rw [setColumn, if_neg (Ne.symm h.1), setColumn_new name v r h.2]
    rfl

private theorem lookup_mem {V : Type} (c : String) (v : V) : ∀ l : List (String × V), (l.map Prod.fst).Nodup → (c, v) ∈ l → l.lookup c = some v
  | [], _, h => by simp at h
  | (k, w) :: r, hn, h => by
    simp only [List.map_cons, List.nodup_cons] at hn
    rw [List.lookup_cons]
    rcases List.mem_cons.mp h with h' | h'
    · cases h'
      simp
    · have : c ≠ k := by
        rintro rfl
        exact hn.1 (List.mem_map.mpr ⟨(c, v), h', rfl⟩)
      rw [show (c == k) = false by simpa using this]
      exact lookup_mem c v r hn.2 h'

private theorem lookup_last {V : Type} (c : String) (v : V) : ∀ l : List (String × V), c ∉ l.map Prod.fst → (l ++ [(c, v)]).lookup c = some v
  | [], _ => by simp
  | (k, w) :: r, h => by
    simp only [List.map_cons, List.mem_cons, not_or] at h
    rw [List.cons_append, List.lookup_cons, show (c == k) = false by simpa using h.1]
    exact lookup_last c v r h.2

private theorem rowSeries_map (round : ℤ → ℚ) (l : List PCell) (hr : ∀ n, .int n ∈ l → round n = n) :
    ∃ g : PCell → PCell, rowSeries round l = l.map g ∧ ∀ c ∈ l, sameCell c (g c) := by
  unfold rowSeries
  split
  · exact ⟨id, by simp, fun c _ => .inl rfl⟩
  · split
    · refine ⟨_, rfl, ?_⟩
      intro c hc
      cases c with
      | int n => exact .inr ⟨n, rfl, by rw [PCell.value, hr n hc]⟩
      | num x => exact .inl rfl
      | text t => exact .inl rfl
    · exact ⟨id, by simp, fun c _ => .inl rfl⟩

private theorem zip_fst {A B : Type} : ∀ (a : List A) (b : List B), b.length = a.length → (a.zip b).map Prod.fst = a
  | [], _, _ => by simp
  | x :: a, [], h => by simp at h
  | x :: a, y :: b, h => by simp [zip_fst a b (by simpa using h)]

private theorem zip_snd {A B : Type} : ∀ (a : List A) (b : List B), b.length = a.length → (a.zip b).map Prod.snd = b
  | [], [], _ => rfl
  | [], _ :: _, h => by simp at h
  | x :: a, [], h => by simp at h
  | x :: a, y :: b, h => by simp [zip_snd a b (by simpa using h)]

private theorem value_same {a b : PCell} {x : ℚ} (h : sameCell a b) (ha : PCell.value a = some x) : PCell.value b = some x := by
  rcases h with rfl | ⟨y, h1, h2⟩
  · exact ha
  · rw [ha] at h1
    rw [h2, h1]

private theorem addSeconds_value {c : PCell} {x : ℚ} (dt : ℚ) (h : PCell.value c = some x) : addSeconds c dt = .ok (x + dt) := by
  cases c with
  | int n => cases h; rfl
  | num y => cases h; rfl
  | text t => cases h

private theorem forall2_map {α β : Type} (R : α → β → Prop) (g : α → β) : ∀ l : List α, (∀ a ∈ l, R a (g a)) → List.Forall₂ R l (l.map g)
  | [], _ => .nil
  | a :: l, h => .cons (h a (List.mem_cons_self ..)) (forall2_map R g l fun b hb => h b (List.mem_cons_of_mem _ hb))

private theorem row_ok (round : ℤ → ℚ) (columns : List String) (dt : ℚ) (r : List PCell) (hn : columns.Nodup) (he : "epoch_timestamp" ∉ columns)
    (hf : r.length = columns.length) (x : ℚ) (v : PCell) (hv : ("corrected_timestamp", v) ∈ columns.zip r) (hx : PCell.value v = some x)
    (hr : ∀ n, .int n ∈ r → round n = n) :
    ∃ p, payloadRow round columns dt r = .ok p ∧ p.epoch = x + dt ∧ p.data.map Prod.fst = columns ∧ List.Forall₂ sameCell r (p.data.map Prod.snd) := by
  have hz : ((columns.zip r).map Prod.fst).Nodup := by rwa [zip_fst _ _ hf]
  have hz' : "epoch_timestamp" ∉ (columns.zip r).map Prod.fst := by rwa [zip_fst _ _ hf]
  have hvr : v ∈ r := (List.of_mem_zip hv).2
  have h1 : column (columns.zip r) "corrected_timestamp" = .ok v := by
    rw [column, lookup_mem _ v _ hz hv]
  obtain ⟨g, hg, hs⟩ := rowSeries_map round (r ++ [v]) (by
    intro n h
    rcases List.mem_append.mp h with h | h
    · exact hr n h
    · rw [← List.mem_singleton.mp h] at hvr
      exact hr n hvr)
  have h2 : ((setColumn "epoch_timestamp" v (columns.zip r)).map Prod.fst).zip
      (rowSeries round ((setColumn "epoch_timestamp" v (columns.zip r)).map Prod.snd)) = columns.zip (r.map g) ++ [("epoch_timestamp", g v)] := by
    rw [setColumn_new _ _ _ hz', List.map_append, List.map_append, zip_fst _ _ hf, zip_snd _ _ hf]
    simp only [List.map_cons, List.map_nil]
    rw [hg, List.map_append, List.zip_append (by simp [hf])]
    rfl
  have hf' : (r.map g).length = columns.length := by simpa using hf
  have h3 : column (columns.zip (r.map g) ++ [("epoch_timestamp", g v)]) "epoch_timestamp" = .ok (g v) := by
    rw [column, lookup_last _ _ _ (by rwa [zip_fst _ _ hf'])]
  have h4 : addSeconds (g v) dt = .ok (x + dt) := addSeconds_value dt (value_same (hs v (by simp)) hx)
  have h5 : (columns.zip (r.map g) ++ [("epoch_timestamp", g v)]).filter (fun c => c.1 ≠ "epoch_timestamp") = columns.zip (r.map g) := by
    rw [List.filter_append, List.filter_eq_self.mpr]
    · simp
    · intro c hc
      have : c.1 ∈ columns := (List.of_mem_zip (a := c.1) (b := c.2) hc).1
      simp only [ne_eq, decide_not, Bool.not_eq_true', decide_eq_false_iff_not]
      rintro h
      rw [h] at this
      exact he this
  refine ⟨⟨x + dt, columns.zip (r.map g)⟩, ?_, rfl, zip_fst _ _ hf', ?_⟩
  · simp only [payloadRow, bind, Except.bind, h1]
    rw [h2, h3]
    simp only
    rw [h4]
    simp only [pure, Except.pure]
    rw [h5]
  · rw [zip_snd _ _ hf']
    exact forall2_map _ _ _ fun c hc => hs c (by simp [hc])

/-- C200: every row of the file is a measurement, in order, at the time of its column plus the offset, with all columns and their values; `round` is exact
for the integers of the file. -/
theorem C200_records_partial (round : ℤ → ℚ) (dt : ℚ) (t : PTable) (h : GoodTable t) (he : "epoch_timestamp" ∉ t.columns) (time : List PCell → ℚ)
    (ht : ∀ r ∈ t.rows, ∃ v, ("corrected_timestamp", v) ∈ t.columns.zip r ∧ PCell.value v = some (time r))
    (hr : ∀ r ∈ t.rows, ∀ n, .int n ∈ r → round n = n) :
    ∃ l, parsePayload round dt t = .ok l ∧ l.map PayloadRec.epoch = t.rows.map (fun r => time r + dt) ∧
      (∀ p ∈ l, payloadHeader p =
        ["northing [m]", "easting [m]", "depth [m]", "altitude [m]", "latitude [deg]", "longitude [deg]"] ++ t.columns) ∧
      List.Forall₂ (fun r p => List.Forall₂ sameCell r (p.data.map Prod.snd)) t.rows l := by
  obtain ⟨columns, rows⟩ := t
  obtain ⟨hn, hc, hf⟩ := h
  rw [parsePayload, if_pos hc]
  simp only at *
  clear hc
  induction rows with
  | nil => exact ⟨[], rfl, rfl, by simp, .nil⟩
  | cons r rows ih =>
    obtain ⟨l, h1, h2, h3, h4⟩ := ih (fun r hr => ht r (List.mem_cons_of_mem _ hr))
      (fun r h => hr r (List.mem_cons_of_mem _ h)) (fun r hr => hf r (List.mem_cons_of_mem _ hr))
    obtain ⟨v, hv, hx⟩ := ht r (List.mem_cons_self ..)
    obtain ⟨p, p1, p2, p3, p4⟩ := row_ok round columns dt r hn he (hf r (List.mem_cons_self ..)) _ v hv hx (hr r (List.mem_cons_self ..))
    refine ⟨p :: l, ?_, by simp [p2, h2], ?_, .cons p4 h4⟩
    · rw [List.mapM_cons, p1, h1]
      rfl
    · intro q hq
      rcases List.mem_cons.mp hq with rfl | hq
      · rw [payloadHeader, p3]
      · exact h3 q hq

/-- Non-vacuity: two rows with an integer, a text and a time. -/
example : (parsePayload (fun n => n) (1 / 2) ⟨["n", "corrected_timestamp", "name"],
    [[.int 3, .num 10, .text ['a']], [.int 4, .num 11, .text ['b']]]⟩).toOption.map (List.map PayloadRec.epoch) = some [21 / 2, 23 / 2] := by
  decide +kernel

/-- C200: a file without times is refused. -/
theorem C200_needs_time (round : ℤ → ℚ) (dt : ℚ) (t : PTable) (h : "corrected_timestamp" ∉ t.columns) : parsePayload round dt t = .error .keyError := by
  rw [parsePayload, if_neg h]

/-- C200 is false for a file that has a column epoch_timestamp: it is not in the output. -/
theorem C200_column_false : ¬ AllColumnsKept := by
  intro h
  obtain ⟨v, hv⟩ := h (fun n => n) 0 ⟨["corrected_timestamp", "epoch_timestamp"], [[.num 1, .num 2]]⟩ [⟨1 + 0, [("corrected_timestamp", .num 1)]⟩]
    ⟨by decide, by decide, by decide⟩ rfl _ (List.mem_singleton.mpr rfl) "epoch_timestamp" (by decide)
  simp at hv

/-- C200: the time that is written with a measurement is the time its position was computed for exactly if there is no offset. -/
theorem C200_time_iff (round : ℤ → ℚ) (dt : ℚ) (t : PTable) (h : GoodTable t) (he : "epoch_timestamp" ∉ t.columns)
    (hnum : ∀ r ∈ t.rows, ∀ v, ("corrected_timestamp", v) ∈ t.columns.zip r → ∃ x, PCell.value v = some x)
    (hr : ∀ r ∈ t.rows, ∀ n, .int n ∈ r → round n = n) :
    ∃ l, parsePayload round dt t = .ok l ∧ ∀ p ∈ l, ∃ v, column p.data "corrected_timestamp" = .ok v ∧ (PCell.value v = some p.epoch ↔ dt = 0) := by
  have hex : ∀ r ∈ t.rows, ∃ x v, ("corrected_timestamp", v) ∈ t.columns.zip r ∧ PCell.value v = some x := by
    intro r hr'
    have : "corrected_timestamp" ∈ (t.columns.zip r).map Prod.fst := by
      rw [zip_fst _ _ (h.full r hr')]
      exact h.timed
    obtain ⟨⟨k, v⟩, hv, rfl⟩ := List.mem_map.mp this
    obtain ⟨x, hx⟩ := hnum r hr' v hv
    exact ⟨x, v, hv, hx⟩
  obtain ⟨l, h1, h2, h3, h4⟩ := C200_records_partial round dt t h he (fun r => if hr : r ∈ t.rows then (hex r hr).choose else 0)
    (by
      intro r hr'
      simp only [hr', dif_pos]
      exact (hex r hr').choose_spec) hr
  refine ⟨l, h1, ?_⟩
  intro p hp
  obtain ⟨i, hi⟩ := List.mem_iff_getElem?.mp hp
  have hlen : t.rows.length = l.length := h4.length_eq
  have hil : i < l.length := by
    by_contra hc
    rw [List.getElem?_eq_none (by omega)] at hi
    cases hi
  have hri : t.rows[i]? = some t.rows[i] := List.getElem?_eq_getElem (by omega)
  have hmem : t.rows[i] ∈ t.rows := List.getElem_mem _
  obtain ⟨v, hv, hx⟩ := (hex _ hmem).choose_spec
  have he1 : p.epoch = (hex _ hmem).choose + dt := by
    have := congrArg (fun m : List ℚ => m[i]?) h2
    simp only [List.getElem?_map, hi, hri, Option.map_some, hmem, dif_pos, Option.some.injEq] at this
    exact this
  have hd : List.Forall₂ sameCell t.rows[i] (p.data.map Prod.snd) := by
    have := (List.forall₂_iff_get.mp h4).2 i (by omega) hil
    rw [List.getElem?_eq_getElem hil] at hi
    cases hi
    simpa using this
  have hcols : p.data.map Prod.fst = t.columns := by
    have := h3 p hp
    rw [payloadHeader] at this
    exact List.append_cancel_left this
  obtain ⟨k, hk⟩ := List.mem_iff_getElem?.mp hv
  rw [List.getElem?_zip_eq_some] at hk
  simp only at hk
  obtain ⟨w, hw⟩ : ∃ w, p.data[k]? = some ("corrected_timestamp", w) ∧ sameCell v w := by
    have hkl : k < p.data.length := by
      have : k < t.columns.length := by
        by_contra hc
        have h7 := hk.1
        rw [List.getElem?_eq_none (by omega)] at h7
        cases h7
      rw [← hcols, List.length_map] at this
      exact this
    have hk2 : k < t.rows[i].length := by
      by_contra hc
      have h7 := hk.2
      rw [List.getElem?_eq_none (by omega)] at h7
      cases h7
    have h5 := (List.forall₂_iff_get.mp hd).2 k hk2 (by simpa using hkl)
    have h6 := hk.1
    rw [← hcols, List.getElem?_map, List.getElem?_eq_getElem hkl] at h6
    have h7 := hk.2
    rw [List.getElem?_eq_getElem hk2] at h7
    simp only [Option.map_some, Option.some.injEq] at h6 h7
    refine ⟨p.data[k].2, ?_, ?_⟩
    · rw [List.getElem?_eq_getElem hkl, ← h6]
    · rw [← h7]
      simpa using h5
  refine ⟨w, ?_, ?_⟩
  · rw [column, lookup_mem _ w _ (by rw [hcols]; exact h.different) (List.mem_iff_getElem?.mpr ⟨k, hw.1⟩)]
  · rw [value_same hw.2 hx, he1]
    constructor
    · intro h
      have := Option.some.inj h
      linarith
    · rintro rfl
      simp

/-- C200 is false for payloads with an offset: the output has the time of the file, not the one that was used. -/
theorem C200_time_false : ¬ WrittenTimeIsUsed := by
  intro h
  have := h (fun n => n) 1 ⟨["corrected_timestamp"], [[.num 5]]⟩ [⟨5 + 1, [("corrected_timestamp", .num 5)]⟩] (fun _ => rfl)
    ⟨by decide, by decide, by decide⟩ rfl _ (List.mem_singleton.mpr rfl) (.num 5) (by simp)
  simp [PCell.value] at this

/-- C200 is false for integers of more than 53 bits, such as times in nanoseconds, in a file without texts: they are rounded. -/
theorem C200_values_false : ¬ ValuesKept := by
  intro h
  obtain ⟨w, hw, hs⟩ := h (fun n => if n = 2 ^ 53 + 1 then 2 ^ 53 else n) (by
      intro n hn
      rw [if_neg]
      rintro rfl
      revert hn
      decide) 0 ⟨["stamp", "corrected_timestamp"], [[.int (2 ^ 53 + 1), .num 5]]⟩ [⟨5 + 0, [("stamp", .num (2 ^ 53)), ("corrected_timestamp", .num 5)]⟩]
    ⟨by decide, by decide, by decide⟩ rfl 0 _ _ rfl rfl "stamp" (.int (2 ^ 53 + 1)) (by simp) (by decide)
  have : w = .num (2 ^ 53) := by simpa using hw
  subst this
  rcases hs with hs | ⟨x, h1, h2⟩
  · cases hs
  · simp only [PCell.value, Option.some.injEq] at h1 h2
    rw [← h1] at h2
    norm_num at h2

/-- C200: a written row, read back by the names of the header, has the pose and every value of its measurement, if no text has a comma and no column of
the file has the name of a column of the pose. -/
theorem C200_line (txt : PCell → Text) (q : PayloadPose) (p : PayloadRec) (hn : (payloadHeader p).Nodup)
    (hc : ∀ f ∈ payloadFields txt q p, ',' ∉ f) :
    (∀ c v, (c, v) ∈ p.data → column ((payloadHeader p).zip (readLine (csvLine (payloadFields txt q p)))) c = .ok (txt v)) ∧
    column ((payloadHeader p).zip (readLine (csvLine (payloadFields txt q p)))) "northing [m]" = .ok q.northings ∧
    column ((payloadHeader p).zip (readLine (csvLine (payloadFields txt q p)))) "easting [m]" = .ok q.eastings ∧
    column ((payloadHeader p).zip (readLine (csvLine (payloadFields txt q p)))) "depth [m]" = .ok q.depth ∧
    column ((payloadHeader p).zip (readLine (csvLine (payloadFields txt q p)))) "altitude [m]" = .ok q.altitude ∧
    column ((payloadHeader p).zip (readLine (csvLine (payloadFields txt q p)))) "latitude [deg]" = .ok q.latitude ∧
    column ((payloadHeader p).zip (readLine (csvLine (payloadFields txt q p)))) "longitude [deg]" = .ok q.longitude := by
  have e : readLine (csvLine (payloadFields txt q p)) = payloadFields txt q p := by
    rw [readLine, csvLine, List.dropLast_concat, List.splitOn_intercalate ',' hc (by simp [payloadFields])]
  rw [e]
  have hf : (payloadFields txt q p).length = (payloadHeader p).length := by simp [payloadFields, payloadHeader]
  refine ⟨?_, rfl, rfl, rfl, rfl, rfl, rfl⟩
  intro c v hcv
  have hm : (c, txt v) ∈ (payloadHeader p).zip (payloadFields txt q p) := by
    rw [payloadHeader, payloadFields, List.zip_append (by simp)]
    refine List.mem_append.mpr (.inr ?_)
    obtain ⟨k, hk⟩ := List.mem_iff_getElem?.mp hcv
    refine List.mem_iff_getElem?.mpr ⟨k, ?_⟩
    rw [List.getElem?_zip_eq_some]
    simp [List.getElem?_map, hk]
  rw [column, lookup_mem c (txt v) _ (by rwa [zip_fst _ _ hf]) hm]

/-- Non-vacuity. -/
example : (payloadHeader ⟨0, [("temperature", .num 4), ("corrected_timestamp", .num 10)]⟩).Nodup := by decide

/-- C200: payloads are read in the order of the vehicle if mission.yaml knows each of them, in the format generic_csv. -/
theorem C200_payloads_partial (round : ℤ → ℚ) (mission : List (String × PayloadSource)) (lists : String → List PayloadRec) : ∀ names : List String,
    (∀ n ∈ names, ∃ e, mission.lookup n = some e ∧ e.format = "generic_csv" ∧ parsePayload round e.timeoffset e.table = .ok (lists n)) →
    readPayloads round mission names = .ok (names.map fun n => (n, lists n))
  | [], _ => rfl
  | n :: names, h => by
    obtain ⟨e, h1, h2, h3⟩ := h n (List.mem_cons_self ..)
    have ih := C200_payloads_partial round mission lists names fun m hm => h m (List.mem_cons_of_mem _ hm)
    simp only [readPayloads, h1, h2, if_true, bind, Except.bind, h3, ih]
    rfl

/-- Non-vacuity. -/
example : readPayloads (fun n => n) [("ctd", ⟨"generic_csv", ⟨["corrected_timestamp"], [[.num 5]]⟩, 1⟩)] ["ctd"] =
    .ok [("ctd", [⟨5 + 1, [("corrected_timestamp", .num 5)]⟩])] := rfl

/-- C200 is false for payloads in another format, or of which mission.yaml says nothing: processing stops, nothing of the other payloads or of the
navigation is written. -/
theorem C200_format_false : ¬ EveryPayloadRead ∧
    (∀ round mission name rest e, mission.lookup name = some e → e.format ≠ "generic_csv" → readPayloads round mission (name :: rest) = .error .quit) ∧
    ∀ round mission name rest, mission.lookup name = none → readPayloads round mission (name :: rest) = .error .keyError := by
  have h1 : ∀ round mission name rest (e : PayloadSource), mission.lookup name = some e → e.format ≠ "generic_csv" →
      readPayloads round mission (name :: rest) = .error .quit := by
    intro round mission name rest e h1 h2
    simp only [readPayloads, h1, h2, if_false]
  refine ⟨?_, h1, ?_⟩
  · intro h
    obtain ⟨l, hl, -⟩ := h (fun n => n) [("ctd", ⟨"seabird", ⟨["corrected_timestamp"], []⟩, 0⟩)] ["ctd"] (by
      intro n hn
      rw [List.mem_singleton.mp hn]
      exact ⟨_, rfl, by decide, by decide, by simp⟩)
    rw [h1 _ _ _ _ _ rfl (by decide)] at hl
    cases hl
  · intro round mission name rest h
    simp only [readPayloads, h]

open Classical in
/-- C200: integers of a row become floating-point numbers exactly if the row has a floating-point number and no text. -/
theorem C200_types (round : ℤ → ℚ) (r : List PCell) :
    rowSeries round r = if (∃ x, PCell.num x ∈ r) ∧ ¬ (∃ t, PCell.text t ∈ r) then
      r.map (fun c => match c with | .int n => .num (round n) | c => c) else r := by
  have h1 : r.any PCell.isText = true ↔ ∃ t, PCell.text t ∈ r := by
    rw [List.any_eq_true]
    constructor
    · rintro ⟨c, hc, h⟩
      cases c <;> simp [PCell.isText] at h
      exact ⟨_, hc⟩
    · rintro ⟨t, ht⟩
      exact ⟨_, ht, rfl⟩
  have h2 : r.any PCell.isNum = true ↔ ∃ x, PCell.num x ∈ r := by
    rw [List.any_eq_true]
    constructor
    · rintro ⟨c, hc, h⟩
      cases c <;> simp [PCell.isNum] at h
      exact ⟨_, hc⟩
    · rintro ⟨t, ht⟩
      exact ⟨_, ht, rfl⟩
  unfold rowSeries
  simp only [h1, h2]
  by_cases a : ∃ t, PCell.text t ∈ r <;> by_cases b : ∃ x, PCell.num x ∈ r <;> simp only [a, b, if_true, if_false, not_true, not_false_eq_true, and_true, and_false]
  exact List.map_congr_left fun c _ => by cases c <;> rfl

end Oplab.Props
