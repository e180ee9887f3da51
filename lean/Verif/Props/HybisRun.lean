import Verif.Spec.HybisRun
import Verif.Props.Hybis

/-! C230: the conversion of HyBIS dives as a whole. -/

namespace Oplab.Props
open Oplab Oplab.Spec

private theorem log_of {toFloat : List Char → Res ℚ} {rows : List HybisRow} {ps : List HybisPos} (h : LogOf toFloat rows ps) :
    hybisLog toFloat rows = .ok ps := by
  induction h with
  | nil => rfl
  | @skip r rows ps hr _ ih =>
    obtain ⟨t, e, hl⟩ := hr
    unfold hybisLog
    simp only [e]
    rw [if_pos hl, ih]
  | @fix r p rows ps hr _ ih =>
    obtain ⟨⟨c, c1, c2, c3, c4, c5⟩, ⟨t, e, d, m, hh, deg, mi, l1, l2, l3, f1, f2, f3⟩, ⟨d', m', hh', deg', mi', l1', l2', l3', f1', f2', f3'⟩,
      q1, q2, q3, q4, q5⟩ := hr
    have hlen : ¬ t.length < 11 := by rw [l3]; simp only [List.length_append, l1, l2, List.length_cons, List.length_nil]; omega
    have a1 := C143_time c c1 c2
    have a2 := C143_position toFloat d m hh deg mi (Or.inr l1) l2 f1 f2
    have a3 := C143_position toFloat d' m' hh' deg' mi' (Or.inl l1') l2' f1' f2'
    rw [← l3, ← f3] at a2
    rw [← l3', ← f3'] at a3
    rw [← c3, ← c4, ← c5] at a1
    unfold hybisLog
    simp only [e]
    rw [if_neg hlen]
    simp only [bind, Except.bind, a1, a2, a3, ih]
    rw [← q1, ← q2, ← q3, ← q4, ← q5]

private theorem images_spec {I : Type} {metres : ℚ → ℚ → ℚ → ℚ → ℝ × ℝ} {ps : List HybisPos} {ds as : List ℚ} {ref : HybisRef} {mtime : I → ℚ}
    {k : ℕ} {fs : List I} {ls : List (HybisLine I)} (h : hybisImages metres ps ds as ref mtime k fs = .ok ls) :
    ls.length = fs.length ∧ ∀ (i : ℕ) (l : HybisLine I), ls[i]? = some l → ∃ f, fs[i]? = some f
      ∧ hybisImage metres ps ds as ref (k + i) f (mtime f) = .ok l := by
  induction fs generalizing k ls with
  | nil =>
    unfold hybisImages at h
    cases h
    exact ⟨rfl, fun i l hl => by simp at hl⟩
  | cons f fs ih =>
    unfold hybisImages at h
    cases h1 : hybisImage metres ps ds as ref k f (mtime f) with
    | error e => simp only [h1, bind, Except.bind] at h; cases h
    | ok l1 =>
      cases h2 : hybisImages metres ps ds as ref mtime (k + 1) fs with
      | error e => simp only [h1, h2, bind, Except.bind] at h; cases h
      | ok l2 =>
        simp only [h1, h2, bind, Except.bind] at h
        cases h
        obtain ⟨e1, e2⟩ := ih h2
        refine ⟨by simp [e1], ?_⟩
        intro i l hl
        cases i with
        | zero =>
          rw [List.getElem?_cons_zero] at hl
          cases hl
          exact ⟨f, rfl, by simpa using h1⟩
        | succ i =>
          rw [List.getElem?_cons_succ] at hl
          obtain ⟨f', g1, g2⟩ := e2 i l hl
          refine ⟨f', by rw [List.getElem?_cons_succ]; exact g1, ?_⟩
          rw [← g2]; congr 1; omega

private theorem images_ok {I : Type} {metres : ℚ → ℚ → ℚ → ℚ → ℝ × ℝ} {ps : List HybisPos} {ds as : List ℚ} {ref : HybisRef} {mtime : I → ℚ}
    (fs : List I) (k : ℕ) (h : ∀ (k : ℕ) (f : I), ∃ l, hybisImage metres ps ds as ref k f (mtime f) = .ok l) :
    ∃ ls, hybisImages metres ps ds as ref mtime k fs = .ok ls := by
  induction fs generalizing k with
  | nil => exact ⟨[], rfl⟩
  | cons f fs ih =>
    obtain ⟨l, e⟩ := h k f
    obtain ⟨ls, e'⟩ := ih (k + 1)
    refine ⟨l :: ls, ?_⟩
    unfold hybisImages
    simp only [e, e', bind, Except.bind]

private theorem image_line {I : Type} {metres : ℚ → ℚ → ℚ → ℚ → ℝ × ℝ} {ps : List HybisPos} {ds as : List ℚ} {ref : HybisRef}
    {k : ℕ} {f : I} {m : ℚ} {l : HybisLine I} (h : hybisImage metres ps ds as ref k f m = .ok l) :
    l.number = k ∧ l.file = f ∧ l.time = m
    ∧ hybisAt (ps.map HybisPos.time) (ps.map HybisPos.lat) m = .ok l.lat ∧ hybisAt (ps.map HybisPos.time) (ps.map HybisPos.lon) m = .ok l.lon
    ∧ hybisAt (ps.map HybisPos.time) ds m = .ok l.depth ∧ hybisAt (ps.map HybisPos.time) as m = .ok l.altitude
    ∧ hybisAt (ps.map HybisPos.time) (ps.map HybisPos.roll) m = .ok l.roll ∧ hybisAt (ps.map HybisPos.time) (ps.map HybisPos.pitch) m = .ok l.pitch
    ∧ hybisAt (ps.map HybisPos.time) (ps.map HybisPos.heading) m = .ok l.heading
    ∧ ∃ db, hybisMetres metres l.lat l.lon ref = .ok db ∧ l.northing = Real.cos (db.2 * Real.pi / 180) * db.1
      ∧ l.easting = Real.sin (db.2 * Real.pi / 180) * db.1 := by
  unfold hybisImage at h
  dsimp only at h
  cases h1 : hybisAt (ps.map HybisPos.time) (ps.map HybisPos.lat) m with
  | error e => simp only [h1, bind, Except.bind] at h; cases h
  | ok lat =>
  cases h2 : hybisAt (ps.map HybisPos.time) (ps.map HybisPos.lon) m with
  | error e => simp only [h1, h2, bind, Except.bind] at h; cases h
  | ok lon =>
  cases h3 : hybisAt (ps.map HybisPos.time) ds m with
  | error e => simp only [h1, h2, h3, bind, Except.bind] at h; cases h
  | ok d =>
  cases h4 : hybisAt (ps.map HybisPos.time) (ps.map HybisPos.roll) m with
  | error e => simp only [h1, h2, h3, h4, bind, Except.bind] at h; cases h
  | ok r =>
  cases h5 : hybisAt (ps.map HybisPos.time) (ps.map HybisPos.pitch) m with
  | error e => simp only [h1, h2, h3, h4, h5, bind, Except.bind] at h; cases h
  | ok p =>
  cases h6 : hybisAt (ps.map HybisPos.time) (ps.map HybisPos.heading) m with
  | error e => simp only [h1, h2, h3, h4, h5, h6, bind, Except.bind] at h; cases h
  | ok hd =>
  cases h7 : hybisAt (ps.map HybisPos.time) as m with
  | error e => simp only [h1, h2, h3, h4, h5, h6, h7, bind, Except.bind] at h; cases h
  | ok a =>
  cases h8 : hybisMetres metres lat lon ref with
  | error e => simp only [h1, h2, h3, h4, h5, h6, h7, h8, bind, Except.bind] at h; cases h
  | ok db =>
    simp only [h1, h2, h3, h4, h5, h6, h7, h8, bind, Except.bind] at h
    cases h
    exact ⟨rfl, rfl, rfl, rfl, rfl, rfl, rfl, rfl, rfl, rfl, db, h8, rfl, rfl⟩

private theorem convert_parts {I : Type} [LinearOrder I] {toFloat : List Char → Res ℚ} {metres : ℚ → ℚ → ℚ → ℚ → ℝ × ℝ} {rows : List HybisRow}
    {ref : HybisRef} {mtime : I → ℚ} {files : List I} {r : HybisResult I} (h : hybisConvert toFloat metres rows ref mtime files = .ok r) :
    ∃ (ps : List HybisPos) (ref' : HybisRef), hybisLog toFloat rows = .ok ps ∧ hybisChooseRef ps ref = .ok ref'
      ∧ hybisImages metres ps (hybisRepair (ps.map HybisPos.time) (ps.map HybisPos.depth))
          (hybisRepair (ps.map HybisPos.time) (ps.map HybisPos.altitude)) ref' mtime 0 (files.insertionSort (· ≤ ·)) = .ok r.lines
      ∧ ps.head?.map HybisPos.time = some r.start ∧ ps.getLast?.map HybisPos.time = some r.finish := by
  unfold hybisConvert at h
  cases h1 : hybisLog toFloat rows with
  | error e => simp only [h1, bind, Except.bind] at h; cases h
  | ok ps =>
  cases h2 : hybisChooseRef ps ref with
  | error e => simp only [h1, h2, bind, Except.bind] at h; cases h
  | ok ref' =>
  cases h3 : hybisImages metres ps (hybisRepair (ps.map HybisPos.time) (ps.map HybisPos.depth))
          (hybisRepair (ps.map HybisPos.time) (ps.map HybisPos.altitude)) ref' mtime 0 (files.insertionSort (· ≤ ·)) with
  | error e => simp only [h1, h2, h3, bind, Except.bind] at h; cases h
  | ok ls =>
    simp only [h1, h2, h3, bind, Except.bind] at h
    cases h4 : ps.head? with
    | none => simp only [h4] at h; cases h
    | some a =>
      cases h5 : ps.getLast? with
      | none => simp only [h4, h5] at h; cases h
      | some b =>
        simp only [h4, h5] at h
        cases h
        exact ⟨ps, ref', rfl, h2, h3, by rw [h4]; rfl, by rw [h5]; rfl⟩

/-- C230: every file of the folder has one line, in order of the names, numbered from 0, with the time the file was written. -/
theorem C230_lines {I : Type} [LinearOrder I] (toFloat : List Char → Res ℚ) (metres : ℚ → ℚ → ℚ → ℚ → ℝ × ℝ) (rows : List HybisRow)
    (ref : HybisRef) (mtime : I → ℚ) (files : List I) (r : HybisResult I) (h : hybisConvert toFloat metres rows ref mtime files = .ok r) :
    (r.lines.map HybisLine.file).Perm files ∧ (r.lines.map HybisLine.file).Pairwise (· ≤ ·)
    ∧ (∀ (i : ℕ) (l : HybisLine I), r.lines[i]? = some l → l.number = i) ∧ ∀ l ∈ r.lines, l.time = mtime l.file := by
  obtain ⟨ps, ref', -, -, hi, -, -⟩ := convert_parts h
  obtain ⟨e1, e2⟩ := images_spec hi
  have hf : r.lines.map HybisLine.file = files.insertionSort (· ≤ ·) := by
    apply List.ext_getElem?
    intro i
    rw [List.getElem?_map]
    cases hl : r.lines[i]? with
    | none =>
      rw [List.getElem?_eq_none_iff] at hl
      rw [Option.map_none, eq_comm, List.getElem?_eq_none_iff]
      omega
    | some l =>
      obtain ⟨f, g1, g2⟩ := e2 i l hl
      rw [Option.map_some, g1, (image_line g2).2.1]
  refine ⟨by rw [hf]; exact List.perm_insertionSort _ _, by rw [hf]; exact List.pairwise_insertionSort _ _, ?_, ?_⟩
  · intro i l hl
    obtain ⟨f, g1, g2⟩ := e2 i l hl
    rw [(image_line g2).1, Nat.zero_add]
  · intro l hl
    obtain ⟨i, hi'⟩ := List.mem_iff_getElem?.1 hl
    obtain ⟨f, g1, g2⟩ := e2 i l hi'
    rw [(image_line g2).2.2.1, (image_line g2).2.1]

private theorem repair_id {K : Type} [Field K] [LinearOrder K] (ts v : List K) (h : ∀ y ∈ v, y ≠ 0) : hybisRepair ts v = v := by
  obtain ⟨e1, e2⟩ := C144_measured_kept ts v
  apply List.ext_getElem e1
  intro i h1 h2
  have g : ∀ (l : List K) (hi : i < l.length), l.getD i 0 = l[i] := fun l hi => by
    rw [List.getD_eq_getElem?_getD, List.getElem?_eq_getElem hi, Option.getD_some]
  have := e2 i (by rw [g v h2]; exact h _ (List.getElem_mem _))
  rwa [g _ h1, g _ h2] at this

private theorem at_steady {ps : List HybisPos} {a v : HybisPos} (g : HybisPos → ℚ) (y0 y1 : ℚ)
    (hg : ∀ t, g (steadyPose a v t) = y0 + y1 * t) (h2 : 2 ≤ ps.length) (hs : (ps.map HybisPos.time).Pairwise (· < ·))
    (hp : ∀ p ∈ ps, p = steadyPose a v p.time) (m : ℚ) :
    hybisAt (ps.map HybisPos.time) (ps.map g) m = .ok (g (steadyPose a v m)) := by
  have := C145_steady_partial (ps.map HybisPos.time) (ps.map g) m y1 y0 (by simp) (by simpa using h2) hs (by
    intro k t y ht hy
    rw [List.getElem?_map] at ht hy
    cases hk : ps[k]? with
    | none => rw [hk] at ht; cases ht
    | some p =>
      rw [hk, Option.map_some] at ht hy
      cases ht; cases hy
      have := hp p (List.mem_iff_getElem?.2 ⟨k, hk⟩)
      conv_lhs => rw [this]
      rw [hg]; ring)
  rw [this, hg]
  congr 1; ring

/-- C230, proved part: for a reference that is given in numbers, neither of them zero, the log of a vehicle moving steadily is converted, with
any rows without position in it, and every image gets the pose of the vehicle when its file was written, with northing and easting seen from
the reference; the result begins and ends with the log. Missing: the reference of the command line. -/
theorem C230_steady_partial {I : Type} [LinearOrder I] (toFloat : List Char → Res ℚ) (metres : ℚ → ℚ → ℚ → ℚ → ℝ × ℝ) (rows : List HybisRow)
    (ps : List HybisPos) (a v : HybisPos) (lat0 lon0 : ℚ) (mtime : I → ℚ) (files : List I) (hl : LogOf toFloat rows ps) (h2 : 2 ≤ ps.length)
    (hs : (ps.map HybisPos.time).Pairwise (· < ·)) (hp : ∀ p ∈ ps, p = steadyPose a v p.time) (hn : ∀ p ∈ ps, p.depth ≠ 0 ∧ p.altitude ≠ 0)
    (r1 : lat0 ≠ 0) (r2 : lon0 ≠ 0) :
    ∃ r, hybisConvert toFloat metres rows (.numbers lat0 lon0) mtime files = .ok r
      ∧ ps.head?.map HybisPos.time = some r.start ∧ ps.getLast?.map HybisPos.time = some r.finish
      ∧ (r.lines.map HybisLine.file).Perm files
      ∧ ∀ l ∈ r.lines,
        (⟨l.time, l.roll, l.pitch, l.heading, l.depth, l.altitude, l.lon, l.lat⟩ : HybisPos) = steadyPose a v (mtime l.file)
        ∧ ∃ dist bearing, metres l.lat l.lon lat0 lon0 = (dist, bearing) ∧ l.northing = dist * Real.cos (rad bearing)
          ∧ l.easting = dist * Real.sin (rad bearing) := by
  have hlog := log_of hl
  have hd : hybisRepair (ps.map HybisPos.time) (ps.map HybisPos.depth) = ps.map HybisPos.depth :=
    repair_id _ _ (by intro y hy; obtain ⟨p, h1, rfl⟩ := List.mem_map.1 hy; exact (hn p h1).1)
  have ha : hybisRepair (ps.map HybisPos.time) (ps.map HybisPos.altitude) = ps.map HybisPos.altitude :=
    repair_id _ _ (by intro y hy; obtain ⟨p, h1, rfl⟩ := List.mem_map.1 hy; exact (hn p h1).2)
  have hr : hybisChooseRef ps (.numbers lat0 lon0) = .ok (.numbers lat0 lon0) := by
    unfold hybisChooseRef hybisReference
    dsimp only
    rw [if_neg (by rintro (h | h); exacts [r2 h, r1 h])]
    rfl
  have q1 := fun m => at_steady HybisPos.lat a.lat v.lat (fun t => rfl) h2 hs hp m
  have q2 := fun m => at_steady HybisPos.lon a.lon v.lon (fun t => rfl) h2 hs hp m
  have q3 := fun m => at_steady HybisPos.depth a.depth v.depth (fun t => rfl) h2 hs hp m
  have q4 := fun m => at_steady HybisPos.altitude a.altitude v.altitude (fun t => rfl) h2 hs hp m
  have q5 := fun m => at_steady HybisPos.roll a.roll v.roll (fun t => rfl) h2 hs hp m
  have q6 := fun m => at_steady HybisPos.pitch a.pitch v.pitch (fun t => rfl) h2 hs hp m
  have q7 := fun m => at_steady HybisPos.heading a.heading v.heading (fun t => rfl) h2 hs hp m
  obtain ⟨ls, hls⟩ := images_ok (metres := metres) (ps := ps) (ds := ps.map HybisPos.depth) (as := ps.map HybisPos.altitude)
    (ref := .numbers lat0 lon0) (mtime := mtime) (files.insertionSort (· ≤ ·)) 0 (by
      intro k f
      unfold hybisImage
      simp only [bind, Except.bind, q1, q2, q3, q4, q5, q6, q7, hybisMetres]
      exact ⟨_, rfl⟩)
  have hne : ps ≠ [] := by intro h; rw [h] at h2; simp at h2
  obtain ⟨x, hx⟩ : ∃ x, ps.head? = some x := ⟨_, List.head?_eq_some_head hne⟩
  obtain ⟨y, hy⟩ : ∃ y, ps.getLast? = some y := ⟨_, List.getLast?_eq_some_getLast hne⟩
  have hc : hybisConvert toFloat metres rows (.numbers lat0 lon0) mtime files = .ok ⟨ls, x.time, y.time⟩ := by
    unfold hybisConvert
    simp only [hlog, hd, ha, hr, hls, hx, hy, bind, Except.bind]
  refine ⟨_, hc, by rw [hx]; rfl, by rw [hy]; rfl, (C230_lines _ _ _ _ _ _ _ hc).1, ?_⟩
  intro l hlm
  obtain ⟨i, hi⟩ := List.mem_iff_getElem?.1 hlm
  obtain ⟨f, g1, g2⟩ := (images_spec hls).2 i l hi
  obtain ⟨-, k2, k3, k4, k5, k6, k7, k8, k9, k10, db, k11, k12, k13⟩ := image_line g2
  rw [q1] at k4; rw [q2] at k5; rw [q3] at k6; rw [q4] at k7; rw [q5] at k8; rw [q6] at k9; rw [q7] at k10
  refine ⟨?_, db.1, db.2, ?_, ?_, ?_⟩
  · rw [← Except.ok.inj k4, ← Except.ok.inj k5, ← Except.ok.inj k6, ← Except.ok.inj k7, ← Except.ok.inj k8, ← Except.ok.inj k9,
      ← Except.ok.inj k10, k3, k2]
    rfl
  · exact Except.ok.inj k11
  · rw [k12, rad, mul_comm, mul_div_assoc]
  · rw [k13, rad, mul_comm, mul_div_assoc]

/-- C230: the command line hands on its reference as text, so that every log with poses makes the command fail as soon as there is an image,
whatever the reference. -/
theorem C230_command_fails {I : Type} [LinearOrder I] (toFloat : List Char → Res ℚ) (metres : ℚ → ℚ → ℚ → ℚ → ℝ × ℝ) (rows : List HybisRow)
    (lat lon : Option (List Char)) (mtime : I → ℚ) (files : List I) (h : files ≠ []) :
    ∃ e, hybisCommand toFloat metres rows lat lon mtime files = .error e := by
  cases hc : hybisCommand toFloat metres rows lat lon mtime files with
  | error e => exact ⟨e, rfl⟩
  | ok r =>
    exfalso
    unfold hybisCommand at hc
    split at hc
    · obtain ⟨ps, ref', -, hr, hi, -, -⟩ := convert_parts hc
      cases hr
      obtain ⟨f, hf⟩ : ∃ f, f ∈ files := List.exists_mem_of_ne_nil _ h
      have : f ∈ files.insertionSort (· ≤ ·) := (List.mem_insertionSort _).2 hf
      obtain ⟨i, hi'⟩ := List.mem_iff_getElem?.1 this
      obtain ⟨e1, e2⟩ := images_spec hi
      have hlt : i < r.lines.length := by rw [e1]; exact (List.getElem?_eq_some_iff.1 hi').1
      obtain ⟨f', -, g⟩ := e2 i _ (List.getElem?_eq_getElem hlt)
      obtain ⟨-, -, -, -, -, -, -, -, -, -, db, hm, -⟩ := image_line g
      cases hm
    · cases hc

/-! A log of two poses and a row without position between them. -/

private def exFloat (t : List Char) : Res ℚ :=
  if t = "050".toList then .ok 50 else if t = "51".toList then .ok 51 else .ok 0

private def exTime (s : ℕ) : DateTime := ⟨2020, 1, 1, 0, 0, s, 0⟩

private def exRow (s : ℕ) : HybisRow :=
  ⟨slashDate (exTime s), colonTime (exTime s), 1, 2, 3, 4, 5, some "05000.00000W".toList, "5100.00000N".toList⟩

private def exPos (s : ℕ) : HybisPos := ⟨(exTime s).seconds, 1, 2, 3, 4, 5, -50, 51⟩

private theorem ex_records (s : ℕ) (h : (exTime s).ok = true) : Records exFloat (exRow s) (exPos s) := by
  have e1 : (-50 : ℚ) = hemisphereSign 'W' * (50 + 0 / 60) := by decide +kernel
  have e2 : (51 : ℚ) = hemisphereSign 'N' * (51 + 0 / 60) := by decide +kernel
  exact ⟨⟨exTime s, h, rfl, rfl, rfl, rfl⟩, ⟨_, rfl, "050".toList, "00.00000".toList, 'W', 50, 0, rfl, rfl, by decide, by decide +kernel,
    by decide +kernel, e1⟩, ⟨"51".toList, "00.00000".toList, 'N', 51, 0, rfl, rfl, by show "5100.00000N".toList = _; decide, by decide +kernel,
    by decide +kernel, e2⟩, rfl, rfl, rfl, rfl, rfl⟩

private theorem ex_log : LogOf exFloat [exRow 0, { exRow 1 with lon := some [] }, exRow 2] [exPos 0, exPos 2] :=
  .fix (ex_records 0 (by decide)) (.skip ⟨[], rfl, by decide⟩ (.fix (ex_records 2 (by decide)) .nil))

private theorem ex_sorted : ([exPos 0, exPos 2].map HybisPos.time).Pairwise (· < ·) := by decide +kernel

example : ∃ r, hybisConvert exFloat (fun _ _ _ _ => (1, 2)) [exRow 0, { exRow 1 with lon := some [] }, exRow 2] (.numbers 51 (-50)) (fun n : ℕ => n) [3, 1] = .ok r
    ∧ r.lines.length = 2 := by
  obtain ⟨r, h, -, -, hp, -⟩ := C230_steady_partial exFloat (fun _ _ _ _ => (1, 2)) _ _ ⟨0, 1, 2, 3, 4, 5, -50, 51⟩ ⟨0, 0, 0, 0, 0, 0, 0, 0⟩ 51 (-50)
    (fun n : ℕ => (n : ℚ)) [3, 1] ex_log (by simp) ex_sorted
    (by intro p hp; simp only [List.mem_cons, List.not_mem_nil, or_false] at hp; rcases hp with rfl | rfl <;> simp [steadyPose, exPos])
    (by intro p hp; simp only [List.mem_cons, List.not_mem_nil, or_false] at hp; rcases hp with rfl | rfl <;> simp [exPos])
    (by norm_num) (by norm_num)
  exact ⟨r, h, by simpa using hp.length_eq⟩

/-- C230: the full claim is false. -/
theorem C230_command_false : ¬ HybisCommandWorks := by
  intro h
  obtain ⟨r, hr⟩ := h exFloat (fun _ _ _ _ => (1, 2)) _ _ "51".toList "050".toList (fun n => n) [7] ex_log (by simp) ex_sorted ⟨51, by decide +kernel⟩ ⟨50, by decide +kernel⟩
  obtain ⟨e, he⟩ := C230_command_fails exFloat (fun _ _ _ _ => (1, 2)) [exRow 0, { exRow 1 with lon := some [] }, exRow 2] (some "51".toList)
    (some "050".toList) (fun n : ℕ => (n : ℚ)) [7] (by simp)
  rw [hr] at he
  cases he

end Oplab.Props
