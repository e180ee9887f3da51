import Verif.Spec.Phins
import Verif.Lemmas.Digits
import Verif.Spec.Geometry
import Mathlib.Tactic.Linarith
import Mathlib.Tactic.Ring
import Mathlib.Tactic.NormNum

namespace Oplab.Props
open Oplab.Spec

/-! # PHINS logs -/

/-! ## C176 times -/

private theorem ph_slice (pre mid post : List Char) (a b : Nat) (ha : pre.length = a) (hb : a + mid.length = b) :
    slice (pre ++ (mid ++ post)) a b = mid := by
  subst ha hb
  simp [slice, List.take_append]

/-- C176 (partial): the text of a time of day, with any text after it, is read as that time on the date of the file, from the time zone of the
mission and with its offset added; for lines of the time only with 10 or 13 characters. Missing: times of the next day. -/
theorem C176_time_partial (year month day hour mins secs msec : Nat) (tz offset : ℚ) (tail : List Char)
    (hv : (⟨year, month, day, hour, mins, secs, 0⟩ : DateTime).ok = true) (hm : msec < 1000) :
    phinsClock year month day tz offset (clockText hour mins secs msec ++ tail) =
      .ok (some ((⟨year, month, day, hour, mins, secs, 0⟩ : DateTime).seconds - tz * 3600 + msec / 1000 + offset)) ∧
    (tail.length = 0 ∨ tail.length = 3 →
      phinsTimeLine (phinsClock year month day tz offset) (clockText hour mins secs msec ++ tail) =
        .ok (some ((⟨year, month, day, hour, mins, secs, 0⟩ : DateTime).seconds - tz * 3600 + msec / 1000 + offset))) := by
  have hf := hv
  simp only [DateTime.ok, decide_eq_true_eq] at hf
  obtain ⟨-, -, -, -, -, -, h1, h2, h3, -⟩ := hf
  have hc : phinsClock year month day tz offset (clockText hour mins secs msec ++ tail) =
      .ok (some ((⟨year, month, day, hour, mins, secs, 0⟩ : DateTime).seconds - tz * 3600 + msec / 1000 + offset)) := by
    have s1 := ph_slice [] (padDigits 2 hour) (padDigits 2 mins ++ (padDigits 2 secs ++ ('.' :: padDigits 3 msec)) ++ tail) 0 2 rfl
      (by simp [padDigits_length])
    have s2 := ph_slice (padDigits 2 hour) (padDigits 2 mins) (padDigits 2 secs ++ ('.' :: padDigits 3 msec) ++ tail) 2 4
      (padDigits_length _ _) (by simp [padDigits_length])
    have s3 := ph_slice (padDigits 2 hour ++ padDigits 2 mins) (padDigits 2 secs) ('.' :: padDigits 3 msec ++ tail) 4 6
      (by simp [padDigits_length]) (by simp [padDigits_length])
    have s4 := ph_slice (padDigits 2 hour ++ (padDigits 2 mins ++ (padDigits 2 secs ++ ['.']))) (padDigits 3 msec) tail 7 10
      (by simp [padDigits_length]) (by simp [padDigits_length])
    simp only [List.append_assoc, List.cons_append, List.nil_append] at s1 s2 s3 s4
    simp only [phinsClock, clockText, List.append_assoc, List.cons_append, s1, s2, s3, s4, pyInt_padDigits 2 _ (by norm_num) (show hour < 10 ^ 2 by omega),
      pyInt_padDigits 2 _ (by norm_num) (show mins < 10 ^ 2 by omega), pyInt_padDigits 2 _ (by norm_num) (show secs < 10 ^ 2 by omega),
      pyInt_padDigits 3 _ (by norm_num) (show msec < 10 ^ 3 by omega), bind, Except.bind, if_pos h3, phinsGet, dateTimeToEpoch, hv, if_true]
    simp [Except.toOption]
  refine ⟨hc, fun hl => ?_⟩
  rw [phinsTimeLine, if_pos, hc]
  simp only [clockText, List.length_append, List.length_cons, padDigits_length]
  omega

/-- C176: the second 60, which PHINS sometimes sends, gives no time. -/
theorem C176_sixty (year month day hour mins secs msec : Nat) (tz offset : ℚ) (tail : List Char) (h1 : hour < 100) (h2 : mins < 100)
    (h3 : 60 ≤ secs) (h4 : secs < 100) :
    phinsClock year month day tz offset (clockText hour mins secs msec ++ tail) = .ok none := by
  have s1 := ph_slice [] (padDigits 2 hour) (padDigits 2 mins ++ (padDigits 2 secs ++ ('.' :: padDigits 3 msec)) ++ tail) 0 2 rfl
    (by simp [padDigits_length])
  have s2 := ph_slice (padDigits 2 hour) (padDigits 2 mins) (padDigits 2 secs ++ ('.' :: padDigits 3 msec) ++ tail) 2 4
    (padDigits_length _ _) (by simp [padDigits_length])
  have s3 := ph_slice (padDigits 2 hour ++ padDigits 2 mins) (padDigits 2 secs) ('.' :: padDigits 3 msec ++ tail) 4 6
    (by simp [padDigits_length]) (by simp [padDigits_length])
  simp only [List.append_assoc, List.cons_append, List.nil_append] at s1 s2 s3
  simp only [phinsClock, clockText, List.append_assoc, List.cons_append, s1, s2, s3, pyInt_padDigits 2 _ (by norm_num) (show hour < 10 ^ 2 by omega),
    pyInt_padDigits 2 _ (by norm_num) (show mins < 10 ^ 2 by omega), pyInt_padDigits 2 _ (by norm_num) (show secs < 10 ^ 2 by omega), bind, Except.bind,
    if_neg (by omega : ¬ secs < 60)]
  simp [Except.toOption]

/-- What C176 asks for: a log that begins on one day and goes on to the next has the right times. -/
def C176_full : Prop := ∀ (start c : DateTime), start.ok = true → c.ok = true → c.us = 0 → start.seconds ≤ c.seconds →
  c.seconds < start.seconds + 86400 → phinsClock start.year start.month start.day 0 0 (clockText c.hour c.minute c.second 0) = .ok (some c.seconds)

/-- C176 fails: after midnight the times are those of the day before. -/
theorem C176_midnight_false : ¬ C176_full := by
  intro h
  have h1 := h ⟨2020, 5, 1, 23, 0, 0, 0⟩ ⟨2020, 5, 2, 1, 0, 0, 0⟩ (by decide) (by decide) rfl (by decide +kernel) (by decide +kernel)
  have h2 := (C176_time_partial 2020 5 1 1 0 0 0 0 0 [] (by decide) (by omega)).1
  rw [List.append_nil] at h2
  rw [h2] at h1
  simp only [Except.ok.injEq, Option.some.injEq] at h1
  revert h1
  decide +kernel

example : (⟨2020, 5, 1, 23, 59, 59, 0⟩ : DateTime).ok = true := by decide

/-! ## C177 time of the records -/

section
variable {α : Type}

private def exec (c : PhinsCfg α) (cat : PhinsCat) (acfr : Bool) : PhinsState α → List (PhinsLine α) → Res (PhinsState α × List (PhinsRecord α))
  | s, [] => .ok (s, [])
  | s, l :: ls => do
    let r ← phinsStep c cat acfr s l
    let q ← exec c cat acfr r.1 ls
    .ok (q.1, r.2.toList ++ q.2)

private theorem run_exec (c : PhinsCfg α) (cat : PhinsCat) (acfr : Bool) : ∀ (ls : List (PhinsLine α)) (s : PhinsState α),
    phinsRun c cat acfr s ls = (exec c cat acfr s ls).map Prod.snd
  | [], s => rfl
  | l :: ls, s => by
    simp only [phinsRun, exec, bind, Except.bind]
    cases phinsStep c cat acfr s l with
    | error e => rfl
    | ok r =>
      simp only [run_exec c cat acfr ls r.1]
      cases exec c cat acfr r.1 ls <;> rfl

private theorem run_ok (c : PhinsCfg α) (cat : PhinsCat) (acfr : Bool) (ls : List (PhinsLine α)) (s : PhinsState α) (out : List (PhinsRecord α))
    (h : phinsRun c cat acfr s ls = .ok out) : ∃ s', exec c cat acfr s ls = .ok (s', out) := by
  rw [run_exec] at h
  cases he : exec c cat acfr s ls with
  | error e => rw [he] at h; simp [Except.map] at h
  | ok q => rw [he] at h; simp only [Except.map, Except.ok.injEq] at h; exact ⟨q.1, by rw [← h]⟩

private theorem exec_append (c : PhinsCfg α) (cat : PhinsCat) (acfr : Bool) : ∀ (a b : List (PhinsLine α)) (s : PhinsState α),
    exec c cat acfr s (a ++ b) = (exec c cat acfr s a).bind fun q => (exec c cat acfr q.1 b).map fun r => (r.1, q.2 ++ r.2)
  | [], b, s => by
    simp only [exec, List.nil_append, Except.bind]
    cases exec c cat acfr s b <;> rfl
  | l :: a, b, s => by
    simp only [exec, List.cons_append, bind, Except.bind]
    cases phinsStep c cat acfr s l with
    | error e => rfl
    | ok r =>
      simp only [exec_append c cat acfr a b r.1, Except.bind]
      cases exec c cat acfr r.1 a with
      | error e => rfl
      | ok q =>
        simp only
        cases exec c cat acfr q.1 b with
        | error e => rfl
        | ok w => simp [Except.map]

/-- What a step does to the time. -/
private def rdTime (c : PhinsCfg α) (s : List Char) : Option ℚ := readTime (phinsTimeLine c.clock s)

private def nextTime (c : PhinsCfg α) (t : Option ℚ) : PhinsLine α → Option ℚ
  | .time x => rdTime c x
  | _ => t

private theorem setTime_eq (c : PhinsCfg α) (s s' : PhinsState α) (l : PhinsLine α) (h : phinsSetTime c s l = .ok s') :
    s' = { s with time := nextTime c s.time l } := by
  cases l <;> simp only [phinsSetTime, bind, Except.bind] at h
  case time x =>
    cases ht : phinsTimeLine c.clock x with
    | error e => rw [ht] at h; simp at h
    | ok t => rw [ht] at h; simp only [Except.ok.injEq] at h; rw [← h]; simp [nextTime, rdTime, ht, readTime]
  all_goals (simp only [Except.ok.injEq] at h; rw [← h]; rfl)

private theorem body_time (s : PhinsState α) : (exportBody s).1.time = s.time ∧ ∀ r ∈ (exportBody s).2, recordTime r = s.time := by
  unfold exportBody; split <;> simp_all [recordTime]
private theorem inertial_time (s : PhinsState α) : (exportInertial s).1.time = s.time ∧ ∀ r ∈ (exportInertial s).2, recordTime r = s.time := by
  unfold exportInertial; split <;> simp_all [recordTime]
private theorem orient_time (s : PhinsState α) : (exportOrient s).1.time = s.time ∧ ∀ r ∈ (exportOrient s).2, recordTime r = s.time := by
  unfold exportOrient; split <;> simp_all [recordTime]
private theorem depth_time (s : PhinsState α) : (exportDepth s).1.time = s.time ∧ ∀ r ∈ (exportDepth s).2, recordTime r = s.time := by
  unfold exportDepth; split <;> simp_all [recordTime]
private theorem altitude_time (s : PhinsState α) : (exportAltitude s).1.time = s.time ∧ ∀ r ∈ (exportAltitude s).2, recordTime r = s.time := by
  unfold exportAltitude; split <;> simp_all [recordTime]
private theorem rdi_time (s : PhinsState α) : (exportRdi s).1.time = s.time ∧ ∀ r ∈ (exportRdi s).2, recordTime r = none := by
  unfold exportRdi; split <;> simp_all [recordTime]
private theorem phorient_time (c : PhinsCfg α) (s : PhinsState α) (l : PhinsLine α) : (phinsOrient c s l).time = s.time := by
  cases l <;> simp only [phinsOrient]
  split <;> rfl

private theorem exportOr_ok (acfr : Bool) (x y : PhinsState α × Option (PhinsRecord α)) (h : exportOr acfr x = .ok y) : y = x := by
  unfold exportOr at h
  split at h
  · simp at h
  · exact (Except.ok.inj h).symm

private theorem dvl_ok (c : PhinsCfg α) (s s' : PhinsState α) (v : V3 α) (x : List Char) (h : phinsDvl c s v x = .ok s') :
    ∃ t, c.clock x = .ok t ∧ s' = { s with v := some (c.body v), tDvl := t } := by
  simp only [phinsDvl, bind, Except.bind] at h
  split at h
  · simp at h
  · exact ⟨_, ‹_›, (Except.ok.inj h).symm⟩

private theorem depth_ok (c : PhinsCfg α) (s s' : PhinsState α) (d : α) (x : List Char) (h : phinsDepth c s d x = .ok s') :
    ∃ t, c.clock x = .ok t ∧ s' = { s with d := some d, tDepth := t.orElse fun _ => s.tDepth } := by
  simp only [phinsDepth, bind, Except.bind] at h
  split at h
  · simp at h
  · exact ⟨_, ‹_›, (Except.ok.inj h).symm⟩

private theorem step_time (c : PhinsCfg α) (cat : PhinsCat) (acfr : Bool) (s : PhinsState α) (l : PhinsLine α) (r : PhinsState α × Option (PhinsRecord α))
    (h : phinsStep c cat acfr s l = .ok r) :
    r.1.time = nextTime c s.time l ∧
      ∀ q ∈ r.2, recordTime q = none ∨ recordTime q = nextTime c s.time l := by
  simp only [phinsStep, bind, Except.bind] at h
  split at h
  · simp at h
  rename_i s1 h1
  have e1 := setTime_eq c s s1 l h1
  have e2 : s1.time = nextTime c s.time l := by rw [e1]
  rw [← e2]
  clear e1 h1 e2
  cases cat
  · simp only at h
    split at h
    · simp at h
    rename_i w hw
    have hwt : w.1.time = s1.time ∧ ∀ q ∈ w.2, recordTime q = s1.time := by
      unfold phinsVelocityPart at hw
      split at hw
      · simp only [bind, Except.bind] at hw
        split at hw
        · simp at hw
        rename_i s2 h2
        obtain ⟨t, -, e⟩ := dvl_ok c _ _ _ _ h2
        have := Except.ok.inj hw
        rw [← this]
        cases acfr
        · have := body_time s2
          rw [e] at this ⊢
          simpa using this
        · simp [e]
      · rw [← Except.ok.inj hw]
        cases acfr
        · exact inertial_time _
        · simp
      · rw [← Except.ok.inj hw]
        cases acfr
        · exact inertial_time _
        · simp
      · rw [← Except.ok.inj hw]; simp
    split at h
    · rw [← Except.ok.inj h]
      have hr := rdi_time (match l with | .altitude sv k a => phinsAltitude (phinsOrient c w.1 l) sv k a | _ => phinsOrient c w.1 l)
      have ht : (match l with | .altitude sv k a => phinsAltitude (phinsOrient c w.1 l) sv k a | _ => phinsOrient c w.1 l).time = s1.time := by
        rw [← hwt.1, ← phorient_time c w.1 l]
        cases l <;> rfl
      exact ⟨hr.1.trans ht, fun q hq => Or.inl (hr.2 q hq)⟩
    · rw [← Except.ok.inj h]
      exact ⟨hwt.1, fun q hq => Or.inr (hwt.2 q hq)⟩
  · simp only at h
    rw [exportOr_ok _ _ _ h]
    have := orient_time (phinsOrient c s1 l)
    rw [phorient_time] at this
    exact ⟨this.1, fun q hq => Or.inr (this.2 q hq)⟩
  · simp only at h
    split at h
    · split at h
      · simp at h
      rename_i s2 h2
      obtain ⟨t, -, e⟩ := depth_ok c _ _ _ _ h2
      rw [exportOr_ok _ _ _ h]
      have := depth_time s2
      rw [e] at this ⊢
      exact ⟨this.1, fun q hq => Or.inr (this.2 q hq)⟩
    · rw [← Except.ok.inj h]; simp
  · simp only at h
    split at h
    · rename_i sv k a
      rw [exportOr_ok _ _ _ h]
      have := altitude_time (phinsAltitude s1 sv k a)
      exact ⟨this.1, fun q hq => Or.inr (this.2 q hq)⟩
    · split at h
      · simp at h
      rename_i s2 h2
      obtain ⟨t, -, e⟩ := dvl_ok c _ _ _ _ h2
      rw [exportOr_ok _ _ _ h]
      have := altitude_time s2
      rw [e] at this ⊢
      exact ⟨this.1, fun q hq => Or.inr (this.2 q hq)⟩
    · rw [← Except.ok.inj h]; simp

private theorem lastTime_snoc (rd : List Char → Option ℚ) (hist : List (PhinsLine α)) (l : PhinsLine α) :
    lastTime rd (hist ++ [l]) = match l with | .time s => rd s | _ => lastTime rd hist := by
  simp only [lastTime, List.foldl_append, List.foldl_cons, List.foldl_nil]
  cases l <;> rfl

private theorem exec_snoc (c : PhinsCfg α) (cat : PhinsCat) (acfr : Bool) (s : PhinsState α) (hist : List (PhinsLine α)) (l : PhinsLine α)
    (w : PhinsState α × List (PhinsRecord α)) (h : exec c cat acfr s (hist ++ [l]) = .ok w) :
    ∃ q r, exec c cat acfr s hist = .ok q ∧ phinsStep c cat acfr q.1 l = .ok r ∧ w = (r.1, q.2 ++ r.2.toList) := by
  rw [exec_append] at h
  cases hq : exec c cat acfr s hist with
  | error e => rw [hq] at h; simp [Except.bind] at h
  | ok q =>
    rw [hq] at h
    simp only [Except.bind, exec, bind] at h
    cases hr : phinsStep c cat acfr q.1 l with
    | error e => rw [hr] at h; simp [Except.map] at h
    | ok r =>
      rw [hr] at h
      simp only [Except.map, Except.ok.injEq, List.append_nil] at h
      exact ⟨q, r, rfl, hr, h.symm⟩

private theorem exec_time (c : PhinsCfg α) (cat : PhinsCat) (acfr : Bool) (hist : List (PhinsLine α)) :
    ∀ w, exec c cat acfr PhinsState.init hist = .ok w → w.1.time = lastTime (rdTime c) hist := by
  induction hist using List.reverseRecOn with
  | nil => intro w h; simp only [exec, Except.ok.injEq] at h; rw [← h]; rfl
  | append_singleton hist l ih =>
    intro w h
    obtain ⟨q, r, hq, hr, rfl⟩ := exec_snoc c cat acfr _ hist l w h
    rw [lastTime_snoc, (step_time c cat acfr q.1 l r hr).1, ih q hq]
    cases l <;> rfl

/-- C177: every line adds at most one record to those of the lines before it, which do not change, and a record bears the time of the last time line
read so far (lines of the acfr format bear the time of the DVL instead, C182). -/
theorem C177_last_time (c : PhinsCfg α) (cat : PhinsCat) (acfr : Bool) (hist : List (PhinsLine α)) (l : PhinsLine α) (out : List (PhinsRecord α))
    (h : phinsRun c cat acfr .init (hist ++ [l]) = .ok out) :
    ∃ before new, phinsRun c cat acfr .init hist = .ok before ∧ out = before ++ new ∧ new.length ≤ 1 ∧
      ∀ r ∈ new, recordTime r = none ∨ recordTime r = lastTime (fun s => readTime (phinsTimeLine c.clock s)) (hist ++ [l]) := by
  obtain ⟨s', hs'⟩ := run_ok c cat acfr _ _ _ h
  obtain ⟨q, r, hq, hr, e⟩ := exec_snoc c cat acfr _ hist l _ hs'
  have e2 := (Prod.mk.inj e).2
  refine ⟨q.2, r.2.toList, by rw [run_exec, hq]; rfl, e2, by cases r.2 <;> simp, fun x hx => ?_⟩
  have hx' : x ∈ r.2 := by cases h2 : r.2 <;> simp_all
  have := (step_time c cat acfr q.1 l r hr).2 x hx'
  rcases this with h' | h'
  · exact Or.inl h'
  · right
    rw [h', exec_time c cat acfr hist q hq]
    rw [lastTime_snoc]
    cases l <;> rfl

private def exClock (s : List Char) : Res (Option ℚ) := phinsClock 2020 5 1 0 0 s
private def exCfg : PhinsCfg ℚ := ⟨exClock, fun v => v, fun v => v, fun v => v, fun v => v, fun x => -x⟩

example : phinsRun exCfg .depth false .init [.time "120000.000".toList, .depth 5 "120001.500".toList, .depth 6 "120060.000".toList] =
    .ok [.depth 1588334400 (1588334401 + 1 / 2) 5] := by decide +kernel

/-! ## C178 orientations -/

/-- What C178 asks for: the attitude of every cycle is recorded once, with the time and the standard deviations of this cycle. -/
def C178_full : Prop := ∀ (c : PhinsCfg ℚ) (ks : List (InsCycle ℚ)), (∀ k ∈ ks, phinsTimeLine c.clock k.time = .ok (some k.t)) →
  phinsRun c .orientation false .init (ks.flatMap manualOrder) = .ok (ks.map fun k => cycleRecord c.neg c.orient c.std k k)

private theorem manual_cycle (c : PhinsCfg α) (s : PhinsState α) (p k : InsCycle α) (rest : List (PhinsLine α)) (h1 : s.rp = none)
    (h3 : s.oStd = some (c.std ⟨p.sRoll, p.sPitch, p.sHeading⟩)) (h4 : s.time = some p.t) (hk : phinsTimeLine c.clock k.time = .ok (some k.t)) :
    phinsRun c .orientation false s (manualOrder k ++ rest) =
      (phinsRun c .orientation false { s with rp := none, yaw := none, oStd := some (c.std ⟨k.sRoll, k.sPitch, k.sHeading⟩), time := some k.t } rest).map
        fun o => cycleRecord c.neg c.orient c.std p k :: o := by
  simp only [manualOrder, List.cons_append, List.nil_append, phinsRun, phinsStep, phinsSetTime, phinsOrient, exportOr, bind, Except.bind, exportOrient, h1, h3, h4, hk, Bool.false_and, Bool.false_eq_true, if_false]
  generalize phinsRun c .orientation false { s with rp := none, yaw := none, oStd := some (c.std ⟨k.sRoll, k.sPitch, k.sHeading⟩), time := some k.t } rest = R
  cases R <;> simp [Except.map, cycleRecord]


private theorem manual_cycles (c : PhinsCfg α) : ∀ (ks : List (InsCycle α)) (s : PhinsState α) (p : InsCycle α), s.rp = none →
    s.oStd = some (c.std ⟨p.sRoll, p.sPitch, p.sHeading⟩) → s.time = some p.t → (∀ k ∈ ks, phinsTimeLine c.clock k.time = .ok (some k.t)) →
    phinsRun c .orientation false s (ks.flatMap manualOrder) = .ok (List.zipWith (cycleRecord c.neg c.orient c.std) (p :: ks) ks)
  | [], s, p, _, _, _, _ => rfl
  | k :: ks, s, p, h1, h3, h4, h => by
    rw [List.flatMap_cons, manual_cycle c s p k _ h1 h3 h4 (h k (by simp)), manual_cycles c ks _ k rfl rfl rfl
      (fun k' hk' => h k' (by simp [hk']))]
    rfl

/-- C178 (partial): with the lines in the order of the manual every attitude is recorded once, in order; the first one with its own time and standard
deviations, every other one with those of the cycle before. Missing: the own time. -/
theorem C178_manual_order_partial (c : PhinsCfg α) (k : InsCycle α) (ks : List (InsCycle α)) (h : ∀ x ∈ k :: ks, phinsTimeLine c.clock x.time = .ok (some x.t)) :
    phinsRun c .orientation false .init ((k :: ks).flatMap manualOrder) =
      .ok (cycleRecord c.neg c.orient c.std k k :: List.zipWith (cycleRecord c.neg c.orient c.std) (k :: ks) ks) := by
  have hk := h k (by simp)
  have hrest := manual_cycles c ks (⟨some k.t, none, none, none, none, none, none, some (c.std ⟨k.sRoll, k.sPitch, k.sHeading⟩), none, none, none, none⟩ :
    PhinsState α) k rfl rfl rfl (fun x hx => h x (by simp [hx]))
  simp only [List.flatMap_cons, manualOrder, List.cons_append, List.nil_append, phinsRun, phinsStep, phinsSetTime, phinsOrient, exportOr, bind, Except.bind,
    exportOrient, PhinsState.init, hk, Bool.false_and, Bool.false_eq_true, if_false, Option.toList]
  rw [hrest]
  simp [cycleRecord]

/-- C178 fails: from the second cycle on, the attitudes have the time of the cycle before. -/
theorem C178_time_false : ¬ C178_full := by
  intro h
  have := h exCfg [⟨10, 1, 2, 0, 0, 0, "120000.000".toList, 1588334400⟩, ⟨20, 3, 4, 0, 0, 0, "120001.000".toList, 1588334401⟩] (by decide +kernel)
  revert this
  decide +kernel

/-- C178 (partial): with time and standard deviations before the attitude every attitude is recorded with those of its own cycle. Missing: the order of
the manual. -/
theorem C178_time_first_partial (c : PhinsCfg α) (ks : List (InsCycle α)) (h : ∀ x ∈ ks, phinsTimeLine c.clock x.time = .ok (some x.t)) :
    phinsRun c .orientation false .init (ks.flatMap timeFirst) = .ok (ks.map fun k => cycleRecord c.neg c.orient c.std k k) := by
  suffices H : ∀ (ks : List (InsCycle α)) (s : PhinsState α), s.rp = none → s.yaw = none → (∀ x ∈ ks, phinsTimeLine c.clock x.time = .ok (some x.t)) →
      phinsRun c .orientation false s (ks.flatMap timeFirst) = .ok (ks.map fun k => cycleRecord c.neg c.orient c.std k k) from H ks _ rfl rfl h
  intro ks
  induction ks with
  | nil => intro s _ _ _; rfl
  | cons k ks ih =>
    intro s h1 h2 h
    have hk := h k (by simp)
    have hrest := ih { s with time := some k.t, oStd := some (c.std ⟨k.sRoll, k.sPitch, k.sHeading⟩), rp := none, yaw := none } rfl rfl
      (fun x hx => h x (by simp [hx]))
    simp only [List.flatMap_cons, timeFirst, List.cons_append, List.nil_append, phinsRun, phinsStep, phinsSetTime, phinsOrient, exportOr, bind, Except.bind,
      exportOrient, hk, h1, h2, Bool.false_and, Bool.false_eq_true, if_false, Option.toList]
    cases ho : s.oStd <;> simp only [hrest] <;> simp [cycleRecord]

/-- C178 (partial): what is recorded with the settings of the mission and a DVL mounted with the angle `yaw`: roll and pitch with their signs changed, and
turned by the angle as if they were the two parts of a horizontal vector; the heading as it is in the log. Missing: the order of the manual. -/
theorem C178_values_partial (year month day : Nat) (tz offset : ℚ) (yaw : ℝ) (ks : List (InsCycle ℝ))
    (h : ∀ x ∈ ks, phinsTimeLine (phinsClock year month day tz offset) x.time = .ok (some x.t)) (hh : ∀ x ∈ ks, 0 ≤ x.heading ∧ x.heading ≤ 360) :
    phinsRun (phinsCfg year month day tz offset yaw) .orientation false .init (ks.flatMap timeFirst) = .ok (ks.map fun k =>
      .orient k.t { rotZ (rad yaw) ⟨-k.roll, -k.pitch, 0⟩ with z := k.heading } { rotZ (rad yaw) ⟨k.sRoll, k.sPitch, 0⟩ with z := k.sHeading }) := by
  rw [C178_time_first_partial (phinsCfg year month day tz offset yaw) ks h]
  congr 1
  apply List.map_congr_left
  intro k hk
  obtain ⟨a, b⟩ := hh k hk
  have hb : ∀ v : V3 ℝ, bodyToInertial 0 0 yaw v = rotZ (rad yaw) v := by
    intro v
    simp [bodyToInertial, rotZ, rad, degToRad, V3.mk.injEq]
    ring
  simp only [cycleRecord, phinsCfg, orientOffset, orientStdOffset, hb, rotZ, wrapHeading, gt_iff_lt, not_lt.mpr b, not_lt.mpr a, if_false, neg_one_mul]

/-- C178: no attitude and no heading is recorded twice, whatever the log. -/
theorem C178_once (c : PhinsCfg α) (lines : List (PhinsLine α)) (out : List (PhinsRecord α)) (h : phinsRun c .orientation false .init lines = .ok out) :
    out.length ≤ lines.countP isAttitude ∧ out.length ≤ lines.countP isHeading := by
  obtain ⟨s', hs'⟩ := run_ok c _ _ _ _ _ h
  suffices H : ∀ (ls : List (PhinsLine α)) (w : PhinsState α × List (PhinsRecord α)), exec c .orientation false .init ls = .ok w →
      w.2.length + w.1.rp.toList.length ≤ ls.countP isAttitude ∧ w.2.length + w.1.yaw.toList.length ≤ ls.countP isHeading by
    have := H lines _ hs'
    simp only at this
    omega
  intro ls
  induction ls using List.reverseRecOn with
  | nil => intro w h; simp only [exec, Except.ok.injEq] at h; rw [← h]; simp [PhinsState.init]
  | append_singleton hist l ih =>
    intro w h
    obtain ⟨q, r, hq, hr, rfl⟩ := exec_snoc c _ _ _ hist l w h
    have := ih q hq
    simp only [phinsStep, bind, Except.bind] at hr
    split at hr
    · simp at hr
    rename_i s1 h1
    have e1 := setTime_eq c _ _ _ h1
    have e2 : s1.rp = q.1.rp ∧ s1.yaw = q.1.yaw := by rw [e1]; exact ⟨rfl, rfl⟩
    rw [exportOr_ok _ _ _ hr]
    rw [← e2.1, ← e2.2] at this
    have hex : ∀ s : PhinsState α, (exportOrient s).2.toList.length + (exportOrient s).1.rp.toList.length = s.rp.toList.length ∧
        (exportOrient s).2.toList.length + (exportOrient s).1.yaw.toList.length = s.yaw.toList.length := by
      intro s
      unfold exportOrient
      split <;> simp_all
    have hx := hex (phinsOrient c s1 l)
    have ho : (phinsOrient c s1 l).rp.toList.length ≤ s1.rp.toList.length + [l].countP isAttitude ∧
        (phinsOrient c s1 l).yaw.toList.length ≤ s1.yaw.toList.length + [l].countP isHeading := by
      cases l <;> simp only [phinsOrient] <;> (try split) <;> simp_all [isAttitude, isHeading]
    simp only [List.length_append, List.countP_append]
    omega

/-- C178: if a heading line is lost (its check sum is wrong), the attitude is combined with the next heading, and the heading offset is not applied. -/
theorem C178_lost_heading_false : ¬ ∀ (c : PhinsCfg ℚ) (t : List Char) (e r p h2 : ℚ), phinsTimeLine c.clock t = .ok (some e) →
    phinsRun c .orientation false .init [.time t, .attitudeStd 0 0 0, .attitude r p, .heading h2] = .ok [] := by
  intro h
  have := h exCfg "120000.000".toList 1588334400 1 2 30 (by decide +kernel)
  revert this
  decide +kernel

/-! ## C179, C180, C181: velocities, depths and altitudes -/

private theorem per_line (c : PhinsCfg α) (cat : PhinsCat) (p : PhinsRecord α → Bool) (f : List (PhinsLine α) → PhinsLine α → List (PhinsRecord α))
    (Inv : List (PhinsLine α) → PhinsState α → Prop) (P : List (PhinsLine α) → PhinsLine α → Prop)
    (hstep : ∀ hist l s r, Inv hist s → P hist l → phinsStep c cat false s l = .ok r → Inv (hist ++ [l]) r.1 ∧ r.2.toList.filter p = f hist l) :
    ∀ (ls hist : List (PhinsLine α)) (s s' : PhinsState α) (out : List (PhinsRecord α)), Inv hist s →
      (∀ a l rest, ls = a ++ l :: rest → P (hist ++ a) l) → exec c cat false s ls = .ok (s', out) → out.filter p = perLine f hist ls
  | [], hist, s, s', out, _, _, h => by
    simp only [exec, Except.ok.injEq, Prod.mk.injEq] at h
    rw [← h.2]; rfl
  | l :: ls, hist, s, s', out, hI, hP, h => by
    simp only [exec, bind, Except.bind] at h
    split at h
    · simp at h
    rename_i r hr
    split at h
    · simp at h
    rename_i q hq
    have h' := (Prod.mk.inj (Except.ok.inj h)).2
    have hp := hP [] l ls rfl
    rw [List.append_nil] at hp
    obtain ⟨i1, i2⟩ := hstep hist l s r hI hp hr
    have := per_line c cat p f Inv P hstep ls (hist ++ [l]) r.1 q.1 q.2 i1 (fun a m rest hm => by
      have := hP (l :: a) m rest (by rw [hm]; rfl)
      simpa using this) hq
    rw [← h', List.filter_append, i2, this, perLine]

private theorem per_line_init (c : PhinsCfg α) (cat : PhinsCat) (p : PhinsRecord α → Bool) (f : List (PhinsLine α) → PhinsLine α → List (PhinsRecord α))
    (Inv : List (PhinsLine α) → PhinsState α → Prop) (P : List (PhinsLine α) → PhinsLine α → Prop)
    (hstep : ∀ hist l s r, s.time = lastTime (rdTime c) hist → Inv hist s → P hist l → phinsStep c cat false s l = .ok r →
      Inv (hist ++ [l]) r.1 ∧ r.2.toList.filter p = f hist l)
    (h0 : Inv [] .init) (lines : List (PhinsLine α)) (out : List (PhinsRecord α)) (hP : EveryLine P lines) (h : phinsRun c cat false .init lines = .ok out) :
    out.filter p = perLine f [] lines := by
  obtain ⟨s', hs'⟩ := run_ok c _ _ _ _ _ h
  refine per_line c cat p f (fun hist s => s.time = lastTime (rdTime c) hist ∧ Inv hist s) P ?_ lines [] .init s' out ⟨rfl, h0⟩
    (fun a l rest e => by rw [List.nil_append]; exact hP a l rest e) hs'
  intro hist l s r hI hp hr
  obtain ⟨a, b⟩ := hstep hist l s r hI.1 hI.2 hp hr
  refine ⟨⟨?_, a⟩, b⟩
  rw [lastTime_snoc, (step_time c cat false s l r hr).1, hI.1]
  cases l <;> rfl

private theorem filter_all {β : Type} (l : List β) : l.filter (fun _ => true) = l := by simp

/-- C179: body velocities: exactly the DVL lines with a readable time after a readable time line give a record, in order, each with its own velocity and
times. -/
theorem C179_body (c : PhinsCfg α) (lines : List (PhinsLine α)) (out : List (PhinsRecord α)) (h : phinsRun c .velocity false .init lines = .ok out) :
    out.filter isBody = perLine (dvlRecord (fun s => readTime (phinsTimeLine c.clock s)) (fun s => readTime (c.clock s)) c.body) [] lines := by
  refine per_line_init c .velocity isBody _ (fun _ _ => True) (fun _ _ => True) ?_ trivial lines out (fun _ _ _ _ => trivial) h
  intro hist l s r ht _ _ hr
  refine ⟨trivial, ?_⟩
  simp only [phinsStep, bind, Except.bind] at hr
  split at hr
  · simp at hr
  rename_i s1 h1
  have e1 := setTime_eq c _ _ _ h1
  simp only [Bool.false_eq_true, if_false] at hr
  split at hr
  · simp at hr
  rename_i w hw
  rw [← Except.ok.inj hr]
  cases l <;> simp only [phinsVelocityPart, bind, Except.bind, Bool.false_eq_true, if_false] at hw
  case dvl v x =>
    split at hw
    · simp at hw
    rename_i s2 h2
    obtain ⟨t, ht2, e⟩ := dvl_ok c _ _ _ _ h2
    rw [← Except.ok.inj hw]
    have e3 : s2.time = lastTime (rdTime c) hist := by rw [e, e1, ← ht]; rfl
    have e4 : s2.v = some (c.body v) ∧ s2.tDvl = t := by rw [e]; exact ⟨rfl, rfl⟩
    have e5 : readTime (c.clock x) = t := by rw [ht2]; rfl
    simp only [exportBody, e3, e4.1, e4.2, dvlRecord, e5]
    change _ = match lastTime (rdTime c) hist, t with | some t, some td => [PhinsRecord.body t td (c.body v)] | _, _ => []
    cases lastTime (rdTime c) hist <;> cases t <;> simp [isBody]
  case vel v =>
    rw [← Except.ok.inj hw]; simp only [exportInertial, dvlRecord]; split <;> simp [isBody]
  case velStd v =>
    rw [← Except.ok.inj hw]; simp only [exportInertial, dvlRecord]; split <;> simp [isBody]
  all_goals (rw [← Except.ok.inj hw]; simp [dvlRecord])

/-- C179 (partial): inertial velocities: every velocity line after a readable time line gives a record with its own velocity, and with the standard
deviation read since the velocity line before, not its own. Missing: velocity lines without a readable time before them, and their own standard
deviation. -/
theorem C179_inertial_partial (c : PhinsCfg α) (lines : List (PhinsLine α)) (out : List (PhinsRecord α)) (h : phinsRun c .velocity false .init lines = .ok out)
    (hk : EveryLine (fun hist l => (∃ v, l = .vel v) → lastTime (fun s => readTime (phinsTimeLine c.clock s)) hist ≠ none) lines) :
    out.filter isInertial = perLine (velRecord (fun s => readTime (phinsTimeLine c.clock s)) c.vel) [] lines := by
  refine per_line_init c .velocity isInertial _ (fun hist s => s.ve = none ∧ s.veStd = (stdSinceVel hist).map c.vel) _ ?_ ⟨rfl, rfl⟩ lines out hk h
  intro hist l s r ht ⟨i1, i2⟩ hp hr
  simp only [phinsStep, bind, Except.bind] at hr
  split at hr
  · simp at hr
  rename_i s1 h1
  have e1 := setTime_eq c _ _ _ h1
  simp only [Bool.false_eq_true, if_false] at hr
  split at hr
  · simp at hr
  rename_i w hw
  rw [← Except.ok.inj hr]
  have j1 : s1.ve = none := by rw [e1, ← i1]
  have j2 : s1.veStd = (stdSinceVel hist).map c.vel := by rw [e1, ← i2]
  cases l <;> simp only [phinsVelocityPart, bind, Except.bind, Bool.false_eq_true, if_false] at hw
  case dvl v x =>
    split at hw
    · simp at hw
    rename_i s2 h2
    obtain ⟨t, ht2, e⟩ := dvl_ok c _ _ _ _ h2
    rw [← Except.ok.inj hw]
    have k1 : (exportBody s2).1.ve = s2.ve ∧ (exportBody s2).1.veStd = s2.veStd ∧ (exportBody s2).2.toList.filter isInertial = [] := by
      unfold exportBody; split <;> simp [isInertial]
    refine ⟨⟨?_, ?_⟩, k1.2.2⟩
    · rw [k1.1, e]; exact j1
    · rw [k1.2.1, e]; simpa [stdSinceVel] using j2
  case vel v =>
    have e3 : s1.time = lastTime (rdTime c) hist := by rw [e1, ← ht]; rfl
    have hne := hp ⟨v, rfl⟩
    change lastTime (rdTime c) hist ≠ none at hne
    rw [← Except.ok.inj hw]
    cases hl : lastTime (rdTime c) hist with
    | none => exact absurd hl hne
    | some t =>
      simp only [exportInertial, e3, hl, j2]
      refine ⟨⟨trivial, by simp [stdSinceVel]⟩, ?_⟩
      change lastTime (fun s => readTime (phinsTimeLine c.clock s)) hist = some t at hl
      simp [velRecord, hl, isInertial]
  case velStd v =>
    rw [← Except.ok.inj hw]
    simp only [exportInertial, j1]
    exact ⟨⟨trivial, by simp [stdSinceVel]⟩, rfl⟩
  all_goals (rw [← Except.ok.inj hw]; refine ⟨⟨j1, ?_⟩, rfl⟩; simpa [stdSinceVel] using j2)

/-- What C179 asks for: a velocity is recorded with its own standard deviation, which PHINS sends after it. -/
def C179_full : Prop := ∀ (c : PhinsCfg ℚ) (t : List Char) (e : ℚ) (ks : List (V3 ℚ × V3 ℚ)), phinsTimeLine c.clock t = .ok (some e) →
  phinsRun c .velocity false .init (.time t :: ks.flatMap fun k => [.vel k.1, .velStd k.2]) = .ok (ks.map fun k => .inertial e (c.vel k.1) (some (c.vel k.2)))

/-- C179 fails: the first velocity has none. -/
theorem C179_own_std_false : ¬ C179_full := by
  intro h
  have := h exCfg "120000.000".toList 1588334400 [(⟨1, 0, 0⟩, ⟨2, 0, 0⟩), (⟨3, 0, 0⟩, ⟨4, 0, 0⟩)] (by decide +kernel)
  revert this
  decide +kernel

example : phinsRun exCfg .velocity false .init [.time "120000.000".toList, .vel ⟨1, 0, 0⟩, .velStd ⟨2, 0, 0⟩, .dvl ⟨5, 6, 7⟩ "120000.250".toList,
      .dvl ⟨8, 9, 10⟩ "120060.000".toList, .vel ⟨3, 0, 0⟩] =
    .ok [.inertial 1588334400 ⟨1, 0, 0⟩ none, .body 1588334400 (1588334400 + 1 / 4) ⟨5, 6, 7⟩, .inertial 1588334400 ⟨3, 0, 0⟩ (some ⟨2, 0, 0⟩)] := by
  decide +kernel

/-- What C180 asks for: a depth is recorded with its own time. -/
def C180_full : Prop := ∀ (c : PhinsCfg ℚ) (lines : List (PhinsLine ℚ)) (out : List (PhinsRecord ℚ)), phinsRun c .depth false .init lines = .ok out →
  out = perLine (depthRecord (fun s => readTime (phinsTimeLine c.clock s)) (fun s => readTime (c.clock s))) [] lines

/-- C180 fails: a depth whose own time cannot be read is recorded with the time of an earlier one that was not recorded. -/
theorem C180_own_time_false : ¬ C180_full := by
  intro h
  have := h exCfg [.depth 5 "115959.000".toList, .time "120000.000".toList, .depth 6 "120060.000".toList] [.depth 1588334400 1588334399 6] (by decide +kernel)
  revert this
  decide +kernel

/-- C180 (partial): depths with readable times: every depth line after a readable time line gives a record with its own depth and times. Missing: depth
lines with an unreadable time. -/
theorem C180_depth_partial (c : PhinsCfg α) (lines : List (PhinsLine α)) (out : List (PhinsRecord α)) (h : phinsRun c .depth false .init lines = .ok out)
    (hk : EveryLine (fun _ l => ∀ d x, l = .depth d x → readTime (c.clock x) ≠ none) lines) :
    out = perLine (depthRecord (fun s => readTime (phinsTimeLine c.clock s)) (fun s => readTime (c.clock s))) [] lines := by
  rw [← filter_all out]
  refine per_line_init c .depth _ _ (fun _ _ => True) _ ?_ trivial lines out hk h
  intro hist l s r ht _ hp hr
  refine ⟨trivial, ?_⟩
  simp only [phinsStep, bind, Except.bind] at hr
  split at hr
  · simp at hr
  rename_i s1 h1
  have e1 := setTime_eq c _ _ _ h1
  cases l with
  | depth d x =>
    simp only at hr
    split at hr
    · simp at hr
    rename_i s2 h2
    obtain ⟨t, ht2, e⟩ := depth_ok c _ _ _ _ h2
    rw [exportOr_ok _ _ _ hr]
    have hne := hp d x rfl
    have e5 : readTime (c.clock x) = t := by rw [ht2]; rfl
    rw [e5] at hne
    have e3 : s2.time = lastTime (rdTime c) hist := by rw [e, e1, ← ht]; rfl
    cases t with
    | none => exact absurd rfl hne
    | some td =>
      have e4 : s2.d = some d ∧ s2.tDepth = some td := by rw [e]; exact ⟨rfl, rfl⟩
      simp only [exportDepth, e3, e4.1, e4.2, depthRecord, e5]
      change _ = match lastTime (rdTime c) hist, some td with | some t, some td => [PhinsRecord.depth t td d] | _, _ => []
      cases lastTime (rdTime c) hist <;> simp
  | _ => rw [← Except.ok.inj hr]; simp [depthRecord]

/-- What C181 asks for: exactly the altitude lines for which both times are known give a record. -/
def C181_full : Prop := ∀ (c : PhinsCfg ℚ) (lines : List (PhinsLine ℚ)) (out : List (PhinsRecord ℚ)), phinsRun c .altitude false .init lines = .ok out →
  out = perLine (altitudeRecord (fun s => readTime (phinsTimeLine c.clock s)) (fun s => readTime (c.clock s))) [] lines

/-- C181 fails: an altitude read before the first time line is recorded at the next DVL line, with a time after it. -/
theorem C181_late_false : ¬ C181_full := by
  intro h
  have := h exCfg [.dvl ⟨1, 0, 0⟩ "115959.000".toList, .altitude 1500 0 9, .time "120000.000".toList, .dvl ⟨1, 0, 0⟩ "120000.500".toList]
    [.altitude 1588334400 1588334399 1500 0 9] (by decide +kernel)
  revert this
  decide +kernel

/-- C181 (partial): every altitude line after a readable time line and a DVL line with a readable time gives a record with its own altitude, and the time
of this DVL line. Missing: other altitude lines. -/
theorem C181_altitude_partial (c : PhinsCfg α) (lines : List (PhinsLine α)) (out : List (PhinsRecord α)) (h : phinsRun c .altitude false .init lines = .ok out)
    (hk : EveryLine (fun hist l => (∃ s k a, l = .altitude s k a) → lastTime (fun s => readTime (phinsTimeLine c.clock s)) hist ≠ none ∧
      ((lastDvl hist).bind fun x => readTime (c.clock x.2)) ≠ none) lines) :
    out = perLine (altitudeRecord (fun s => readTime (phinsTimeLine c.clock s)) (fun s => readTime (c.clock s))) [] lines := by
  rw [← filter_all out]
  refine per_line_init c .altitude _ _ (fun hist s => s.alt = none ∧ s.tDvl = (lastDvl hist).bind fun x => readTime (c.clock x.2)) _ ?_ ⟨rfl, rfl⟩ lines out hk h
  intro hist l s r ht ⟨i1, i2⟩ hp hr
  simp only [phinsStep, bind, Except.bind] at hr
  split at hr
  · simp at hr
  rename_i s1 h1
  have e1 := setTime_eq c _ _ _ h1
  have j1 : s1.alt = none := by rw [e1, ← i1]
  have j2 : s1.tDvl = (lastDvl hist).bind fun x => readTime (c.clock x.2) := by rw [e1, ← i2]
  cases l with
  | altitude sv k a =>
    simp only at hr
    rw [exportOr_ok _ _ _ hr]
    obtain ⟨h2, h3⟩ := hp ⟨sv, k, a, rfl⟩
    have e3 : s1.time = lastTime (fun s => readTime (phinsTimeLine c.clock s)) hist := by rw [e1]; exact ht
    simp only [exportAltitude, phinsAltitude, e3, j2, altitudeRecord]
    cases h4 : lastTime (fun s => readTime (phinsTimeLine c.clock s)) hist with
    | none => exact absurd h4 h2
    | some t =>
      cases h5 : (lastDvl hist).bind fun x => readTime (c.clock x.2) with
      | none => exact absurd h5 h3
      | some td =>
        refine ⟨⟨rfl, ?_⟩, by simp⟩
        simpa [lastDvl] using h5.symm
  | dvl v x =>
    simp only at hr
    split at hr
    · simp at hr
    rename_i s2 h2
    obtain ⟨t, ht2, e⟩ := dvl_ok c _ _ _ _ h2
    rw [exportOr_ok _ _ _ hr]
    have e4 : s2.alt = none ∧ s2.tDvl = t := by rw [e]; exact ⟨j1, rfl⟩
    simp only [exportAltitude, e4.1]
    refine ⟨⟨trivial, ?_⟩, by simp [altitudeRecord]⟩
    rw [e4.2]; simp [lastDvl, ht2, readTime]
  | _ => 
    rw [← Except.ok.inj hr]
    exact ⟨⟨j1, by rw [j2]; simp [lastDvl]⟩, by simp [altitudeRecord]⟩

/-! ## C182 acfr format -/

/-- What C182 asks for: logs can be converted to the acfr format whenever they can be to the oplab format. -/
def C182_full : Prop := ∀ (c : PhinsCfg ℚ) (cat : PhinsCat) (lines : List (PhinsLine ℚ)) (out : List (PhinsRecord ℚ)),
  phinsRun c cat false .init lines = .ok out → ∃ out', phinsRun c cat true .init lines = .ok out'

/-- C182 fails: the first depth stops the parser. -/
theorem C182_depth_false : ¬ C182_full := by
  intro h
  obtain ⟨o, ho⟩ := h exCfg .depth [.time "120000.000".toList, .depth 5 "120000.000".toList] [.depth 1588334400 1588334400 5] (by decide +kernel)
  have : (phinsRun exCfg .depth true .init [.time "120000.000".toList, .depth 5 "120000.000".toList]).toOption = none := by decide +kernel
  rw [ho] at this
  simp [Except.toOption] at this

/-- C182 (partial): orientations, depths and altitudes can be converted exactly if there are none. Missing: any that are recorded. -/
theorem C182_empty_partial (c : PhinsCfg α) (cat : PhinsCat) (hc : cat ≠ .velocity) (lines out : _) :
    phinsRun c cat true .init lines = .ok out ↔ out = [] ∧ phinsRun c cat false .init lines = .ok [] := by
  suffices H : ∀ (lines : List (PhinsLine α)) (s : PhinsState α) (out : List (PhinsRecord α)),
      phinsRun c cat true s lines = .ok out ↔ out = [] ∧ phinsRun c cat false s lines = .ok [] from H lines _ out
  have hstep : ∀ (s : PhinsState α) (l : PhinsLine α), phinsStep c cat true s l =
      (phinsStep c cat false s l).bind fun r => if r.2.isSome then .error .attributeError else .ok r := by
    intro s l
    have hx : ∀ r : PhinsState α × Option (PhinsRecord α), exportOr true r = (exportOr false r).bind fun r => if r.2.isSome then .error .attributeError else .ok r := by
      intro r; cases hr : r.2 <;> simp [exportOr, hr, Except.bind]
    simp only [phinsStep, bind, Except.bind]
    cases phinsSetTime c s l with
    | error e => rfl
    | ok s1 =>
      cases cat with
      | velocity => exact absurd rfl hc
      | orientation => exact hx _
      | depth =>
        cases l with
        | depth d x => simp only; cases phinsDepth c s1 d x with
          | error e => rfl
          | ok s2 => exact hx _
        | _ => rfl
      | altitude =>
        cases l with
        | altitude sv k a => exact hx _
        | dvl v x => simp only; cases phinsDvl c s1 v x with
          | error e => rfl
          | ok s2 => exact hx _
        | _ => rfl
  intro lines
  induction lines with
  | nil => intro s out; simp [phinsRun, eq_comm]
  | cons l ls ih =>
    intro s out
    simp only [phinsRun, bind, Except.bind, hstep]
    cases phinsStep c cat false s l with
    | error e => simp
    | ok r =>
      simp only
      cases hr : r.2 with
      | some x =>
        simp only [Option.isSome_some, if_true, Option.toList]
        cases phinsRun c cat false r.1 ls <;> simp
      | none =>
        simp only [Option.isSome_none, Bool.false_eq_true, if_false, hr, Option.toList, List.nil_append]
        have := ih r.1 out
        cases h1 : phinsRun c cat true r.1 ls <;> cases h2 : phinsRun c cat false r.1 ls <;> simp_all

private theorem rdi_step (c : PhinsCfg α) (s : PhinsState α) (l : PhinsLine α) (r : PhinsState α × Option (PhinsRecord α)) :
    phinsStep c .velocity true s l = .ok r → ∃ s2 : PhinsState α, r = exportRdi s2 ∧ s2.rp = (phinsOrient c s l).rp ∧ s2.yaw = (phinsOrient c s l).yaw ∧
      (s2.v, s2.tDvl) = (match l with | .dvl v x => (some (c.body v), readTime (c.clock x)) | _ => (s.v, s.tDvl)) ∧
      s2.alt = (match l with | .altitude sv k a => some (sv, k, a) | _ => s.alt) := by
  intro hr
  simp only [phinsStep, bind, Except.bind] at hr
  split at hr
  · simp at hr
  rename_i s1 h1
  have e1 := setTime_eq c _ _ _ h1
  simp only [if_true] at hr
  split at hr
  · simp at hr
  rename_i w hw
  cases l <;> simp only [phinsVelocityPart, bind, Except.bind, if_true] at hw
  case dvl v x =>
    split at hw
    · simp at hw
    rename_i s2 h2
    obtain ⟨t, ht2, e⟩ := dvl_ok c _ _ _ _ h2
    have := Except.ok.inj hw
    refine ⟨_, (Except.ok.inj hr).symm, ?_⟩
    rw [← this, e, e1]
    simp [phinsOrient, ht2, readTime]
  all_goals
    have := Except.ok.inj hw
    refine ⟨_, (Except.ok.inj hr).symm, ?_⟩
    rw [← this, e1]
    simp [phinsOrient, phinsAltitude]
  split <;> simp

/-- C182: a line of the acfr format holds the velocity of the last DVL line with its time, and altitude and sound velocity of the last altitude line. -/
theorem C182_rdi_values (c : PhinsCfg α) (hist : List (PhinsLine α)) (l : PhinsLine α) (before : List (PhinsRecord α)) (r : PhinsRecord α)
    (h1 : phinsRun c .velocity true .init hist = .ok before) (h2 : phinsRun c .velocity true .init (hist ++ [l]) = .ok (before ++ [r])) :
    ∃ v x td a k sv o, lastDvl (hist ++ [l]) = some (v, x) ∧ readTime (c.clock x) = some td ∧ lastAltitude (hist ++ [l]) = some (sv, k, a) ∧
      r = .rdi td (c.body v) o a sv := by
  have hdvl : ∀ (hs : List (PhinsLine α)) (m : PhinsLine α), lastDvl (hs ++ [m]) = match m with | .dvl v x => some (v, x) | _ => lastDvl hs := by
    intro hs m; simp only [lastDvl, List.foldl_append, List.foldl_cons, List.foldl_nil]; cases m <;> rfl
  have halt : ∀ (hs : List (PhinsLine α)) (m : PhinsLine α), lastAltitude (hs ++ [m]) = match m with | .altitude s k a => some (s, k, a) | _ => lastAltitude hs := by
    intro hs m; simp only [lastAltitude, List.foldl_append, List.foldl_cons, List.foldl_nil]; cases m <;> rfl
  have hstate : ∀ (s s2 : PhinsState α) (hs : List (PhinsLine α)) (m : PhinsLine α),
      (s2.v, s2.tDvl) = (match m with | .dvl v x => (some (c.body v), readTime (c.clock x)) | _ => (s.v, s.tDvl)) →
      s2.alt = (match m with | .altitude sv k a => some (sv, k, a) | _ => s.alt) →
      (∀ v, s.v = some v → ∃ v0 x, lastDvl hs = some (v0, x) ∧ v = c.body v0 ∧ s.tDvl = readTime (c.clock x)) →
      (∀ a, s.alt = some a → lastAltitude hs = some a) →
      (∀ v, s2.v = some v → ∃ v0 x, lastDvl (hs ++ [m]) = some (v0, x) ∧ v = c.body v0 ∧ s2.tDvl = readTime (c.clock x)) ∧
      (∀ a, s2.alt = some a → lastAltitude (hs ++ [m]) = some a) := by
    intro s s2 hs m e1 e2 i1 i2
    rw [hdvl, halt]
    have e3 := congrArg Prod.fst e1
    have e4 := congrArg Prod.snd e1
    simp only at e3 e4
    refine ⟨fun v hv => ?_, fun a ha => ?_⟩
    · cases m <;> simp only at e3 e4 ⊢ <;> first | exact (by rw [e4]; exact i1 v (e3 ▸ hv)) | skip
      rw [e3] at hv
      exact ⟨_, _, rfl, (Option.some.inj hv).symm, e4⟩
    · cases m <;> simp only at e2 ⊢ <;> first | exact i2 a (e2 ▸ ha) | skip
      rw [e2] at ha; exact ha
  have hinv : ∀ (hs : List (PhinsLine α)) w, exec c .velocity true .init hs = .ok w →
      (∀ v, w.1.v = some v → ∃ v0 x, lastDvl hs = some (v0, x) ∧ v = c.body v0 ∧ w.1.tDvl = readTime (c.clock x)) ∧
      (∀ a, w.1.alt = some a → lastAltitude hs = some a) := by
    intro hs
    induction hs using List.reverseRecOn with
    | nil => intro w hw; simp only [exec, Except.ok.injEq] at hw; rw [← hw]; simp [PhinsState.init]
    | append_singleton hs m ih =>
      intro w hw
      obtain ⟨q, r', hq, hr', rfl⟩ := exec_snoc c _ _ _ hs m _ hw
      obtain ⟨s2, e, -, -, e1, e2⟩ := rdi_step c q.1 m r' hr'
      have := hstate q.1 s2 hs m e1 e2 (ih q hq).1 (ih q hq).2
      rw [e]
      unfold exportRdi
      split
      · simp
      · exact this
  obtain ⟨s', hs'⟩ := run_ok c _ _ _ _ _ h2
  obtain ⟨q, r', hq, hr', e⟩ := exec_snoc c _ _ _ hist l _ hs'
  have hb : q.2 = before := by
    rw [run_exec, hq] at h1
    exact Except.ok.inj h1
  have e2 := (Prod.mk.inj e).2
  rw [hb] at e2
  have e3 : r'.2 = some r := by
    have := List.append_cancel_left e2
    cases h3 : r'.2 with
    | none => rw [h3] at this; simp at this
    | some y => rw [h3] at this; simp at this; rw [this]
  obtain ⟨s2, ee, -, -, e4, e5⟩ := rdi_step c q.1 l r' hr'
  have hfin := hstate q.1 s2 hist l e4 e5 (hinv hist q hq).1 (hinv hist q hq).2
  rw [ee] at e3
  unfold exportRdi at e3
  split at e3
  · rename_i v t td sv k a ta rr pp y o hv ht htd ha hta hrp hy ho
    obtain ⟨v0, x, f1, f2, f3⟩ := hfin.1 v hv
    refine ⟨v0, x, td, a, k, sv, ⟨rr, pp, y⟩, f1, ?_, hfin.2 _ ha, ?_⟩
    · rw [← f3]; exact htd
    · rw [← f2]; exact (Option.some.inj e3).symm
  · simp at e3

example : phinsRun exCfg .velocity true .init [.time "120000.000".toList, .heading 30, .attitude 1 2, .attitudeStd 0 0 0, .dvl ⟨5, 6, 7⟩ "120000.250".toList,
      .altitude 1500 0 9, .altitude 1500 0 8] = .ok [.rdi (1588334400 + 1 / 4) ⟨5, 6, 7⟩ ⟨-1, -2, 30⟩ 9 1500] := by decide +kernel

end

end Oplab.Props
