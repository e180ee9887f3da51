import Mathlib.Tactic.Linarith
import Mathlib.Tactic.NormNum
import Mathlib.Tactic.Ring
import Mathlib.Tactic.FieldSimp
import Verif.Spec.Convert

namespace Oplab.Props
open Oplab Oplab.Spec

/-! ## C65: time stamps of GAPS fixes -/

private theorem epoch_ms (y mo d h mi s ms : Nat) (tz e0 : ℚ) (_ : ms < 1000)
    (h0 : dateTimeToEpoch ⟨y, mo, d, h, mi, s, ms * 1000⟩ tz = .ok e0) :
    h < 24 ∧ mi < 60 ∧ s < 60 ∧ ∃ e, dateTimeToEpoch ⟨y, mo, d, h, mi, s, 0⟩ tz = .ok e ∧ e0 = e + ms / 1000 := by
  simp only [dateTimeToEpoch] at h0
  split at h0
  · rename_i hok
    have hok' : (⟨y, mo, d, h, mi, s, 0⟩ : DateTime).ok = true := by
      simp only [DateTime.ok, decide_eq_true_eq] at hok ⊢; omega
    have hr : h < 24 ∧ mi < 60 ∧ s < 60 := by
      simp only [DateTime.ok, decide_eq_true_eq] at hok; omega
    simp only [Except.ok.injEq] at h0
    refine ⟨hr.1, hr.2.1, hr.2.2, _, by simp only [dateTimeToEpoch, hok', if_true]; rfl, ?_⟩
    rw [← h0]
    simp only [DateTime.seconds]
    push_cast
    ring
  · cases h0

private theorem gapsEpoch_states (tz off : ℚ) (t : GapsTime) (e : ℚ) (r : GapsRegs) (d : Nat × Nat × Nat)
    (hd : t.date = some d) (h : StatesTime tz off t e) (hr : r.hour = t.hour ∧ r.mins = t.mins ∧ r.secs = t.secs ∧ r.msec = t.msec) :
    ∃ r', gapsEpoch tz off d r = .ok (r', e) := by
  obtain ⟨y, mo, dd, hh, mi, s, ms, e0, rfl, hms, h0, rfl⟩ := h
  simp only [Option.some.injEq] at hd
  subst hd
  obtain ⟨r1, r2, r3, e1, h1, h2⟩ := epoch_ms _ _ _ _ _ _ _ _ _ hms h0
  obtain ⟨a, b, c, dd⟩ := r
  simp only at hr
  obtain ⟨rfl, rfl, rfl, rfl⟩ := hr
  refine ⟨⟨some hh, some mi, some s, some ms⟩, ?_⟩
  simp only [gapsEpoch, if_neg (Nat.not_le.mpr r3), if_neg (Nat.not_le.mpr r2), if_neg (Nat.not_le.mpr r1), h1, h2]

private theorem read_states (tz off : ℚ) (t : GapsTime) (e : ℚ) (r : GapsRegs) (h : StatesTime tz off t e) :
    (r.read t).hour = t.hour ∧ (r.read t).mins = t.mins ∧ (r.read t).secs = t.secs ∧ (r.read t).msec = t.msec := by
  obtain ⟨y, mo, dd, hh, mi, s, ms, e0, rfl, _⟩ := h
  simp [GapsRegs.read]

/-- The value `e` taken for a telegram with time fields `t` is the time it states, if it states one. -/
private def Right (tz off : ℚ) (t : GapsTime) (e : ℚ) : Prop := ∀ e', StatesTime tz off t e' → e = e'

private structure TimeInv (tz off : ℚ) (log : List GapsTLine) (s : GapsTState) : Prop where
  target : ∀ k, s.base.target = some k → ∃ t e, log[k]? = some (.target true t) ∧ s.tTarget = some e ∧ Right tz off t e
  prior : ∀ k, s.base.priorShip = some k → ∃ t e, log[k]? = some (.ship t) ∧ s.tPrior = some e ∧ Right tz off t e
  post : ∀ k, s.base.postShip = some k → ∃ t e, log[k]? = some (.ship t) ∧ s.tPost = some e ∧ Right tz off t e

private theorem right_target (tz off : ℚ) (r r' : GapsRegs) (t : GapsTime) (d : Nat × Nat × Nat) (e : ℚ)
    (hd : t.date = some d) (h : gapsEpoch tz off d (r.read t) = .ok (r', e)) : Right tz off t e := by
  intro e' he
  obtain ⟨r2, h2⟩ := gapsEpoch_states tz off t e' (r.read t) d hd he (read_states tz off t e' r he)
  rw [h] at h2
  simp only [Except.ok.injEq, Prod.mk.injEq] at h2
  exact h2.2

private theorem right_prior (tz off : ℚ) (r r' : GapsRegs) (t : GapsTime) (e : ℚ)
    (h : gapsShipPrior tz off r t = .ok (r', e)) : Right tz off t e := by
  intro e' he
  obtain ⟨y, mo, dd, hh, mi, s, ms, e0, rfl, rest⟩ := he
  simp only [gapsShipPrior] at h
  obtain ⟨r2, h2⟩ := gapsEpoch_states tz off ⟨some (y, mo, dd), some hh, some mi, some s, some ms⟩ e'
    ⟨some hh, some mi, some s, some ms⟩ (y, mo, dd) rfl ⟨y, mo, dd, hh, mi, s, ms, e0, rfl, rest⟩ ⟨rfl, rfl, rfl, rfl⟩
  rw [h] at h2
  simp only [Except.ok.injEq, Prod.mk.injEq] at h2
  exact h2.2

private theorem right_post (tz off : ℚ) (r' : GapsRegs) (t : GapsTime) (e : ℚ)
    (h : gapsShipPost tz off t = .ok (r', e)) : Right tz off t e := by
  intro e' he
  obtain ⟨y, mo, dd, hh, mi, s, ms, e0, rfl, hms, h0, rfl⟩ := he
  obtain ⟨_, _, _, e1, h1, h2⟩ := epoch_ms _ _ _ _ _ _ _ _ _ hms h0
  simp only [gapsShipPost, h1, Except.ok.injEq, Prod.mk.injEq] at h
  rw [← h.2, h2]

private theorem inv_read (tz off : ℚ) (log : List GapsTLine) (s s' : GapsTState) (i : Nat) (l : GapsTLine)
    (hl : log[i]? = some l) (h : gapsTRead tz off s i l = .ok s') (inv : TimeInv tz off log s) : TimeInv tz off log s' := by
  obtain ⟨it, ip, iq⟩ := inv
  cases l with
  | heading =>
    simp only [gapsTRead, GapsTLine.kind, gapsRead, Except.ok.injEq] at h
    subst h
    split <;> exact ⟨it, ip, iq⟩
  | other =>
    simp only [gapsTRead, GapsTLine.kind, gapsRead, Except.ok.injEq] at h
    subst h
    exact ⟨it, ip, iq⟩
  | target v t =>
    cases v with
    | false =>
      simp only [gapsTRead, GapsTLine.kind, gapsRead, Except.ok.injEq] at h
      subst h
      split <;> exact ⟨it, ip, iq⟩
    | true =>
      simp only [gapsTRead, GapsTLine.kind, gapsRead] at h
      by_cases hf : s.base.flag = 2
      · simp only [hf, if_true] at h
        cases hd : t.date with
        | none => simp [hd] at h
        | some d =>
          simp only [hd] at h
          cases he : gapsEpoch tz off d (s.regs.read t) with
          | error x => rw [he] at h; cases h
          | ok re =>
            rw [he] at h
            simp only [bind, Except.bind, Except.ok.injEq] at h
            subst h
            refine ⟨fun k hk => ?_, ip, iq⟩
            simp only [Option.some.injEq] at hk
            subst hk
            exact ⟨t, re.2, hl, rfl, right_target tz off _ re.1 t d re.2 hd he⟩
      · simp only [hf, if_false, Except.ok.injEq] at h
        subst h
        exact ⟨it, ip, iq⟩
  | ship t =>
    simp only [gapsTRead, GapsTLine.kind, gapsRead] at h
    by_cases hf : s.base.flag < 3
    · simp only [hf, if_true] at h
      cases he : gapsShipPrior tz off s.regs t with
      | error x => rw [he] at h; cases h
      | ok re =>
        rw [he] at h
        simp only [bind, Except.bind, Except.ok.injEq] at h
        subst h
        refine ⟨it, fun k hk => ?_, iq⟩
        simp only [Option.some.injEq] at hk
        subst hk
        exact ⟨t, re.2, hl, rfl, right_prior tz off _ re.1 t re.2 he⟩
    · simp only [hf, if_false] at h
      cases he : gapsShipPost tz off t with
      | error x => rw [he] at h; cases h
      | ok re =>
        rw [he] at h
        simp only [bind, Except.bind, Except.ok.injEq] at h
        subst h
        refine ⟨it, ip, fun k hk => ?_⟩
        simp only [Option.some.injEq] at hk
        subst hk
        exact ⟨t, re.2, hl, rfl, right_post tz off re.1 t re.2 he⟩

private theorem emit_spec (s s' : GapsTState) (i : Nat) (out : List GapsTFix) (h : gapsTEmit s i = .ok (s', out)) :
    (s'.base.target = s.base.target ∧ s'.base.priorShip = s.base.priorShip ∧ s'.base.postShip = s.base.postShip ∧
      s'.tTarget = s.tTarget ∧ s'.tPrior = s.tPrior ∧ s'.tPost = s.tPost) ∧
    ∀ f ∈ out, s.base.target = some f.fix.target ∧ s.base.priorShip = some f.fix.priorShip ∧
      s.base.postShip = some f.fix.postShip ∧ s.tTarget = some f.time ∧ s.tPrior = some f.prior ∧ s.tPost = some f.post := by
  simp only [gapsTEmit, gapsEmit] at h
  by_cases hf : 5 ≤ s.base.flag
  · simp only [hf, if_true] at h
    cases h1 : s.base.priorShip with
    | none => simp [h1, bind, Except.bind] at h
    | some a =>
    cases h2 : s.base.priorHeading with
    | none => simp [h1, h2, bind, Except.bind] at h
    | some b =>
    cases h3 : s.base.target with
    | none => simp [h1, h2, h3, bind, Except.bind] at h
    | some c =>
    cases h4 : s.base.postShip with
    | none => simp [h1, h2, h3, h4, bind, Except.bind] at h
    | some d =>
    cases h5 : s.base.postHeading with
    | none => simp [h1, h2, h3, h4, h5, bind, Except.bind] at h
    | some e =>
    simp only [h1, h2, h3, h4, h5, bind, Except.bind] at h
    cases t1 : s.tTarget with
    | none => simp [t1] at h
    | some x =>
    cases t2 : s.tPrior with
    | none => simp [t1, t2] at h
    | some y =>
    cases t3 : s.tPost with
    | none => simp [t1, t2, t3] at h
    | some z =>
    simp only [t1, t2, t3] at h
    split at h
    · cases h
    · simp only [Except.ok.injEq, Prod.mk.injEq] at h
      obtain ⟨rfl, rfl⟩ := h
      simp
  · simp only [hf, if_false, bind, Except.bind, Except.ok.injEq, Prod.mk.injEq] at h
    obtain ⟨rfl, rfl⟩ := h
    simp

private theorem run_spec (tz off : ℚ) (log : List GapsTLine) (ls : List GapsTLine) : ∀ (s : GapsTState) (i : Nat)
    (fixes : List GapsTFix), log.drop i = ls → TimeInv tz off log s → gapsTRun tz off s i ls = .ok fixes →
    ∀ f ∈ fixes, (∃ t, log[f.fix.target]? = some (.target true t) ∧ Right tz off t f.time) ∧
      (∃ t, log[f.fix.priorShip]? = some (.ship t) ∧ Right tz off t f.prior) ∧
      (∃ t, log[f.fix.postShip]? = some (.ship t) ∧ Right tz off t f.post) := by
  induction ls with
  | nil =>
    intro s i fixes _ _ h f hf
    simp only [gapsTRun, Except.ok.injEq] at h
    subst h; cases hf
  | cons l ls ih =>
    intro s i fixes hdrop inv h f hf
    have hl : log[i]? = some l := by
      have := congrArg List.head? hdrop
      simpa [List.head?_drop] using this
    have hdrop' : log.drop (i + 1) = ls := by
      have := congrArg List.tail hdrop
      simpa [List.tail_drop] using this
    simp only [gapsTRun] at h
    cases h1 : gapsTRead tz off s i l with
    | error x => rw [h1] at h; cases h
    | ok s1 =>
    rw [h1] at h
    simp only [bind, Except.bind] at h
    cases h2 : gapsTEmit s1 i with
    | error x => rw [h2] at h; cases h
    | ok so =>
    obtain ⟨s2, out⟩ := so
    rw [h2] at h
    simp only at h
    cases h3 : gapsTRun tz off s2 (i + 1) ls with
    | error x => rw [h3] at h; cases h
    | ok rest =>
    rw [h3] at h
    simp only [Except.ok.injEq] at h
    subst h
    have inv1 := inv_read tz off log s s1 i l hl h1 inv
    obtain ⟨⟨e1, e2, e3, e4, e5, e6⟩, hout⟩ := emit_spec s1 s2 i out h2
    have inv2 : TimeInv tz off log s2 :=
      ⟨by rw [e1, e4]; exact inv1.target, by rw [e2, e5]; exact inv1.prior, by rw [e3, e6]; exact inv1.post⟩
    rcases List.mem_append.mp hf with hf | hf
    · obtain ⟨a1, a2, a3, a4, a5, a6⟩ := hout f hf
      obtain ⟨t, e, b1, b2, b3⟩ := inv1.target _ a1
      obtain ⟨t', e', c1, c2, c3⟩ := inv1.prior _ a2
      obtain ⟨t'', e'', d1, d2, d3⟩ := inv1.post _ a3
      rw [a4] at b2; rw [a5] at c2; rw [a6] at d2
      cases b2; cases c2; cases d2
      exact ⟨⟨t, b1, b3⟩, ⟨t', c1, c3⟩, ⟨t'', d1, d3⟩⟩
    · exact ih s2 (i + 1) rest hdrop' inv2 h3 f hf

/-- C65 (partial): every fix carries the time of the telegram of the beacon it was read from, and is interpolated between
the times of the two ship telegrams it was read from, whenever these telegrams state a valid time; the other lines of the
log may be anything. Missing: a telegram with an unreadable time gives no fix (see `C65_stale_time_false`). -/
theorem C65_time_partial (tz off : ℚ) (log : List GapsTLine) (fixes : List GapsTFix)
    (h : parseGapsT tz off log = .ok fixes) (f : GapsTFix) (hf : f ∈ fixes) :
    (∃ t, log[f.fix.target]? = some (.target true t) ∧ ∀ e, StatesTime tz off t e → f.time = e) ∧
    (∃ t, log[f.fix.priorShip]? = some (.ship t) ∧ ∀ e, StatesTime tz off t e → f.prior = e) ∧
    (∃ t, log[f.fix.postShip]? = some (.ship t) ∧ ∀ e, StatesTime tz off t e → f.post = e) :=
  run_spec tz off log log {} 0 fixes rfl
    ⟨fun k hk => (by cases hk), fun k hk => (by cases hk), fun k hk => (by cases hk)⟩ h f hf

private theorem prior_states (tz off : ℚ) (r : GapsRegs) (t : GapsTime) (e : ℚ) (h : StatesTime tz off t e) :
    ∃ r', gapsShipPrior tz off r t = .ok (r', e) := by
  obtain ⟨y, mo, dd, hh, mi, s, ms, e0, rfl, rest⟩ := h
  exact gapsEpoch_states tz off ⟨some (y, mo, dd), some hh, some mi, some s, some ms⟩ e
    ⟨some hh, some mi, some s, some ms⟩ (y, mo, dd) rfl ⟨y, mo, dd, hh, mi, s, ms, e0, rfl, rest⟩ ⟨rfl, rfl, rfl, rfl⟩

private theorem post_states (tz off : ℚ) (t : GapsTime) (e : ℚ) (h : StatesTime tz off t e) :
    ∃ r', gapsShipPost tz off t = .ok (r', e) := by
  obtain ⟨y, mo, dd, hh, mi, s, ms, e0, rfl, hms, h0, rfl⟩ := h
  obtain ⟨_, _, _, e1, h1, h2⟩ := epoch_ms _ _ _ _ _ _ _ _ _ hms h0
  exact ⟨⟨some hh, some mi, some s, some ms⟩, by simp only [gapsShipPost, h1, h2]⟩

private theorem target_states (tz off : ℚ) (r : GapsRegs) (t : GapsTime) (e : ℚ) (h : StatesTime tz off t e) :
    ∃ d r', t.date = some d ∧ gapsEpoch tz off d (r.read t) = .ok (r', e) := by
  have hd : ∃ d, t.date = some d := by obtain ⟨y, mo, dd, hh, mi, s, ms, e0, rfl, _⟩ := h; exact ⟨_, rfl⟩
  obtain ⟨d, hd⟩ := hd
  obtain ⟨r', hr⟩ := gapsEpoch_states tz off t e (r.read t) d hd h (read_states tz off t e r h)
  exact ⟨d, r', hd, hr⟩

/-- C65: nothing is lost: a log of complete cycles (ship, heading, beacon, ship, heading), with telegrams that state their
times, gives one fix per cycle, in order, with the times stated, as long as no two ship telegrams of a cycle state the
same time. -/
theorem C65_complete_cycles (tz off : ℚ) (cycles : List (GapsTime × GapsTime × GapsTime)) (times : List (ℚ × ℚ × ℚ))
    (h : List.Forall₂ (fun c e => StatesTime tz off c.1 e.1 ∧ StatesTime tz off c.2.1 e.2.1 ∧
      StatesTime tz off c.2.2 e.2.2 ∧ e.1 ≠ e.2.2) cycles times) :
    ∃ fixes, parseGapsT tz off (cycles.flatMap fun c =>
        [.ship c.1, .heading, .target true c.2.1, .ship c.2.2, .heading]) = .ok fixes ∧
      fixes.map (fun f => (f.prior, f.time, f.post)) = times := by
  suffices H : ∀ (s : GapsTState) (i : Nat), s.base.flag = 0 →
      ∃ fixes, gapsTRun tz off s i (cycles.flatMap fun c =>
        [.ship c.1, .heading, .target true c.2.1, .ship c.2.2, .heading]) = .ok fixes ∧
      fixes.map (fun f => (f.prior, f.time, f.post)) = times from H {} 0 rfl
  induction h with
  | nil => intro s i _; exact ⟨[], rfl, rfl⟩
  | @cons c e cs es hc _ ih =>
    intro s i hs
    obtain ⟨h1, h2, h3, h4⟩ := hc
    obtain ⟨⟨fl, a1, a2, a3, a4, a5⟩, regs, t1, t2, t3⟩ := s
    simp only at hs
    subst hs
    obtain ⟨r1, e1⟩ := prior_states tz off regs _ _ h1
    obtain ⟨d, r2, hd, e2⟩ := target_states tz off r1 _ _ h2
    obtain ⟨r3, e3⟩ := post_states tz off _ _ h3
    have hne : ¬ e.2.2 - e.1 = 0 := fun hh => h4 (by linarith)
    obtain ⟨fixes, f1, f2⟩ := ih ⟨⟨0, some i, some (i + 1), some (i + 1 + 1), some (i + 1 + 1 + 1),
      some (i + 1 + 1 + 1 + 1)⟩, r3, some e.2.1, some e.1, some e.2.2⟩ (i + 1 + 1 + 1 + 1 + 1) rfl
    refine ⟨⟨⟨i, i + 1, i + 1 + 1, i + 1 + 1 + 1, i + 1 + 1 + 1 + 1, i + 1 + 1 + 1 + 1⟩, e.2.1, e.1, e.2.2⟩ :: fixes, ?_,
      by simp [f2]⟩
    simp [gapsTRun, gapsTRead, gapsTEmit, gapsEmit, gapsRead, GapsTLine.kind, e1, e2, e3, hd, hne, bind, Except.bind, f1]

/-- A telegram time on 1 January 2020. -/
private def at_ (h m s ms : Nat) : GapsTime := ⟨some (2020, 1, 1), some h, some m, some s, some ms⟩

/-- Non-vacuity: a cycle whose telegrams state their times. -/
example : StatesTime 0 0 (at_ 10 0 0 700) 1577872800.7 := by
  refine ⟨2020, 1, 1, 10, 0, 0, 700, 1577872800.7, rfl, by norm_num, ?_, by norm_num⟩
  have h1 : (⟨2020, 1, 1, 10, 0, 0, 700 * 1000⟩ : DateTime).ok = true := by decide
  have s1 : (⟨2020, 1, 1, 10, 0, 0, 700 * 1000⟩ : DateTime).seconds = 1577872800 := by decide
  simp only [dateTimeToEpoch, h1, if_true, s1]
  norm_num

/-- A log in which the beacon's telegram has an unreadable millisecond field ("10:00:05.x?z"). -/
private def staleLog : List GapsTLine :=
  [.ship (at_ 10 0 0 700), .heading, .target true { at_ 10 0 5 0 with msec := none }, .ship (at_ 10 0 10 0), .heading]

/-- C65 is false: a beacon telegram whose time cannot be read still gives a fix; its milliseconds are those of an earlier
ship telegram. -/
theorem C65_stale_time_false : ¬ ∀ tz off log fixes, parseGapsT tz off log = .ok fixes → ∀ f ∈ fixes,
    ∃ t, log[f.fix.target]? = some (.target true t) ∧ ∃ e, StatesTime tz off t e := by
  intro h
  have hrun : parseGapsT 0 0 staleLog = .ok [⟨⟨0, 1, 2, 3, 4, 4⟩, 1577872805.7, 1577872800.7, 1577872810⟩] := by
    have h1 : (⟨2020, 1, 1, 10, 0, 0, 0⟩ : DateTime).ok = true := by decide
    have h2 : (⟨2020, 1, 1, 10, 0, 5, 0⟩ : DateTime).ok = true := by decide
    have h3 : (⟨2020, 1, 1, 10, 0, 10, 0⟩ : DateTime).ok = true := by decide
    have s1 : (⟨2020, 1, 1, 10, 0, 0, 0⟩ : DateTime).seconds = 1577872800 := by decide
    have s2 : (⟨2020, 1, 1, 10, 0, 5, 0⟩ : DateTime).seconds = 1577872805 := by decide
    have s3 : (⟨2020, 1, 1, 10, 0, 10, 0⟩ : DateTime).seconds = 1577872810 := by decide
    simp [parseGapsT, staleLog, gapsTRun, gapsTRead, gapsTEmit, gapsEmit, gapsRead, GapsTLine.kind, gapsShipPrior,
      gapsShipPost, gapsEpoch, GapsRegs.read, at_, bind, Except.bind, dateTimeToEpoch, h1, h2, h3, s1, s2, s3]
    norm_num
  obtain ⟨t, ht, e, he⟩ := h 0 0 _ _ hrun _ (List.mem_singleton.mpr rfl)
  obtain ⟨y, mo, d, hh, mi, s, ms, e0, rfl, _⟩ := he
  simp [staleLog, at_] at ht

/-- C65 is false: a beacon telegram stating the impossible time 10:00:75 still gives a fix, at 10:01:00. -/
theorem C65_impossible_time_false : ∃ fixes, parseGapsT 0 0 [.ship (at_ 10 0 0 0), .heading, .target true (at_ 10 0 75 0),
    .ship (at_ 10 2 0 0), .heading] = .ok fixes ∧ ∃ f ∈ fixes, f.fix.target = 2 ∧ f.time = 1577872860 ∧
      ¬ ∃ e, StatesTime 0 0 (at_ 10 0 75 0) e := by
  refine ⟨[⟨⟨0, 1, 2, 3, 4, 4⟩, 1577872860, 1577872800, 1577872920⟩], ?_, _, List.mem_singleton.mpr rfl, rfl, rfl, ?_⟩
  · have h1 : (⟨2020, 1, 1, 10, 0, 0, 0⟩ : DateTime).ok = true := by decide
    have h2 : (⟨2020, 1, 1, 10, 1, 0, 0⟩ : DateTime).ok = true := by decide
    have h3 : (⟨2020, 1, 1, 10, 2, 0, 0⟩ : DateTime).ok = true := by decide
    have s1 : (⟨2020, 1, 1, 10, 0, 0, 0⟩ : DateTime).seconds = 1577872800 := by decide
    have s2 : (⟨2020, 1, 1, 10, 1, 0, 0⟩ : DateTime).seconds = 1577872860 := by decide
    have s3 : (⟨2020, 1, 1, 10, 2, 0, 0⟩ : DateTime).seconds = 1577872920 := by decide
    simp [parseGapsT, gapsTRun, gapsTRead, gapsTEmit, gapsEmit, gapsRead, GapsTLine.kind, gapsShipPrior,
      gapsShipPost, gapsEpoch, GapsRegs.read, at_, bind, Except.bind, dateTimeToEpoch, h1, h2, h3, s1, s2, s3]
    norm_num
  · rintro ⟨e, y, mo, d, hh, mi, s, ms, e0, ht, hms, h0, _⟩
    simp only [at_, GapsTime.mk.injEq, Option.some.injEq, Prod.mk.injEq] at ht
    have h3 := (epoch_ms _ _ _ _ _ _ _ _ _ hms h0).2.2.1
    omega

/-- C65 is false in the other direction too: a ship telegram with an unreadable hour does not just contribute no fix, it
ends the parsing of all GAPS data with an error. -/
theorem C65_unreadable_ship_false (tz off : ℚ) (t : GapsTime) (log : List GapsTLine) (h : t.hour = none) :
    parseGapsT tz off (.ship t :: log) = .error .valueError := by
  obtain ⟨d, hh, m, s, ms⟩ := t
  simp only at h
  subst h
  cases d <;> rfl

/-- A log with readable times and garbage in between: one fix, at the time of the beacon telegram. -/
example : ∃ fixes, parseGapsT 0 0 [.ship (at_ 10 0 0 0), .other, .heading, .target true (at_ 10 0 5 250),
    .ship (at_ 10 0 10 0), .heading] = .ok fixes ∧ ∃ f ∈ fixes, f.time = 1577872805.25 := by
  refine ⟨[⟨⟨0, 2, 3, 4, 5, 5⟩, 1577872805.25, 1577872800, 1577872810⟩], ?_, _, List.mem_singleton.mpr rfl, rfl⟩
  have h1 : (⟨2020, 1, 1, 10, 0, 0, 0⟩ : DateTime).ok = true := by decide
  have h2 : (⟨2020, 1, 1, 10, 0, 5, 0⟩ : DateTime).ok = true := by decide
  have h3 : (⟨2020, 1, 1, 10, 0, 10, 0⟩ : DateTime).ok = true := by decide
  have s1 : (⟨2020, 1, 1, 10, 0, 0, 0⟩ : DateTime).seconds = 1577872800 := by decide
  have s2 : (⟨2020, 1, 1, 10, 0, 5, 0⟩ : DateTime).seconds = 1577872805 := by decide
  have s3 : (⟨2020, 1, 1, 10, 0, 10, 0⟩ : DateTime).seconds = 1577872810 := by decide
  simp [parseGapsT, gapsTRun, gapsTRead, gapsTEmit, gapsEmit, gapsRead, GapsTLine.kind, gapsShipPrior,
    gapsShipPost, gapsEpoch, GapsRegs.read, at_, bind, Except.bind, dateTimeToEpoch, h1, h2, h3, s1, s2, s3]
  norm_num

end Oplab.Props
