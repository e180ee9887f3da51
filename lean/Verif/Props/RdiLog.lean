import Verif.Model.RdiLog
import Verif.Spec.RdiLog
import Verif.Lemmas.Split
import Mathlib.Tactic.Linarith
import Mathlib.Tactic.Ring
import Mathlib.Tactic.NormNum

/-! C232: the values in records of RDI logs. -/

namespace Oplab.Props
open Oplab Oplab.Spec Real

/-- The texts of an ensemble are what `float` reads, have no commas, and its date is one in the century given. -/
structure Pd6Readable (num : List Char → Res ℝ) (century : Nat) (e : Pd6Ensemble) : Prop where
  date : e.date.ok = true
  whole : e.date.us = 0
  century : e.date.year / 100 = century
  hundredths : e.hundredths < 100
  frac : num (padDigits 2 e.hundredths) = .ok (e.hundredths : ℝ)
  nums : ∀ n ∈ [e.pitch, e.roll, e.sound, e.vx, e.vy, e.vz, e.error, e.range], num n.text = .ok n.value
  heading : num (e.heading.text ++ ['\n']) = .ok e.heading.value
  commas : ∀ t ∈ [e.pitch.text, e.roll.text, e.heading.text, e.sound.text, e.vx.text, e.vy.text, e.vz.text, e.error.text, e.range.text,
    e.other], ',' ∉ t

private theorem rdi_comma (a rest : List Char) (h : ',' ∉ a) :
    splitAtSep (· == ',') (a ++ ',' :: rest) = a :: splitAtSep (· == ',') rest := by
  have e : splitAtSep (· == ',') a = [a] := splitSep_none _ _ fun c hc => by
    simp only [beq_eq_false_iff_ne]
    rintro rfl
    exact h hc
  rw [splitSep_append _ ',' (by decide), e]
  rfl

private theorem rdi_last (a : List Char) (h : ',' ∉ a) : splitAtSep (· == ',') (a ++ ['\n']) = [a ++ ['\n']] := by
  apply splitSep_none
  intro c hc
  simp only [beq_eq_false_iff_ne]
  rintro rfl
  rcases List.mem_append.mp hc with h' | h'
  · exact h h'
  · simp at h'

private theorem digits_comma (w n : Nat) : ',' ∉ padDigits w n := by
  intro h
  have := List.all_eq_true.mp (padDigits_all w n) ',' h
  revert this
  decide

private theorem year_join (y : Nat) : padDigits 2 (y / 100) ++ padDigits 2 (y % 100) = padDigits 4 y := by
  have e1 : y % 100 / 10 % 10 = y / 10 % 10 := by omega
  have e2 : y % 100 % 10 = y % 10 := by omega
  have e3 : y / 10 / 10 = y / 100 := by omega
  simp only [padDigits, List.nil_append, e1, e2, e3, List.append_assoc]

private theorem time_read (num : List Char → Res ℝ) (c : RdiSetup) (cen : Nat) (hc : c.century = padDigits 2 cen) (e : Pd6Ensemble)
    (h : Pd6Readable num cen e) : rdiTime num c (pd6Date e.date e.hundredths) = .ok (e.time c.offset) := by
  obtain ⟨f1, f2, f3, f4, f5, f6⟩ := validDate_digits e.date h.date
  set d := e.date with hd
  have s1 := slice_between [] (padDigits 2 (d.year % 100)) (padDigits 2 d.month ++ (padDigits 2 d.day ++ (padDigits 2 d.hour ++
    (padDigits 2 d.minute ++ (padDigits 2 d.second ++ padDigits 2 e.hundredths))))) 0 2 rfl (by simp [padDigits_length])
  have s2 := slice_between (padDigits 2 (d.year % 100)) (padDigits 2 d.month) (padDigits 2 d.day ++ (padDigits 2 d.hour ++
    (padDigits 2 d.minute ++ (padDigits 2 d.second ++ padDigits 2 e.hundredths)))) 2 4 (by simp [padDigits_length]) (by simp [padDigits_length])
  have s3 := slice_between (padDigits 2 (d.year % 100) ++ padDigits 2 d.month) (padDigits 2 d.day) (padDigits 2 d.hour ++
    (padDigits 2 d.minute ++ (padDigits 2 d.second ++ padDigits 2 e.hundredths))) 4 6 (by simp [padDigits_length]) (by simp [padDigits_length])
  have s4 := slice_between (padDigits 2 (d.year % 100) ++ padDigits 2 d.month ++ padDigits 2 d.day) (padDigits 2 d.hour)
    (padDigits 2 d.minute ++ (padDigits 2 d.second ++ padDigits 2 e.hundredths)) 6 8 (by simp [padDigits_length]) (by simp [padDigits_length])
  have s5 := slice_between (padDigits 2 (d.year % 100) ++ padDigits 2 d.month ++ padDigits 2 d.day ++ padDigits 2 d.hour) (padDigits 2 d.minute)
    (padDigits 2 d.second ++ padDigits 2 e.hundredths) 8 10 (by simp [padDigits_length]) (by simp [padDigits_length])
  have s6 := slice_between (padDigits 2 (d.year % 100) ++ padDigits 2 d.month ++ padDigits 2 d.day ++ padDigits 2 d.hour ++ padDigits 2 d.minute)
    (padDigits 2 d.second) (padDigits 2 e.hundredths) 10 12 (by simp [padDigits_length]) (by simp [padDigits_length])
  have s7 := slice_between (padDigits 2 (d.year % 100) ++ padDigits 2 d.month ++ padDigits 2 d.day ++ padDigits 2 d.hour ++ padDigits 2 d.minute
    ++ padDigits 2 d.second) (padDigits 2 e.hundredths) [] 12 14 (by simp [padDigits_length]) (by simp [padDigits_length])
  simp only [List.nil_append, List.append_nil, List.append_assoc] at s1 s2 s3 s4 s5 s6 s7
  have hy : c.century ++ padDigits 2 (d.year % 100) = padDigits 4 d.year := by
    rw [hc, ← h.century, year_join]
  have he : (⟨d.year, d.month, d.day, d.hour, d.minute, d.second, 0⟩ : DateTime) = d := by
    rw [← h.whole]
  simp only [rdiTime, pd6Date, s1, s2, s3, s4, s5, s6, s7, hy, h.frac, pyInt_padDigits 4 _ (by norm_num) f1, pyInt_padDigits 2 _ (by norm_num) f2,
    pyInt_padDigits 2 _ (by norm_num) f3, pyInt_padDigits 2 _ (by norm_num) f4, pyInt_padDigits 2 _ (by norm_num) f5,
    pyInt_padDigits 2 _ (by norm_num) f6, bind, Except.bind, he]
  rw [if_pos h.date]
  rfl

/-- The attitude that is recorded: in radians. -/
noncomputable def radAttitude (e : Pd6Ensemble) : V3 ℝ := ⟨rad e.roll.value, rad e.pitch.value, rad e.heading.value⟩

/-- The velocity that is recorded: turned by the angle of the dvl, taken to be in radians. -/
noncomputable def radVelocity (c : RdiSetup) (e : Pd6Ensemble) : V3 ℝ := rotZ c.mount e.velocity

private theorem sa_line (num : List Char → Res ℝ) (cat acfr c cen) (e : Pd6Ensemble) (h : Pd6Readable num cen e) (s : RdiVars) :
    rdiLogStep num cat acfr c s (pd6Line [":SA".toList, e.pitch.text, e.roll.text, e.heading.text]) =
      .ok ({ s with att := some (radAttitude e) }, []) := by
  have hc := h.commas
  have hn := h.nums
  simp only [List.mem_cons, List.not_mem_nil, or_false, forall_eq_or_imp, forall_eq] at hc hn
  have e0 : ":SA".toList = [':', 'S', 'A'] := rfl
  simp only [rdiLogStep, pd6Line, e0]
  rw [rdi_comma _ _ (by decide), rdi_comma _ _ hc.1, rdi_comma _ _ hc.2.1, rdi_last _ hc.2.2.1]
  simp only [if_true, rdiAttitude, hn.1, hn.2.1, h.heading, bind, Except.bind, radAttitude, rad]

private theorem ts_line (num : List Char → Res ℝ) (cat acfr c cen) (hcen : c.century = padDigits 2 cen) (e : Pd6Ensemble) (h : Pd6Readable num cen e)
    (s : RdiVars) :
    rdiLogStep num cat acfr c s (pd6Line [":TS".toList, pd6Date e.date e.hundredths, e.other, e.other, e.other, e.sound.text, e.other]) =
      (rdiExport cat acfr c s).map fun r =>
        ({ r.1 with stamp := some (e.time c.offset), stampDvl := some (e.time c.offset), stampAlt := some (e.time c.offset),
                    sound := some e.sound.value, valid := false }, r.2) := by
  have hc := h.commas
  have hn := h.nums
  simp only [List.mem_cons, List.not_mem_nil, or_false, forall_eq_or_imp, forall_eq] at hc hn
  have e0 : ":TS".toList = [':', 'T', 'S'] := rfl
  have hd : ',' ∉ pd6Date e.date e.hundredths := by simp [pd6Date, digits_comma]
  simp only [rdiLogStep, pd6Line, e0]
  rw [rdi_comma _ _ (by decide), rdi_comma _ _ hd, rdi_comma _ _ hc.2.2.2.2.2.2.2.2.2, rdi_comma _ _ hc.2.2.2.2.2.2.2.2.2,
    rdi_comma _ _ hc.2.2.2.2.2.2.2.2.2, rdi_comma _ _ hc.2.2.2.1, rdi_last _ hc.2.2.2.2.2.2.2.2.2]
  dsimp only
  rw [if_pos rfl, time_read num c cen hcen e h, hn.2.2.1]
  cases rdiExport cat acfr c s <;> rfl

private theorem bi_line (num : List Char → Res ℝ) (cat acfr c cen) (e : Pd6Ensemble) (h : Pd6Readable num cen e) (s : RdiVars) :
    rdiLogStep num cat acfr c s (pd6Line [":BI".toList, e.vx.text, e.vy.text, e.vz.text, e.error.text, if e.good then ['A'] else ['V']]) =
      .ok (if e.good then { s with vel := some (radVelocity c e, e.error.value / 1000), valid := true } else s, []) := by
  have hc := h.commas
  have hn := h.nums
  simp only [List.mem_cons, List.not_mem_nil, or_false, forall_eq_or_imp, forall_eq] at hc hn
  have e0 : ":BI".toList = [':', 'B', 'I'] := rfl
  have hg : ',' ∉ (if e.good then ['A'] else ['V'] : List Char) := by split <;> decide
  have hs : stripBlanks ((if e.good then ['A'] else ['V'] : List Char) ++ ['\n']) = if e.good then ['A'] else ['V'] := by
    split <;> decide
  simp only [rdiLogStep, pd6Line, e0]
  rw [rdi_comma _ _ (by decide), rdi_comma _ _ hc.2.2.2.2.1, rdi_comma _ _ hc.2.2.2.2.2.1, rdi_comma _ _ hc.2.2.2.2.2.2.1,
    rdi_comma _ _ hc.2.2.2.2.2.2.2.1, rdi_last _ hg]
  dsimp only
  rw [if_pos rfl, hs]
  cases e.good
  · rfl
  · simp only [if_true, rdiVelocities, hn.2.2.2.1, hn.2.2.2.2.1, hn.2.2.2.2.2.1, hn.2.2.2.2.2.2.1, bind, Except.bind, radVelocity, rotZ,
      Pd6Ensemble.velocity]
    simp only [mul_comm (cos c.mount), mul_comm (sin c.mount)]

private theorem bd_line (num : List Char → Res ℝ) (cat acfr c cen) (e : Pd6Ensemble) (h : Pd6Readable num cen e) (s : RdiVars) :
    rdiLogStep num cat acfr c s (pd6Line [":BD".toList, e.other, e.other, e.other, e.range.text, e.other]) =
      .ok (if s.valid then { s with alt := some (e.range.value, c.altFactor * e.range.value) } else s, []) := by
  have hc := h.commas
  have hn := h.nums
  simp only [List.mem_cons, List.not_mem_nil, or_false, forall_eq_or_imp, forall_eq] at hc hn
  have e0 : ":BD".toList = [':', 'B', 'D'] := rfl
  have ho := hc.2.2.2.2.2.2.2.2.2
  simp only [rdiLogStep, pd6Line, e0]
  rw [rdi_comma _ _ (by decide), rdi_comma _ _ ho, rdi_comma _ _ ho, rdi_comma _ _ ho, rdi_comma _ _ hc.2.2.2.2.2.2.2.2.1, rdi_last _ ho]
  dsimp only
  rw [if_neg (by decide), if_pos rfl, hn.2.2.2.2.2.2.2]
  cases s.valid <;> rfl

/-- The variables after the lines of an ensemble, those before it having been exported to `r`. -/
private noncomputable def after (c : RdiSetup) (e : Pd6Ensemble) (r : RdiVars) : RdiVars :=
  { stamp := some (e.time c.offset), stampDvl := some (e.time c.offset), stampAlt := some (e.time c.offset), sound := some e.sound.value,
    att := r.att, valid := e.good,
    vel := if e.good then some (radVelocity c e, e.error.value / 1000) else r.vel,
    alt := if e.good then some (e.range.value, c.altFactor * e.range.value) else r.alt }

private theorem block (num : List Char → Res ℝ) (cat acfr c cen) (hcen : c.century = padDigits 2 cen) (e : Pd6Ensemble) (h : Pd6Readable num cen e)
    (s : RdiVars) (rest : List (List Char)) :
    rdiLog num cat acfr c s (pd6Lines e ++ rest) = (do
      let r ← rdiExport cat acfr c { s with att := some (radAttitude e) }
      let l ← rdiLog num cat acfr c (after c e r.1) rest
      .ok (r.2 ++ l)) := by
  simp only [pd6Lines, List.cons_append, List.nil_append, rdiLog]
  rw [sa_line num cat acfr c cen e h]
  simp only [bind, Except.bind]
  rw [ts_line num cat acfr c cen hcen e h]
  cases hx : rdiExport cat acfr c { s with att := some (radAttitude e) } with
  | error err => rfl
  | ok r =>
    simp only [Except.map]
    rw [bi_line num cat acfr c cen e h]
    dsimp only
    rw [bd_line num cat acfr c cen e h]
    dsimp only
    cases hg : e.good
    · simp only [Bool.false_eq_true, if_false, after, hg]
      cases rdiLog num cat acfr c _ rest <;> simp
    · simp only [if_true, after, hg]
      cases rdiLog num cat acfr c _ rest <;> simp

/-- Velocity records: of the ensembles with bottom track. -/
noncomputable def velRecords (c : RdiSetup) (es : List Pd6Ensemble) : List RdiRecord :=
  (es.filter (·.good)).map fun e => .velocity (e.time c.offset) (e.time c.offset) (radVelocity c e) (e.error.value / 1000)

/-- Altitude records: of the ensembles with bottom track. -/
noncomputable def altRecords (c : RdiSetup) (es : List Pd6Ensemble) : List RdiRecord :=
  (es.filter (·.good)).map fun e =>
    .altitude (e.time c.offset) (e.time c.offset) e.range.value (c.altFactor * e.range.value) (some e.sound.value)

/-- Orientation records: the time of an ensemble and the attitude of the next one. -/
noncomputable def attRecords (c : RdiSetup) (std : ℝ) (es : List Pd6Ensemble) : List RdiRecord :=
  (es.zip es.tail).map fun p => .orientation (p.1.time c.offset) (radAttitude p.2) std

/-- Induction over the ensembles: `inv` holds of the variables of a category after an export, `rec` is what is exported when the next ensemble
comes. -/
private theorem run_from (num : List Char → Res ℝ) (cat) (c : RdiSetup) (cen) (hcen : c.century = padDigits 2 cen)
    (inv : RdiVars → Prop) (rec : Pd6Ensemble → Pd6Ensemble → List RdiRecord)
    (hexp : ∀ (p e : Pd6Ensemble) (r : RdiVars), inv r →
      ∃ r', rdiExport cat false c { after c p r with att := some (radAttitude e) } = .ok (r', rec p e) ∧ inv r') :
    ∀ (es : List Pd6Ensemble) (_ : ∀ e ∈ es, Pd6Readable num cen e) (p : Pd6Ensemble) (r : RdiVars) (_ : inv r),
    rdiLog num cat false c (after c p r) (pd6Log es) = .ok (((p :: es).zip es).flatMap fun q => rec q.1 q.2) := by
  intro es
  induction es with
  | nil => intro _ p r _; rfl
  | cons e t ih =>
    intro h p r hr
    rw [pd6Log, List.flatMap_cons, block num _ _ c cen hcen e (h e (by simp))]
    obtain ⟨r', h1, h2⟩ := hexp p e r hr
    have ht := ih (fun x hx => h x (by simp [hx])) e r' h2
    rw [pd6Log] at ht
    rw [h1]
    simp only [bind, Except.bind, ht]
    rfl

private theorem run_all (num : List Char → Res ℝ) (cat) (c : RdiSetup) (cen) (hcen : c.century = padDigits 2 cen)
    (inv : RdiVars → Prop) (rec : Pd6Ensemble → Pd6Ensemble → List RdiRecord)
    (hexp : ∀ (p e : Pd6Ensemble) (r : RdiVars), inv r →
      ∃ r', rdiExport cat false c { after c p r with att := some (radAttitude e) } = .ok (r', rec p e) ∧ inv r')
    (h0 : ∀ e : Pd6Ensemble, inv { ({} : RdiVars) with att := some (radAttitude e) })
    (hx : ∀ e : Pd6Ensemble, rdiExport cat false c { ({} : RdiVars) with att := some (radAttitude e) } =
      .ok ({ ({} : RdiVars) with att := some (radAttitude e) }, []))
    (es : List Pd6Ensemble) (h : ∀ e ∈ es, Pd6Readable num cen e) :
    rdiLog num cat false c {} (pd6Log es) = .ok ((es.zip es.tail).flatMap fun q => rec q.1 q.2) := by
  cases es with
  | nil => rfl
  | cons e t =>
    have := run_from num cat c cen hcen inv rec hexp t (fun x hx => h x (by simp [hx])) e _ (h0 e)
    rw [pd6Log] at this
    rw [pd6Log, List.flatMap_cons, block num _ _ c cen hcen e (h e (by simp)), hx e]
    simp only [bind, Except.bind, this]
    rfl

private theorem zip_tail (l : List Pd6Ensemble) (f : Pd6Ensemble → RdiRecord) :
    ((l.zip l.tail).flatMap fun q => if q.1.good then [f q.1] else []) = (l.dropLast.filter (·.good)).map f := by
  induction l with
  | nil => rfl
  | cons a t ih =>
    cases t with
    | nil => rfl
    | cons b t =>
      rw [List.tail_cons, List.zip_cons_cons, List.flatMap_cons, List.dropLast_cons_cons, List.filter_cons]
      rw [List.tail_cons] at ih
      rw [ih]
      cases a.good <;> rfl

/-- C232: the velocity records of a log: for every ensemble with bottom track but the last, at its time, the velocity in m/s turned by the number
in vehicle.yaml as an angle in radians, and the error velocity as uncertainty. -/
theorem C232_velocity (num : List Char → Res ℝ) (c : RdiSetup) (cen : Nat) (hcen : c.century = padDigits 2 cen) (es : List Pd6Ensemble)
    (h : ∀ e ∈ es, Pd6Readable num cen e) :
    rdiLog num .velocity false c {} (pd6Log es) = .ok (velRecords c es.dropLast) := by
  rw [run_all num .velocity c cen hcen (fun r => r.vel = none)
    (fun p _ => if p.good then [.velocity (p.time c.offset) (p.time c.offset) (radVelocity c p) (p.error.value / 1000)] else []) ?_ ?_ ?_ es h,
    zip_tail es fun e => .velocity (e.time c.offset) (e.time c.offset) (radVelocity c e) (e.error.value / 1000)]
  · rfl
  · intro p e r hr
    cases hg : p.good
    · apply Exists.intro
      apply And.intro
      · simp only [rdiExport, after, hr, hg, Bool.false_eq_true, if_false]
        rfl
      · rfl
    · apply Exists.intro
      apply And.intro
      · simp only [rdiExport, after, hr, hg, if_true, Bool.false_eq_true, if_false]
        rfl
      · rfl
  · intro e; rfl
  · intro e; rfl

/-- C232: the altitude records of a log: for every ensemble with bottom track but the last, the range to the bottom in metres, the fraction of it
configured as uncertainty, and the speed of sound of that ensemble. -/
theorem C232_altitude (num : List Char → Res ℝ) (c : RdiSetup) (cen : Nat) (hcen : c.century = padDigits 2 cen) (es : List Pd6Ensemble)
    (h : ∀ e ∈ es, Pd6Readable num cen e) :
    rdiLog num .altitude false c {} (pd6Log es) = .ok (altRecords c es.dropLast) := by
  rw [run_all num .altitude c cen hcen (fun r => r.alt = none)
    (fun p _ => if p.good then [.altitude (p.time c.offset) (p.time c.offset) p.range.value (c.altFactor * p.range.value) (some p.sound.value)]
      else []) ?_ ?_ ?_ es h,
    zip_tail es fun e => .altitude (e.time c.offset) (e.time c.offset) e.range.value (c.altFactor * e.range.value) (some e.sound.value)]
  · rfl
  · intro p e r hr
    cases hg : p.good
    · apply Exists.intro
      apply And.intro
      · simp only [rdiExport, after, hr, hg, Bool.false_eq_true, if_false]
        rfl
      · rfl
    · apply Exists.intro
      apply And.intro
      · simp only [rdiExport, after, hr, hg, if_true, Bool.false_eq_true, if_false]
        rfl
      · rfl
  · intro e; rfl
  · intro e; rfl

/-- C232: the orientation records of a log: the time of every ensemble but the last, with the attitude of the ensemble after it, in radians. -/
theorem C232_orientation (num : List Char → Res ℝ) (c : RdiSetup) (cen : Nat) (hcen : c.century = padDigits 2 cen) (std : ℝ)
    (hstd : c.attStd = some std) (es : List Pd6Ensemble) (h : ∀ e ∈ es, Pd6Readable num cen e) :
    rdiLog num .orientation false c {} (pd6Log es) = .ok (attRecords c std es) := by
  rw [run_all num .orientation c cen hcen (fun _ => True)
    (fun p e => [.orientation (p.time c.offset) (radAttitude e) std]) ?_ ?_ ?_ es h]
  · rw [attRecords, ← List.map_eq_flatMap]
  · intro p e r hr
    apply Exists.intro
    apply And.intro
    · simp only [rdiExport, after, hstd, Bool.false_eq_true, if_false]
      rfl
    · trivial
  · intro e; trivial
  · intro e
    simp [rdiExport, hstd]

/-- C232: without an uncertainty in mission.yaml no orientation is recorded. -/
theorem C232_orientation_none (num : List Char → Res ℝ) (c : RdiSetup) (cen : Nat) (hcen : c.century = padDigits 2 cen)
    (hstd : c.attStd = none) (es : List Pd6Ensemble) (h : ∀ e ∈ es, Pd6Readable num cen e) :
    rdiLog num .orientation false c {} (pd6Log es) = .ok [] := by
  rw [run_all num .orientation c cen hcen (fun _ => True) (fun _ _ => []) ?_ ?_ ?_ es h]
  · simp
  · intro p e r hr
    apply Exists.intro
    apply And.intro
    · simp only [rdiExport, after, hstd]
      rfl
    · trivial
  · intro e; trivial
  · intro e
    simp [rdiExport, hstd]

/-- What C232 asks for: velocities in the frame of the vehicle, the angle of the dvl being in degrees. -/
def RdiVelocitiesRight : Prop :=
  ∀ (num : List Char → Res ℝ) (c : RdiSetup) (cen : Nat), c.century = padDigits 2 cen → ∀ es : List Pd6Ensemble,
    (∀ e ∈ es, Pd6Readable num cen e) → ∀ recs, rdiLog num .velocity false c {} (pd6Log es) = .ok recs →
    ∀ t td v std, RdiRecord.velocity t td v std ∈ recs →
      ∃ e ∈ es, t = e.time c.offset ∧ td = t ∧ v = rotZ (rad c.mount) e.velocity

/-- What C232 asks for: uncertainties are not negative. -/
def RdiUncertaintiesRight : Prop :=
  ∀ (num : List Char → Res ℝ) (c : RdiSetup) (cen : Nat), c.century = padDigits 2 cen → ∀ es : List Pd6Ensemble,
    (∀ e ∈ es, Pd6Readable num cen e) → ∀ recs, rdiLog num .velocity false c {} (pd6Log es) = .ok recs →
    ∀ t td v std, RdiRecord.velocity t td v std ∈ recs → 0 ≤ std

/-- What C232 asks for: attitudes in degrees, as in all other records. -/
def RdiAttitudesRight : Prop :=
  ∀ (num : List Char → Res ℝ) (c : RdiSetup) (cen : Nat), c.century = padDigits 2 cen → ∀ es : List Pd6Ensemble,
    (∀ e ∈ es, Pd6Readable num cen e) → ∀ recs, rdiLog num .orientation false c {} (pd6Log es) = .ok recs →
    ∀ t a std, RdiRecord.orientation t a std ∈ recs → ∃ e ∈ es, a = ⟨e.roll.value, e.pitch.value, e.heading.value⟩

/-- C232 for velocities where it holds: a dvl in line with the vehicle, and error velocities that are not negative. -/
theorem C232_velocity_partial (num : List Char → Res ℝ) (c : RdiSetup) (cen : Nat) (hcen : c.century = padDigits 2 cen) (es : List Pd6Ensemble)
    (h : ∀ e ∈ es, Pd6Readable num cen e) (hm : c.mount = 0) (herr : ∀ e ∈ es, 0 ≤ e.error.value) (recs : List RdiRecord)
    (hr : rdiLog num .velocity false c {} (pd6Log es) = .ok recs) (t td : ℝ) (v : V3 ℝ) (std : ℝ)
    (hv : RdiRecord.velocity t td v std ∈ recs) :
    0 ≤ std ∧ ∃ e ∈ es, t = e.time c.offset ∧ td = t ∧ v = rotZ (rad c.mount) e.velocity := by
  rw [C232_velocity num c cen hcen es h, Except.ok.injEq] at hr
  subst hr
  simp only [velRecords, List.mem_map, List.mem_filter, RdiRecord.velocity.injEq] at hv
  obtain ⟨e, ⟨he, -⟩, rfl, rfl, rfl, rfl⟩ := hv
  have he' := List.dropLast_subset es he
  refine ⟨div_nonneg (herr e he') (by norm_num), e, he', rfl, rfl, ?_⟩
  rw [radVelocity, hm]
  simp [rad]

/-- A reader of a few numbers, and an ensemble it can read: heading 90 degrees, 90 mm/s forward, error velocity -1 mm/s. -/
noncomputable def fewNumbers (t : List Char) : Res ℝ :=
  if stripBlanks t = ['9', '0'] then .ok 90 else if stripBlanks t = ['-', '1'] then .ok (-1) else .ok 0

/-- See `fewNumbers`. -/
noncomputable def onePd6 : Pd6Ensemble :=
  ⟨⟨2021, 3, 4, 5, 6, 7, 0⟩, 0, ⟨['0'], 0⟩, ⟨['0'], 0⟩, ⟨['9', '0'], 90⟩, ⟨['0'], 0⟩, ⟨['9', '0'], 90⟩, ⟨['0'], 0⟩, ⟨['0'], 0⟩, ⟨['-', '1'], -1⟩,
    true, ⟨['9', '0'], 90⟩, []⟩

private theorem few_zero : fewNumbers ['0'] = .ok 0 := by
  rw [fewNumbers, if_neg (by decide), if_neg (by decide)]

private theorem few_ninety : fewNumbers ['9', '0'] = .ok 90 := by
  rw [fewNumbers, if_pos (by decide)]

private theorem one_readable : Pd6Readable fewNumbers 20 onePd6 where
  date := by decide +kernel
  whole := rfl
  century := rfl
  hundredths := by decide
  frac := by
    have e : padDigits 2 onePd6.hundredths = ['0', '0'] := by decide
    rw [e, fewNumbers, if_neg (by decide), if_neg (by decide)]
    simp [onePd6]
  nums := by
    simp only [List.mem_cons, List.not_mem_nil, or_false, forall_eq_or_imp, forall_eq]
    refine ⟨few_zero, few_zero, few_zero, few_ninety, few_zero, few_zero, ?_, few_ninety⟩
    show fewNumbers ['-', '1'] = .ok (-1)
    rw [fewNumbers, if_neg (by decide), if_pos (by decide)]
  heading := by
    show fewNumbers ['9', '0', '\n'] = .ok 90
    rw [fewNumbers, if_pos (by decide)]
  commas := by
    simp only [onePd6]
    decide

private theorem two_readable : ∀ e ∈ [onePd6, onePd6], Pd6Readable fewNumbers 20 e := by
  intro e he
  have : e = onePd6 := by simpa using he
  rw [this]
  exact one_readable

/-- C232 is false: the angle of the dvl is in degrees, and is used as if it were in radians. -/
theorem C232_mount_false : ¬ RdiVelocitiesRight := by
  intro h
  have h1 := h fewNumbers ⟨2, none, 0, 0, padDigits 2 20⟩ 20 rfl _ two_readable _ (C232_velocity _ _ 20 rfl _ two_readable) _ _ _ _
    (List.mem_map.mpr ⟨onePd6, by simp [onePd6], rfl⟩)
  obtain ⟨e, he, -, -, hv⟩ := h1
  have : e = onePd6 := by simpa using he
  subst this
  have hx := congrArg V3.x hv
  simp only [radVelocity, rotZ, Pd6Ensemble.velocity, onePd6, rad] at hx
  have h2 : cos (2 : ℝ) < 0 := Real.cos_two_neg
  have h3 : 0 < cos (2 * (π / 180)) := by
    apply cos_pos_of_mem_Ioo
    constructor
    · have := pi_pos; linarith
    · have := pi_pos; linarith
  linarith

/-- C232 is false: the error velocity, which has a sign, is taken as the uncertainty. -/
theorem C232_uncertainty_false : ¬ RdiUncertaintiesRight := by
  intro h
  have h1 := h fewNumbers ⟨0, none, 0, 0, padDigits 2 20⟩ 20 rfl _ two_readable _ (C232_velocity _ _ 20 rfl _ two_readable) _ _ _ _
    (List.mem_map.mpr ⟨onePd6, by simp [onePd6], rfl⟩)
  simp only [onePd6] at h1
  norm_num at h1

/-- C232 is false: attitudes are in radians. -/
theorem C232_attitude_false : ¬ RdiAttitudesRight := by
  intro h
  have h1 := h fewNumbers ⟨0, some 1, 0, 0, padDigits 2 20⟩ 20 rfl _ two_readable _ (C232_orientation _ _ 20 rfl 1 rfl _ two_readable) _ _ _
    (List.mem_map.mpr ⟨(onePd6, onePd6), by simp, rfl⟩)
  obtain ⟨e, he, hv⟩ := h1
  have : e = onePd6 := by simpa using he
  subst this
  have hx := congrArg V3.z hv
  simp only [radAttitude, rad, onePd6] at hx
  have := pi_le_four
  linarith

/-- C232: in the format acfr no log with an ensemble with bottom track that is followed by another one can be parsed. -/
theorem C232_acfr_fails (num : List Char → Res ℝ) (c : RdiSetup) (cen : Nat) (hcen : c.century = padDigits 2 cen) (cat : RdiCategory)
    (hcat : cat = .velocity ∨ cat = .altitude) (a b : Pd6Ensemble) (hg : a.good = true) (ha : Pd6Readable num cen a) (hb : Pd6Readable num cen b)
    (rest : List Pd6Ensemble) : rdiLog num cat true c {} (pd6Log (a :: b :: rest)) = .error .attributeError := by
  rw [pd6Log, List.flatMap_cons, List.flatMap_cons, block num _ _ c cen hcen a ha]
  rcases hcat with rfl | rfl
  · simp only [rdiExport, bind, Except.bind]
    rw [block num _ _ c cen hcen b hb]
    simp only [rdiExport, after, hg, if_true, bind, Except.bind]
  · simp only [rdiExport, bind, Except.bind]
    rw [block num _ _ c cen hcen b hb]
    simp only [rdiExport, after, hg, if_true, bind, Except.bind]

/-- Non-vacuity: a log of two ensembles that can be read has a velocity record. -/
example : (∀ e ∈ [onePd6, onePd6], Pd6Readable fewNumbers 20 e) ∧
    (velRecords ⟨0, none, 0, 0, padDigits 2 20⟩ [onePd6, onePd6].dropLast).length = 1 :=
  ⟨two_readable, by simp [velRecords, onePd6]⟩

end Oplab.Props
