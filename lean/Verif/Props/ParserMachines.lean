import Mathlib.Algebra.Order.Field.Rat
import Mathlib.Tactic.NormNum
import Mathlib.Tactic.Ring
import Mathlib.Tactic.FieldSimp
import Verif.Spec.Logs

/-! Properties C14, C16: parsers that are state machines over the lines of a log. -/

namespace Oplab.Props
open Oplab Oplab.Spec

/-! ## C14 GAPS -/

/-- The claim of C14 about a fix: its values come from lines of the right kind, ship position and heading before
the target telegram, and ship position and heading after it. -/
def GapsPaired (ls : List GapsLine) (f : GapsFix) : Prop :=
  (∃ tok, ls[f.target]? = some (.target true tok)) ∧
  ls[f.priorShip]? = some .ship ∧ ls[f.priorHeading]? = some .heading ∧
  ls[f.postShip]? = some .ship ∧ ls[f.postHeading]? = some .heading ∧
  f.priorShip < f.target ∧ f.priorHeading < f.target ∧ f.target < f.postShip ∧ f.target < f.postHeading

/-- C14 as stated is false: two headings after the target complete a fix that uses a ship position recorded before
the target. -/
theorem C14_paired_false : ¬ ∀ (ls : List GapsLine) (fs : List GapsFix), parseGaps ls = .ok fs →
    ∀ f ∈ fs, GapsPaired ls f := by
  intro h
  have := h [.ship, .heading, .target true true, .ship, .heading, .ship, .heading, .target true true, .heading, .heading]
    [⟨0, 1, 2, 3, 4, 4⟩, ⟨5, 6, 7, 3, 9, 9⟩] (by decide) ⟨5, 6, 7, 3, 9, 9⟩ (by simp)
  simp [GapsPaired] at this

/-- C14: two telegrams of the same kind before the first target crash the parser (variable not assigned). -/
theorem C14_crash_false : parseGaps [.ship, .ship, .target true true, .ship, .heading] = .error .unboundLocal := by
  decide

/-- C14: a target telegram whose time could not be read or is out of range still produces a fix: the flag meant to
suppress it is reset on every line. -/
theorem C14_broken_time_false : ¬ ∀ (ls : List GapsLine) (fs : List GapsFix), parseGaps ls = .ok fs →
    ∀ f ∈ fs, ls[f.target]? = some (.target true true) := by
  intro h
  have := h [.ship, .heading, .target true false, .ship, .heading] [⟨0, 1, 2, 3, 4, 4⟩] (by decide)
    ⟨0, 1, 2, 3, 4, 4⟩ (by simp)
  simp at this

/-- Invariant of the parser before line `i` of `L`. -/
private structure GapsInv (L : List GapsLine) (s : GapsState) (i : Nat) : Prop where
  ps : ∀ a, s.priorShip = some a → a < i ∧ L[a]? = some .ship
  ph : ∀ a, s.priorHeading = some a → a < i ∧ L[a]? = some .heading
  qs : ∀ a, s.postShip = some a → a < i ∧ L[a]? = some .ship
  qh : ∀ a, s.postHeading = some a → a < i ∧ L[a]? = some .heading
  tg : 3 ≤ s.flag → ∃ c, s.target = some c ∧ c < i ∧ (∃ tok, L[c]? = some (.target true tok)) ∧
    (∀ a, s.priorShip = some a → a < c) ∧ (∀ a, s.priorHeading = some a → a < c) ∧
    (∀ k, c < k → k < i → L[k]? = some .ship → ∃ d, s.postShip = some d ∧ c < d) ∧
    (∀ k, c < k → k < i → L[k]? = some .heading → ∃ d, s.postHeading = some d ∧ c < d)

private theorem gaps_read_inv (L : List GapsLine) (s : GapsState) (i : Nat) (l : GapsLine) (hl : L[i]? = some l)
    (h : GapsInv L s i) : GapsInv L (gapsRead s i l) (i + 1) := by
  obtain ⟨ps, ph, qs, qh, tg⟩ := h
  have ps' : ∀ a, s.priorShip = some a → a < i + 1 ∧ L[a]? = some .ship := fun a ha => ⟨by have := ps a ha; omega, (ps a ha).2⟩
  have ph' : ∀ a, s.priorHeading = some a → a < i + 1 ∧ L[a]? = some .heading := fun a ha => ⟨by have := ph a ha; omega, (ph a ha).2⟩
  have qs' : ∀ a, s.postShip = some a → a < i + 1 ∧ L[a]? = some .ship := fun a ha => ⟨by have := qs a ha; omega, (qs a ha).2⟩
  have qh' : ∀ a, s.postHeading = some a → a < i + 1 ∧ L[a]? = some .heading := fun a ha => ⟨by have := qh a ha; omega, (qh a ha).2⟩
  -- a line that is neither a ship position nor a heading keeps the last clause
  have keep : l ≠ .ship → l ≠ .heading → 3 ≤ s.flag → ∃ c, s.target = some c ∧ c < i + 1 ∧
      (∃ tok, L[c]? = some (.target true tok)) ∧
      (∀ a, s.priorShip = some a → a < c) ∧ (∀ a, s.priorHeading = some a → a < c) ∧
      (∀ k, c < k → k < i + 1 → L[k]? = some .ship → ∃ d, s.postShip = some d ∧ c < d) ∧
      (∀ k, c < k → k < i + 1 → L[k]? = some .heading → ∃ d, s.postHeading = some d ∧ c < d) := by
    intro h1 h2 hf
    obtain ⟨c, t1, t2, t3, t4, t5, t6, t7⟩ := tg hf
    refine ⟨c, t1, by omega, t3, t4, t5, ?_, ?_⟩
    · intro k hk hki hks
      rcases Nat.lt_or_ge k i with hlt | hge
      · exact t6 k hk hlt hks
      · have : k = i := by omega
        subst this; rw [hl] at hks; exact absurd (Option.some.inj hks) h1
    · intro k hk hki hks
      rcases Nat.lt_or_ge k i with hlt | hge
      · exact t7 k hk hlt hks
      · have : k = i := by omega
        subst this; rw [hl] at hks; exact absurd (Option.some.inj hks) h2
  cases l with
  | other => exact ⟨ps', ph', qs', qh', keep (by simp) (by simp)⟩
  | target valid tok =>
    simp only [gapsRead]
    by_cases hf : s.flag = 2
    · rw [if_pos hf]
      cases valid with
      | true =>
        simp only [if_true]
        refine ⟨ps', ph', qs', qh', fun _ => ⟨i, rfl, by omega, ⟨tok, hl⟩, fun a ha => (ps a ha).1, fun a ha => (ph a ha).1, ?_, ?_⟩⟩
        · intro k h1 h2; omega
        · intro k h1 h2; omega
      | false => exact ⟨ps', ph', qs', qh', by simp⟩
    · rw [if_neg hf]; exact ⟨ps', ph', qs', qh', keep (by simp) (by simp)⟩
  | ship =>
    simp only [gapsRead]
    by_cases hf : s.flag < 3
    · rw [if_pos hf]
      refine ⟨?_, ph', qs', qh', ?_⟩
      · intro a ha; simp at ha; subst ha; exact ⟨by omega, hl⟩
      · intro h3; simp only at h3; split at h3 <;> omega
    · rw [if_neg hf]
      refine ⟨ps', ph', ?_, qh', ?_⟩
      · intro a ha; simp at ha; subst ha; exact ⟨by omega, hl⟩
      · intro _
        obtain ⟨c, t1, t2, t3, t4, t5, t6, t7⟩ := tg (by omega)
        refine ⟨c, t1, by omega, t3, t4, t5, ?_, ?_⟩
        · intro k _ _ _; exact ⟨i, rfl, t2⟩
        · intro k hk hki hks
          rcases Nat.lt_or_ge k i with hlt | hge
          · exact t7 k hk hlt hks
          · have : k = i := by omega
            subst this; rw [hl] at hks; simp at hks
  | heading =>
    simp only [gapsRead]
    by_cases hf : s.flag < 3
    · rw [if_pos hf]
      refine ⟨ps', ?_, qs', qh', ?_⟩
      · intro a ha; simp at ha; subst ha; exact ⟨by omega, hl⟩
      · intro h3; simp only at h3; split at h3 <;> omega
    · rw [if_neg hf]
      refine ⟨ps', ph', qs', ?_, ?_⟩
      · intro a ha; simp at ha; subst ha; exact ⟨by omega, hl⟩
      · intro _
        obtain ⟨c, t1, t2, t3, t4, t5, t6, t7⟩ := tg (by omega)
        refine ⟨c, t1, by omega, t3, t4, t5, ?_, ?_⟩
        · intro k hk hki hks
          rcases Nat.lt_or_ge k i with hlt | hge
          · exact t6 k hk hlt hks
          · have : k = i := by omega
            subst this; rw [hl] at hks; simp at hks
        · intro k _ _ _; exact ⟨i, rfl, t2⟩

/-- The part of C14 that holds for every log. -/
def GapsPairedWeak (ls : List GapsLine) (f : GapsFix) : Prop :=
  (∃ tok, ls[f.target]? = some (.target true tok)) ∧
  ls[f.priorShip]? = some .ship ∧ ls[f.priorHeading]? = some .heading ∧
  ls[f.postShip]? = some .ship ∧ ls[f.postHeading]? = some .heading ∧
  f.priorShip < f.target ∧ f.priorHeading < f.target ∧ f.target < f.at_ ∧
  ((∃ k, f.target < k ∧ k ≤ f.at_ ∧ ls[k]? = some .ship) → f.target < f.postShip) ∧
  ((∃ k, f.target < k ∧ k ≤ f.at_ ∧ ls[k]? = some .heading) → f.target < f.postHeading)

private theorem gaps_run (L : List GapsLine) : ∀ (ls : List GapsLine) (s : GapsState) (i : Nat) (out : List GapsFix),
    L.drop i = ls → GapsInv L s i → gapsRun s i ls = .ok out → ∀ f ∈ out, GapsPairedWeak L f
  | [], s, i, out, _, _, h => by simp [gapsRun] at h; subst h; simp
  | l :: ls, s, i, out, hd, hinv, h => by
    have hl : L[i]? = some l := by
      have := congrArg (fun x => x[0]?) hd
      simpa [List.getElem?_drop] using this
    have hd' : L.drop (i + 1) = ls := by
      have := congrArg List.tail hd
      simpa [List.tail_drop] using this
    have hi := gaps_read_inv L s i l hl hinv
    simp only [gapsRun] at h
    set s1 := gapsRead s i l with hs1
    cases he : gapsEmit s1 i with
    | error e => rw [he] at h; simp [bind, Except.bind] at h
    | ok so =>
      obtain ⟨s2, o⟩ := so
      rw [he] at h
      simp only [bind, Except.bind] at h
      cases hr : gapsRun s2 (i + 1) ls with
      | error e => rw [hr] at h; simp at h
      | ok rest =>
        rw [hr] at h
        simp only [Except.ok.injEq] at h
        subst h
        simp only [gapsEmit] at he
        by_cases h5 : 5 ≤ s1.flag
        · rw [if_pos h5] at he
          split at he
          · rename_i a b c d e ea eb ec ed ee
            simp only [Except.ok.injEq, Prod.mk.injEq] at he
            obtain ⟨rfl, rfl⟩ := he
            have hinv2 : GapsInv L { s1 with flag := 0 } (i + 1) :=
              ⟨hi.ps, hi.ph, hi.qs, hi.qh, by simp⟩
            have ih := gaps_run L ls _ (i + 1) rest hd' hinv2 hr
            intro f hf
            rcases List.mem_append.mp hf with hf | hf
            · simp at hf
              subst hf
              obtain ⟨c', t1, t2, t3, t4, t5, t6, t7⟩ := hi.tg (by omega)
              rw [ec] at t1; simp at t1; subst t1
              refine ⟨t3, (hi.ps a ea).2, (hi.ph b eb).2, (hi.qs d ed).2, (hi.qh e ee).2, t4 a ea, t5 b eb, ?_, ?_, ?_⟩
              · -- the line that completes the fix is not the target itself
                simp only
                rcases Nat.lt_or_ge c i with hlt | hge
                · exact hlt
                · exfalso
                  have hci : c = i := by omega
                  obtain ⟨tok, htok⟩ := t3
                  rw [hci, hl] at htok
                  simp at htok
                  subst htok
                  simp only [gapsRead] at hs1
                  split at hs1
                  · simp at hs1; rw [hs1] at h5; simp at h5
                  · -- flag was already at least 5: impossible, but then the target was set before
                    rw [hs1] at ec
                    by_cases h3 : 3 ≤ s.flag
                    · obtain ⟨c2, u1, u2, _⟩ := hinv.tg h3
                      rw [ec] at u1; simp at u1; omega
                    · rw [hs1] at h5; omega
              · rintro ⟨k, k1, k2, k3⟩
                obtain ⟨d', e1, e2⟩ := t6 k k1 (by simp only at k2; omega) k3
                rw [ed] at e1; simp at e1; subst e1; exact e2
              · rintro ⟨k, k1, k2, k3⟩
                obtain ⟨d', e1, e2⟩ := t7 k k1 (by simp only at k2; omega) k3
                rw [ee] at e1; simp at e1; subst e1; exact e2
            · exact ih f hf
          · simp at he
        · rw [if_neg h5] at he
          simp only [Except.ok.injEq, Prod.mk.injEq] at he
          obtain ⟨rfl, rfl⟩ := he
          simpa using gaps_run L ls s1 (i + 1) rest hd' hi hr

/-- C14 (partial): every fix uses a valid target telegram, a ship position and a heading recorded before it, and, if
between the target and the completion of the fix a ship position (heading) was recorded, one recorded after it.
Missing: when the two telegrams after the target are of the same kind, the other value is stale. -/
theorem C14_paired_partial (ls : List GapsLine) (fs : List GapsFix) (h : parseGaps ls = .ok fs) :
    ∀ f ∈ fs, GapsPairedWeak ls f :=
  gaps_run ls ls {} 0 fs (by simp) ⟨by simp, by simp, by simp, by simp, by simp⟩ h

/-- C14 (partial): in particular full pairing whenever both a ship position and a heading follow the target. -/
theorem C14_alternating_partial (ls : List GapsLine) (fs : List GapsFix) (h : parseGaps ls = .ok fs) (f : GapsFix)
    (hf : f ∈ fs) (hs : ∃ k, f.target < k ∧ k ≤ f.at_ ∧ ls[k]? = some .ship)
    (hh : ∃ k, f.target < k ∧ k ≤ f.at_ ∧ ls[k]? = some .heading) : GapsPaired ls f := by
  obtain ⟨a, b, c, d, e, g, i, -, j, k⟩ := C14_paired_partial ls fs h f hf
  exact ⟨a, b, c, d, e, g, i, j hs, k hh⟩

/-- C14: the ship value used is the linear interpolation: it is the prior value at the prior time and the posterior
value at the posterior time, and affine between. -/
theorem C14_interpolation {K : Type} [Field K] (tPrior tPost prior post s : K) (h : tPost ≠ tPrior) :
    gapsInterp (tPrior + s * (tPost - tPrior)) tPrior tPost prior post = prior + s * (post - prior) := by
  have : tPost - tPrior ≠ 0 := sub_ne_zero.mpr h
  simp only [gapsInterp]
  field_simp
  ring

example : parseGaps [.ship, .heading, .target true true, .heading, .other, .ship] = .ok [⟨0, 1, 2, 5, 3, 5⟩] := by decide

/-! ## C16 RDI -/

section
variable {K : Type}

/-- C16 (velocity, altitude): what the property asks for. -/
def EveryVelocity (es : List (Ensemble K)) : Prop := rdiVelocity (rdiLog es) = es.filterMap Ensemble.velocity

/-- C16 as stated is false: the last ensemble is never exported. -/
theorem C16_every_ensemble_false : ¬ ∀ es : List (Ensemble ℚ), (∀ e ∈ es, e.Proper) → EveryVelocity es := by
  intro h
  have := h [⟨1, [.bi true ⟨1, 2, 3⟩]⟩] (by simp [Ensemble.Proper])
  simp [EveryVelocity, rdiLog, rdiVelocity, rdiRun, rdiStep, exportVel, Ensemble.velocity] at this

/-- State after the lines of a body (no time stamp among them). -/
private def bodyState {R} (exp : RdiState K → RdiState K × Option R) (s : RdiState K) (body : List (RdiLine K)) :
    RdiState K := body.foldl (fun s l => (rdiStep exp s l).1) s

private theorem run_body {R} (exp : RdiState K → RdiState K × Option R) : ∀ (body : List (RdiLine K)) (s : RdiState K)
    (rest : List (RdiLine K)), (∀ l ∈ body, ∀ t, l ≠ .ts t) →
    rdiRun exp s (body ++ rest) = rdiRun exp (bodyState exp s body) rest
  | [], s, rest, _ => rfl
  | l :: body, s, rest, h => by
    have ih := run_body exp body (rdiStep exp s l).1 rest fun x hx => h x (by simp [hx])
    simp only [List.cons_append, rdiRun, ih]
    have : (rdiStep exp s l).2 = [] := by
      cases l with
      | ts t => exact absurd rfl (h (.ts t) (by simp) t)
      | _ => rfl
    rw [this]; rfl

private theorem body_vel {R} (exp : RdiState K → RdiState K × Option R) : ∀ (body : List (RdiLine K)) (s : RdiState K),
    (∀ l ∈ body, ∀ t, l ≠ .ts t) →
    (bodyState exp s body).stamp = s.stamp ∧ (bodyState exp s body).stampDvl = s.stampDvl ∧
    (bodyState exp s body).stampAlt = s.stampAlt ∧
    (bodyState exp s body).vel =
      ((body.filterMap fun l => match l with | .bi true v => some v | _ => none).getLast?).or s.vel
  | [], s, _ => by simp [bodyState]
  | l :: body, s, h => by
    obtain ⟨h1, h2, h4, h3⟩ := body_vel exp body (rdiStep exp s l).1 fun x hx => h x (by simp [hx])
    have hb : bodyState exp s (l :: body) = bodyState exp (rdiStep exp s l).1 body := rfl
    rw [hb, h1, h2, h3, h4]
    cases l with
    | ts t => exact absurd rfl (h (.ts t) (by simp) t)
    | sa a => simp [rdiStep]
    | bd a => simp only [rdiStep]; split <;> simp
    | other => simp [rdiStep]
    | bi ok v =>
      cases ok with
      | false => simp [rdiStep]
      | true =>
        refine ⟨rfl, rfl, rfl, ?_⟩
        simp only [rdiStep, if_true, List.filterMap_cons]
        cases hl : (List.filterMap (fun l => match l with | RdiLine.bi true v => some v | _ => none) body).getLast? with
        | none =>
          have := List.getLast?_eq_none_iff.mp hl
          rw [this]; simp
        | some w =>
          rw [List.getLast?_cons, hl]; simp

private theorem rdi_vel_from : ∀ (es : List (Ensemble K)) (e : Ensemble K) (s : RdiState K), e.Proper → (∀ e ∈ es, e.Proper) →
    s.vel = none → s.stamp = some e.t → s.stampDvl = some e.t →
    rdiRun exportVel s (e.body ++ rdiLog es) = ((e :: es).dropLast).filterMap Ensemble.velocity
  | [], e, s, hp, _, hv, hs, hd => by
    simp only [rdiLog, List.flatMap_nil, List.append_nil]
    have := run_body exportVel e.body s [] hp
    simp only [List.append_nil] at this
    rw [this]; simp [rdiRun]
  | e' :: es, e, s, hp, hps, hv, hs, hd => by
    obtain ⟨h1, h2, _, h3⟩ := body_vel exportVel e.body s hp
    have hlog : rdiLog (e' :: es) = .ts e'.t :: (e'.body ++ rdiLog es) := by simp [rdiLog]
    rw [hlog, run_body exportVel e.body s _ hp]
    set b := bodyState exportVel s e.body with hb
    rw [hv, Option.or_none] at h3
    rw [hs] at h1
    rw [hd] at h2
    simp only [rdiRun, rdiStep]
    have hdl : (e :: e' :: es).dropLast = e :: (e' :: es).dropLast := rfl
    rw [hdl, List.filterMap_cons]
    cases hlast : (e.body.filterMap fun l => match l with | RdiLine.bi true v => some v | _ => none).getLast? with
    | none =>
      rw [hlast] at h3
      have hexp : exportVel b = (b, none) := by simp [exportVel, h3]
      have hvel : e.velocity = none := congrArg (Option.map fun v => (e.t, v)) hlast
      rw [hexp, hvel]
      simp only [Option.toList_none, List.nil_append]
      exact rdi_vel_from es e' _ (hps e' (by simp)) (fun x hx => hps x (by simp [hx])) h3 rfl rfl
    | some v =>
      rw [hlast] at h3
      have hexp : exportVel b = ({ b with vel := none, stampDvl := none }, some (e.t, v)) := by
        simp [exportVel, h3, h1, h2]
      have hvel : e.velocity = some (e.t, v) := congrArg (Option.map fun v => (e.t, v)) hlast
      rw [hexp, hvel]
      simp only [Option.toList_some, List.singleton_append]
      congr 1
      exact rdi_vel_from es e' _ (hps e' (by simp)) (fun x hx => hps x (by simp [hx])) rfl rfl rfl

/-- C16 (partial), velocities: exactly one record, with the right time and the right value, per ensemble with a
valid velocity, in order, for all ensembles but the last. Missing: the last ensemble. -/
theorem C16_velocity_partial (es : List (Ensemble K)) (hp : ∀ e ∈ es, e.Proper) :
    rdiVelocity (rdiLog es) = es.dropLast.filterMap Ensemble.velocity := by
  cases es with
  | nil => rfl
  | cons e es =>
    have hlog : rdiLog (e :: es) = .ts e.t :: (e.body ++ rdiLog es) := by simp [rdiLog]
    rw [rdiVelocity, hlog]
    simp only [rdiRun, rdiStep]
    have : exportVel ({} : RdiState K) = ({}, none) := rfl
    rw [this]
    simp only [Option.toList_none, List.nil_append]
    exact rdi_vel_from es e _ (hp e (by simp)) (fun x hx => hp x (by simp [hx])) rfl rfl rfl

private theorem body_alt_valid {R} (exp : RdiState K → RdiState K × Option R) : ∀ (body : List (RdiLine K)) (s : RdiState K),
    (∀ l ∈ body, ∀ t, l ≠ .ts t) → s.altValid = true →
    (bodyState exp s body).alt =
      ((body.filterMap fun l => match l with | .bd a => some a | _ => none).getLast?).or s.alt
  | [], s, _, _ => by simp [bodyState]
  | l :: body, s, h, hv => by
    have hb : bodyState exp s (l :: body) = bodyState exp (rdiStep exp s l).1 body := rfl
    have hv' : (rdiStep exp s l).1.altValid = true := by
      cases l with
      | ts t => exact absurd rfl (h (.ts t) (by simp) t)
      | sa a => simpa [rdiStep] using hv
      | bd a => simp only [rdiStep, hv, if_true]
      | other => simpa [rdiStep] using hv
      | bi ok v => cases ok <;> simp [rdiStep, hv]
    rw [hb, body_alt_valid exp body _ (fun x hx => h x (by simp [hx])) hv']
    cases l with
    | ts t => exact absurd rfl (h (.ts t) (by simp) t)
    | sa a => simp [rdiStep]
    | other => simp [rdiStep]
    | bi ok v => cases ok <;> simp [rdiStep]
    | bd a =>
      simp only [rdiStep, hv, if_true, List.filterMap_cons]
      cases hl : (List.filterMap (fun l => match l with | RdiLine.bd a => some a | _ => none) body).getLast? with
      | none =>
        have := List.getLast?_eq_none_iff.mp hl
        rw [this]; simp
      | some w => rw [List.getLast?_cons, hl]; simp

private theorem body_alt {R} (exp : RdiState K → RdiState K × Option R) : ∀ (body : List (RdiLine K)) (s : RdiState K),
    (∀ l ∈ body, ∀ t, l ≠ .ts t) → s.altValid = false → s.alt = none →
    (bodyState exp s body).alt =
      ((body.dropWhile fun l => match l with | .bi true _ => false | _ => true).filterMap
        fun l => match l with | .bd a => some a | _ => none).getLast?
  | [], s, _, _, hn => by simp [bodyState, hn]
  | l :: body, s, h, hv, hn => by
    have hb : bodyState exp s (l :: body) = bodyState exp (rdiStep exp s l).1 body := rfl
    have hrest : ∀ x ∈ body, ∀ t, x ≠ .ts t := fun x hx => h x (by simp [hx])
    rw [hb]
    cases l with
    | ts t => exact absurd rfl (h (.ts t) (by simp) t)
    | sa a => simpa [List.dropWhile_cons] using body_alt exp body (rdiStep exp s (.sa a)).1 hrest hv hn
    | other => simpa [List.dropWhile_cons] using body_alt exp body (rdiStep exp s .other).1 hrest hv hn
    | bd a =>
      have := body_alt exp body (rdiStep exp s (.bd a)).1 hrest (by simp [rdiStep, hv]) (by simp [rdiStep, hv, hn])
      simpa [List.dropWhile_cons] using this
    | bi ok v =>
      cases ok with
      | false =>
        have := body_alt exp body (rdiStep exp s (.bi false v)).1 hrest (by simp [rdiStep, hv]) (by simp [rdiStep, hn])
        simpa [List.dropWhile_cons] using this
      | true =>
        have := body_alt_valid exp body (rdiStep exp s (.bi true v)).1 hrest (by simp [rdiStep])
        rw [this]
        simp [rdiStep, hn]

private theorem rdi_alt_from : ∀ (es : List (Ensemble K)) (e : Ensemble K) (s : RdiState K), e.Proper → (∀ e ∈ es, e.Proper) →
    s.alt = none → s.altValid = false → s.stamp = some e.t → s.stampAlt = some e.t →
    rdiRun exportAlt s (e.body ++ rdiLog es) = ((e :: es).dropLast).filterMap Ensemble.altitude
  | [], e, s, hp, _, hv, hb, hs, hd => by
    simp only [rdiLog, List.flatMap_nil, List.append_nil]
    have := run_body exportAlt e.body s [] hp
    simp only [List.append_nil] at this
    rw [this]; simp [rdiRun]
  | e' :: es, e, s, hp, hps, hv, hbad, hs, hd => by
    obtain ⟨h1, _, h2, _⟩ := body_vel exportAlt e.body s hp
    have h3 := body_alt exportAlt e.body s hp hbad hv
    have hlog : rdiLog (e' :: es) = .ts e'.t :: (e'.body ++ rdiLog es) := by simp [rdiLog]
    rw [hlog, run_body exportAlt e.body s _ hp]
    set b := bodyState exportAlt s e.body with hb
    rw [hs] at h1
    rw [hd] at h2
    simp only [rdiRun, rdiStep]
    have hdl : (e :: e' :: es).dropLast = e :: (e' :: es).dropLast := rfl
    rw [hdl, List.filterMap_cons]
    cases hlast : ((e.body.dropWhile fun l => match l with | RdiLine.bi true _ => false | _ => true).filterMap
        fun l => match l with | RdiLine.bd a => some a | _ => none).getLast? with
    | none =>
      rw [hlast] at h3
      have hexp : exportAlt b = (b, none) := by simp [exportAlt, h3]
      have hvel : e.altitude = none := congrArg (Option.map fun v => (e.t, v)) hlast
      rw [hexp, hvel]
      simp only [Option.toList_none, List.nil_append]
      exact rdi_alt_from es e' _ (hps e' (by simp)) (fun x hx => hps x (by simp [hx])) h3 rfl rfl rfl
    | some v =>
      rw [hlast] at h3
      have hexp : exportAlt b = ({ b with alt := none, stampAlt := none }, some (e.t, v)) := by
        simp [exportAlt, h3, h1, h2]
      have hvel : e.altitude = some (e.t, v) := congrArg (Option.map fun v => (e.t, v)) hlast
      rw [hexp, hvel]
      simp only [Option.toList_some, List.singleton_append]
      congr 1
      exact rdi_alt_from es e' _ (hps e' (by simp)) (fun x hx => hps x (by simp [hx])) rfl rfl rfl rfl

/-- C16 (partial), altitudes: exactly one record per ensemble with a bottom range that follows a valid velocity, for
all ensembles but the last. Missing: the last ensemble. -/
theorem C16_altitude_partial (es : List (Ensemble K)) (hp : ∀ e ∈ es, e.Proper) :
    rdiAltitude (rdiLog es) = es.dropLast.filterMap Ensemble.altitude := by
  cases es with
  | nil => rfl
  | cons e es =>
    have hlog : rdiLog (e :: es) = .ts e.t :: (e.body ++ rdiLog es) := by simp [rdiLog]
    rw [rdiAltitude, hlog]
    simp only [rdiRun, rdiStep]
    have : exportAlt ({} : RdiState K) = ({}, none) := rfl
    rw [this]
    simp only [Option.toList_none, List.nil_append]
    exact rdi_alt_from es e _ (hp e (by simp)) (fun x hx => hp x (by simp [hx])) rfl rfl rfl rfl

/-- C16, orientation, is false: in the PD6 format the attitude line `:SA` comes before the time line `:TS` of its ensemble,
and the parser attaches it to the time of the ensemble before. -/
theorem C16_orientation_false (t1 t2 t3 : K) (a1 a2 a3 : V3 K) :
    rdiOrientation [.sa a1, .ts t1, .sa a2, .ts t2, .sa a3, .ts t3] = [(t1, a2), (t2, a3)] := by
  simp [rdiOrientation, rdiRun, rdiStep, exportAtt]

example : rdiVelocity (rdiLog [(⟨1, [.bi true ⟨1, 2, 3⟩, .bd 5]⟩ : Ensemble ℚ), ⟨2, [.bi false ⟨0, 0, 0⟩]⟩, ⟨3, []⟩])
    = [(1, ⟨1, 2, 3⟩)] := by
  simp [rdiLog, rdiVelocity, rdiRun, rdiStep, exportVel]

end

end Oplab.Props
