import Verif.Spec.CalCrash
import Mathlib.Tactic.Common
import Mathlib.Tactic.Push

/-! # C268: calibrations that are stopped -/

namespace Oplab.Props

open Oplab.Spec

variable {C D : Type} (t : CalTools C D)

private theorem getLastD_append {A : Type} (a b : List A) (s : A) : (a ++ b).getLastD s = b.getLastD (a.getLastD s) := by
  cases b with
  | nil => simp
  | cons x xs => simp [List.getLastD_eq_getLast?, List.getLast?_append]

private theorem next_final (r : CalTrace C D) (s : CalFolder C D) (f : CalFolder C D → CalTrace C D) :
    (r.next s f).final s = if r.2 = none then (f (r.final s)).final (r.final s) else r.final s := by
  unfold CalTrace.next
  cases h : r.2 with
  | some e => simp [CalTrace.final]
  | none => simp only [if_true]; exact getLastD_append _ _ _

private theorem next_err (r : CalTrace C D) (s : CalFolder C D) (f : CalFolder C D → CalTrace C D) :
    (r.next s f).2 = if r.2 = none then (f (r.final s)).2 else r.2 := by
  unfold CalTrace.next
  cases h : r.2 with
  | some e => simp
  | none => simp

private theorem next_killed {r : CalTrace C D} {s s' : CalFolder C D} {f : CalFolder C D → CalTrace C D} (h : KilledIn (r.next s f) s s') :
    KilledIn r s s' ∨ (r.2 = none ∧ KilledIn (f (r.final s)) (r.final s) s') := by
  unfold CalTrace.next at h
  cases hr : r.2 with
  | some e => rw [hr] at h; exact Or.inl h
  | none =>
    rw [hr] at h
    rcases h with h | h
    · exact Or.inl (Or.inl h)
    · rcases List.mem_append.mp h with h | h
      · exact Or.inl (Or.inr h)
      · exact Or.inr ⟨rfl, Or.inr h⟩

private theorem put_put {A : Type} (f : String → Option A) (k : String) (a b : A) : putFile (putFile f k a) k b = putFile f k b := by
  funext x
  simp only [putFile]
  split <;> rfl

private theorem put_same {A : Type} (f : String → Option A) (k : String) (a : A) (h : f k = some a) : putFile f k a = f := by
  funext x
  simp only [putFile]
  split
  · subst x; exact h.symm
  · rfl

private theorem put_at {A : Type} (f : String → Option A) (k : String) (a : A) : putFile f k a k = some a := by simp [putFile]

private theorem put_ne {A : Type} (f : String → Option A) (k x : String) (a : A) (h : x ≠ k) : putFile f k a x = f x := by simp [putFile, h]

private theorem no_yaml {s : CalFolder C D} {j : String → Option (Stored D)} {k : String} : ¬ NoPart (⟨putFile s.yaml k .part, j⟩ : CalFolder C D) :=
  fun h => h.1 k (put_at _ _ _)

private theorem no_json {s : CalFolder C D} {y : String → Option (Stored C)} {k : String} : ¬ NoPart (⟨y, putFile s.json k .part⟩ : CalFolder C D) :=
  fun h => h.2 k (put_at _ _ _)

/-- What one camera does, as cases. -/
private theorem steps_cases (o : CalOptions) (n : String) (s : CalFolder C D) :
    ((s.yaml (monoFile n o.suffix)).isSome = true ∧ o.fo = false ∧ monoCameraSteps t o n s = ([], none)) ∨
    (¬ ((s.yaml (monoFile n o.suffix)).isSome = true ∧ o.fo = false) ∧
      ((∃ e, monoCameraSteps t o n s = ([], some e)) ∨
       (8 ≤ t.images n ∧ ∃ d, o.foa = false ∧ s.json (monoFile n o.suffix) = some (.whole d) ∧
          monoCameraSteps t o n s = (yamlWrite s (monoFile n o.suffix) (t.solve d none), none)) ∨
       (8 ≤ t.images n ∧ ∃ d, (o.foa = true ∨ s.json (monoFile n o.suffix) = none) ∧ t.detect n none = some d ∧
          monoCameraSteps t o n s = (jsonWrite s (monoFile n o.suffix) d ++
            yamlWrite { s with json := putFile s.json (monoFile n o.suffix) (.whole d) } (monoFile n o.suffix) (t.solve d none), none)))) := by
  unfold monoCameraSteps monoSteps
  by_cases h : (s.yaml (monoFile n o.suffix)).isSome = true ∧ o.fo = false
  · left; exact ⟨h.1, h.2, by rw [if_pos h]⟩
  · right
    refine ⟨h, ?_⟩
    rw [if_neg h]
    by_cases hi : t.images n < 8
    · left; exact ⟨_, by rw [if_pos hi]⟩
    · rw [if_neg hi]
      cases hf : o.foa with
      | true =>
        simp only [if_true]
        cases hd : t.detect n none with
        | none => left; exact ⟨_, rfl⟩
        | some d => right; right; exact ⟨by omega, d, Or.inl trivial, rfl, rfl⟩
      | false =>
        simp only [Bool.false_eq_true, if_false]
        cases hj : s.json (monoFile n o.suffix) with
        | some w =>
          cases w with
          | whole d => right; left; exact ⟨by omega, d, trivial, rfl, rfl⟩
          | part => left; exact ⟨_, rfl⟩
        | none =>
          dsimp only
          cases hd : t.detect n none with
          | none => left; exact ⟨_, rfl⟩
          | some d => right; right; exact ⟨by omega, d, Or.inr rfl, rfl, rfl⟩

/-- The camera is calibrated and calibrating it again changes nothing. -/
private def Done (o : CalOptions) (n : String) (s : CalFolder C D) : Prop :=
  ((s.yaml (monoFile n o.suffix)).isSome = true ∧ o.fo = false) ∨
  (8 ≤ t.images n ∧ ∃ d, s.yaml (monoFile n o.suffix) = some (.whole (t.solve d none)) ∧ s.json (monoFile n o.suffix) = some (.whole d) ∧
    (o.foa = true → t.detect n none = some d))

private theorem done_stay {o : CalOptions} {n : String} {s : CalFolder C D} (h : Done t o n s) :
    (monoCameraSteps t o n s).final s = s ∧ (monoCameraSteps t o n s).2 = none ∧
      ∀ s', KilledIn (monoCameraSteps t o n s) s s' → NoPart s' → s' = s := by
  by_cases hc : (s.yaml (monoFile n o.suffix)).isSome = true ∧ o.fo = false
  · unfold monoCameraSteps
    rw [if_pos hc]
    refine ⟨rfl, rfl, ?_⟩
    rintro s' (h | h) _
    · exact h
    · cases h
  rcases h with h | ⟨hi, d, hy, hj, hd⟩
  · exact absurd h hc
  unfold monoCameraSteps monoSteps
  rw [if_neg hc, if_neg (by omega)]
  cases hf : o.foa with
  | false =>
    simp only [Bool.false_eq_true, if_false]
    rw [hj]
    dsimp only
    have e : ({ s with yaml := putFile s.yaml (monoFile n o.suffix) (.whole (t.solve d none)) } : CalFolder C D) = s := by
      rw [put_same _ _ _ hy]
    refine ⟨e, rfl, ?_⟩
    rintro s' (h | h) hp
    · exact h
    · simp only [yamlWrite, List.mem_cons, List.not_mem_nil, or_false] at h
      rcases h with h | h
      · subst h; exact absurd hp no_yaml
      · rw [h, e]
  | true =>
    simp only [if_true]
    rw [hd hf]
    dsimp only
    have e1 : ({ s with json := putFile s.json (monoFile n o.suffix) (.whole d) } : CalFolder C D) = s := by rw [put_same _ _ _ hj]
    have e2 : ({ s with yaml := putFile s.yaml (monoFile n o.suffix) (.whole (t.solve d none)) } : CalFolder C D) = s := by rw [put_same _ _ _ hy]
    rw [e1]
    refine ⟨e2, rfl, ?_⟩
    rintro s' (h | h) hp
    · exact h
    · simp only [yamlWrite, jsonWrite, List.mem_cons, List.not_mem_nil, or_false, List.cons_append, List.nil_append] at h
      rcases h with h | h | h | h
      · subst h; exact absurd hp no_json
      · rw [h, e1]
      · subst h; exact absurd hp no_yaml
      · rw [h, e2]

private theorem step_done {o : CalOptions} {n : String} {s : CalFolder C D} (h : (monoCameraSteps t o n s).2 = none) :
    Done t o n ((monoCameraSteps t o n s).final s) := by
  rcases steps_cases t o n s with ⟨h1, h2, h3⟩ | ⟨-, ⟨e, h3⟩ | ⟨hi, d, h1, h2, h3⟩ | ⟨hi, d, h1, h2, h3⟩⟩
  · rw [h3]; exact Or.inl ⟨h1, h2⟩
  · rw [h3] at h; cases h
  · rw [h3]; exact Or.inr ⟨hi, d, put_at _ _ _, h2, fun hf => by rw [h1] at hf; cases hf⟩
  · rw [h3]; exact Or.inr ⟨hi, d, put_at _ _ _, put_at _ _ _, fun _ => h2⟩

private theorem noPart_yaml {s : CalFolder C D} (h : NoPart s) (k : String) (c : C) : NoPart { s with yaml := putFile s.yaml k (.whole c) } := by
  refine ⟨fun f => ?_, h.2⟩
  by_cases e : f = k
  · subst e; rw [show (CalFolder.yaml { s with yaml := putFile s.yaml f (.whole c) }) f = _ from put_at _ _ _]; intro h; cases h
  · rw [show (CalFolder.yaml { s with yaml := putFile s.yaml k (.whole c) }) f = _ from put_ne _ _ _ _ e]; exact h.1 f

private theorem noPart_json {s : CalFolder C D} (h : NoPart s) (k : String) (d : D) : NoPart { s with json := putFile s.json k (.whole d) } := by
  refine ⟨h.1, fun f => ?_⟩
  by_cases e : f = k
  · subst e; rw [show (CalFolder.json { s with json := putFile s.json f (.whole d) }) f = _ from put_at _ _ _]; intro h; cases h
  · rw [show (CalFolder.json { s with json := putFile s.json k (.whole d) }) f = _ from put_ne _ _ _ _ e]; exact h.2 f

private theorem step_noPart {o : CalOptions} {n : String} {s : CalFolder C D} (h : NoPart s) : NoPart ((monoCameraSteps t o n s).final s) := by
  rcases steps_cases t o n s with ⟨h1, h2, h3⟩ | ⟨-, ⟨e, h3⟩ | ⟨hi, d, h1, h2, h3⟩ | ⟨hi, d, h1, h2, h3⟩⟩
  · rw [h3]; exact h
  · rw [h3]; exact h
  · rw [h3]; exact noPart_yaml h _ _
  · rw [h3]; exact noPart_yaml (noPart_json h _ _) _ _

/-- Files of other cameras and other calibrations do not change. -/
private theorem step_frame {o : CalOptions} {n : String} {s s' : CalFolder C D} (h : KilledIn (monoCameraSteps t o n s) s s') (f : String)
    (hf : f ≠ monoFile n o.suffix) : s'.yaml f = s.yaml f ∧ s'.json f = s.json f := by
  rcases steps_cases t o n s with ⟨h1, h2, h3⟩ | ⟨-, ⟨e, h3⟩ | ⟨hi, d, h1, h2, h3⟩ | ⟨hi, d, h1, h2, h3⟩⟩
  · rw [h3] at h
    rcases h with h | h
    · subst h; exact ⟨rfl, rfl⟩
    · cases h
  · rw [h3] at h
    rcases h with h | h
    · subst h; exact ⟨rfl, rfl⟩
    · cases h
  · rw [h3] at h
    rcases h with h | h
    · subst h; exact ⟨rfl, rfl⟩
    · simp only [yamlWrite, List.mem_cons, List.not_mem_nil, or_false] at h
      rcases h with h | h <;> (subst h; exact ⟨put_ne _ _ _ _ hf, rfl⟩)
  · rw [h3] at h
    rcases h with h | h
    · subst h; exact ⟨rfl, rfl⟩
    · simp only [yamlWrite, jsonWrite, List.mem_cons, List.not_mem_nil, or_false, List.cons_append, List.nil_append] at h
      rcases h with h | h | h | h
      · subst h; exact ⟨rfl, put_ne _ _ _ _ hf⟩
      · subst h; exact ⟨rfl, put_ne _ _ _ _ hf⟩
      · subst h; exact ⟨put_ne _ _ _ _ hf, put_ne _ _ _ _ hf⟩
      · subst h; exact ⟨put_ne _ _ _ _ hf, put_ne _ _ _ _ hf⟩

private theorem final_killed (r : CalTrace C D) (s : CalFolder C D) : KilledIn r s (r.final s) := by
  unfold CalTrace.final KilledIn
  rcases r with ⟨l, e⟩
  dsimp only
  rcases List.eq_nil_or_concat l with h | ⟨l', x, h⟩
  · subst h; left; rfl
  · subst h; right; simp

private theorem mono_inj {a b x : String} (h : monoFile a x = monoFile b x) : a = b := by
  unfold monoFile at h
  have h' := congrArg String.toList h
  simp only [String.toList_append] at h'
  have h2 := List.append_cancel_left (List.append_cancel_right h')
  exact String.toList_injective h2

private theorem done_congr {o : CalOptions} {n : String} {s s' : CalFolder C D} (hy : s'.yaml (monoFile n o.suffix) = s.yaml (monoFile n o.suffix))
    (hj : s'.json (monoFile n o.suffix) = s.json (monoFile n o.suffix)) (h : Done t o n s) : Done t o n s' := by
  unfold Done at h ⊢
  rw [hy, hj]
  exact h

private theorem done_step {o : CalOptions} {m n : String} {s s' : CalFolder C D} (h : Done t o m s)
    (hk : KilledIn (monoCameraSteps t o n s) s s') (hp : NoPart s') : Done t o m s' := by
  by_cases e : m = n
  · subst e
    rw [(done_stay t h).2.2 s' hk hp]; exact h
  · have := step_frame t hk (monoFile m o.suffix) (fun h => e (mono_inj h))
    exact done_congr t this.1 this.2 h

private theorem done_trace {o : CalOptions} {m : String} : ∀ (ns : List String) {s s' : CalFolder C D}, NoPart s → Done t o m s →
    KilledIn (monoTrace t o ns s) s s' → NoPart s' → Done t o m s'
  | [], s, s', _, h, hk, _ => by
    rcases hk with hk | hk
    · subst hk; exact h
    · cases hk
  | n :: ns, s, s', hs, h, hk, hp => by
    rcases next_killed hk with hk | ⟨_, hk⟩
    · exact done_step t h hk hp
    · exact done_trace ns (step_noPart t hs) (done_step t h (final_killed _ _) (step_noPart t hs)) hk hp

private theorem again {o : CalOptions} {n : String} {s s' : CalFolder C D}
    (hk : KilledIn (monoCameraSteps t o n s) s s') (hp : NoPart s') :
    (monoCameraSteps t o n s').final s' = (monoCameraSteps t o n s).final s ∧ (monoCameraSteps t o n s').2 = (monoCameraSteps t o n s).2 := by
  by_cases e : s' = s
  · subst e; exact ⟨rfl, rfl⟩
  have hm : s' ∈ (monoCameraSteps t o n s).1 := hk.resolve_left e
  have fin : s' = (monoCameraSteps t o n s).final s → (monoCameraSteps t o n s).2 = none →
      (monoCameraSteps t o n s').final s' = (monoCameraSteps t o n s).final s ∧ (monoCameraSteps t o n s').2 = (monoCameraSteps t o n s).2 := by
    intro h1 h2
    have hd := done_stay t (step_done t h2)
    rw [← h1] at hd ⊢
    exact ⟨hd.1, by rw [hd.2.1, h2]⟩
  rcases steps_cases t o n s with ⟨h1, h2, h3⟩ | ⟨-, ⟨e, h3⟩ | ⟨hi, d, h1, h2, h3⟩ | ⟨hi, d, h1, h2, h3⟩⟩
  · rw [h3] at hm; cases hm
  · rw [h3] at hm; cases hm
  · rw [h3] at hm
    simp only [yamlWrite, List.mem_cons, List.not_mem_nil, or_false] at hm
    rcases hm with hm | hm
    · subst hm; exact absurd hp no_yaml
    · exact fin (by rw [h3, hm]; rfl) (by rw [h3])
  · have hm' := hm
    rw [h3] at hm
    simp only [yamlWrite, jsonWrite, List.mem_cons, List.not_mem_nil, or_false, List.cons_append, List.nil_append] at hm
    rcases hm with hm | hm | hm | hm
    · subst hm; exact absurd hp no_json
    · rw [h3]
      subst hm
      by_cases hc : (s.yaml (monoFile n o.suffix)).isSome = true ∧ o.fo = false
      · rcases steps_cases t o n s with ⟨_, _, h4⟩ | ⟨h4, _⟩
        · rw [h4] at hm'; cases hm'
        · exact absurd hc h4
      have hs : monoCameraSteps t o n { s with json := putFile s.json (monoFile n o.suffix) (.whole d) } =
          monoSteps t n (monoFile n o.suffix) o.foa { s with json := putFile s.json (monoFile n o.suffix) (.whole d) } := by
        unfold monoCameraSteps
        rw [if_neg hc]
      rw [hs]
      unfold monoSteps
      rw [if_neg (by omega)]
      cases hf : o.foa with
      | true =>
        simp only [if_true, h2]
        refine ⟨?_, trivial⟩
        show CalFolder.mk _ _ = CalFolder.mk _ _
        rw [put_put]
      | false =>
        simp only [Bool.false_eq_true, if_false, put_at]
        exact ⟨rfl, trivial⟩
    · subst hm; exact absurd hp no_yaml
    · exact fin (by rw [h3, hm]; rfl) (by rw [h3])

private theorem mono_again {o : CalOptions} : ∀ (ns : List String) {s s' : CalFolder C D}, NoPart s → KilledIn (monoTrace t o ns s) s s' → NoPart s' →
    (monoTrace t o ns s').final s' = (monoTrace t o ns s).final s ∧ (monoTrace t o ns s').2 = (monoTrace t o ns s).2
  | [], s, s', _, hk, _ => by
    rcases hk with hk | hk
    · subst hk; exact ⟨rfl, rfl⟩
    · cases hk
  | n :: ns, s, s', hs, hk, hp => by
    show ((monoCameraSteps t o n s').next s' (monoTrace t o ns)).final s' = ((monoCameraSteps t o n s).next s (monoTrace t o ns)).final s ∧
      ((monoCameraSteps t o n s').next s' (monoTrace t o ns)).2 = ((monoCameraSteps t o n s).next s (monoTrace t o ns)).2
    rw [next_final, next_final, next_err, next_err]
    rcases next_killed hk with hk | ⟨he, hk⟩
    · obtain ⟨h1, h2⟩ := again t hk hp
      rw [h1, h2]
      exact ⟨rfl, rfl⟩
    · have hd : Done t o n s' := done_trace t ns (step_noPart t hs) (step_done t he) hk hp
      obtain ⟨h1, h2, -⟩ := done_stay t hd
      obtain ⟨h3, h4⟩ := mono_again ns (step_noPart t hs) hk hp
      rw [h1, h2, if_pos rfl, if_pos he, if_pos rfl, if_pos he]
      exact ⟨h3, h4⟩

/-- C268: `auv_cal mono` that is killed while no file is being written can be repeated, with any options and for any cameras. -/
theorem C268_mono_partial (o : CalOptions) (names : List String) : CanRepeatBetween (monoTrace t o names) :=
  fun _ _ h0 hk hp => (mono_again t names h0 hk hp).1

private theorem trace_frame {o : CalOptions} (f : String) : ∀ (ns : List String) {s s' : CalFolder C D}, (∀ n ∈ ns, f ≠ monoFile n o.suffix) →
    KilledIn (monoTrace t o ns s) s s' → s'.yaml f = s.yaml f ∧ s'.json f = s.json f
  | [], s, s', _, hk => by
    rcases hk with hk | hk
    · subst hk; exact ⟨rfl, rfl⟩
    · cases hk
  | n :: ns, s, s', hn, hk => by
    rcases next_killed hk with hk | ⟨_, hk⟩
    · exact step_frame t hk f (hn n List.mem_cons_self)
    · obtain ⟨h1, h2⟩ := trace_frame f ns (fun m hm => hn m (List.mem_cons_of_mem _ hm)) hk
      obtain ⟨h3, h4⟩ := step_frame t (final_killed (monoCameraSteps t o n s) s) f (hn n List.mem_cons_self)
      exact ⟨h1.trans h3, h2.trans h4⟩

private theorem forced_again {o : CalOptions} (hf : o.fo = true) (ha : o.foa = true) {n : String} {s s' : CalFolder C D}
    (hk : KilledIn (monoCameraSteps t o n s) s s') :
    (monoCameraSteps t o n s').final s' = (monoCameraSteps t o n s).final s ∧ (monoCameraSteps t o n s').2 = (monoCameraSteps t o n s).2 := by
  have key : ∀ s : CalFolder C D, monoCameraSteps t o n s = if t.images n < 8 then ([], some .quit) else
      match t.detect n none with
      | some d => (jsonWrite s (monoFile n o.suffix) d ++
          yamlWrite { s with json := putFile s.json (monoFile n o.suffix) (.whole d) } (monoFile n o.suffix) (t.solve d none), none)
      | none => ([], some .valueError) := by
    intro s
    unfold monoCameraSteps monoSteps
    rw [if_neg (by rw [hf]; rintro ⟨_, h⟩; cases h), ha]
    simp only [if_true]
    by_cases hi : t.images n < 8
    · rw [if_pos hi, if_pos hi]
    · rw [if_neg hi, if_neg hi]
      cases t.detect n none <;> rfl
  by_cases hi : t.images n < 8
  · rw [key s, if_pos hi] at hk
    rcases hk with hk | hk
    · subst hk; exact ⟨rfl, rfl⟩
    · cases hk
  cases hd : t.detect n none with
  | none =>
    rw [key s, if_neg hi, hd] at hk
    rcases hk with hk | hk
    · subst hk; exact ⟨rfl, rfl⟩
    · cases hk
  | some d =>
    rw [key s, if_neg hi, hd] at hk
    rw [key s, key s', if_neg hi, if_neg hi, hd]
    refine ⟨?_, rfl⟩
    show CalFolder.mk (putFile s'.yaml _ _) (putFile s'.json _ _) = CalFolder.mk (putFile s.yaml _ _) (putFile s.json _ _)
    simp only [KilledIn, yamlWrite, jsonWrite, List.mem_cons, List.not_mem_nil, or_false, List.cons_append, List.nil_append] at hk
    rcases hk with hk | hk | hk | hk | hk <;> subst hk <;> simp only [put_put]

private theorem forced_trace {o : CalOptions} (hf : o.fo = true) (ha : o.foa = true) : ∀ (ns : List String) {s s' : CalFolder C D}, ns.Nodup →
    KilledIn (monoTrace t o ns s) s s' →
    (monoTrace t o ns s').final s' = (monoTrace t o ns s).final s ∧ (monoTrace t o ns s').2 = (monoTrace t o ns s).2
  | [], s, s', _, hk => by
    rcases hk with hk | hk
    · subst hk; exact ⟨rfl, rfl⟩
    · cases hk
  | n :: ns, s, s', hn, hk => by
    show ((monoCameraSteps t o n s').next s' (monoTrace t o ns)).final s' = ((monoCameraSteps t o n s).next s (monoTrace t o ns)).final s ∧
      ((monoCameraSteps t o n s').next s' (monoTrace t o ns)).2 = ((monoCameraSteps t o n s).next s (monoTrace t o ns)).2
    rw [next_final, next_final, next_err, next_err]
    rw [List.nodup_cons] at hn
    rcases next_killed hk with hk | ⟨he, hk⟩
    · obtain ⟨h1, h2⟩ := forced_again t hf ha hk
      rw [h1, h2]
      exact ⟨rfl, rfl⟩
    · have hfr := trace_frame t (monoFile n o.suffix) ns (fun m hm h => hn.1 (mono_inj h ▸ hm)) hk
      have hd : Done t o n s' := done_congr t hfr.1 hfr.2 (step_done t he)
      obtain ⟨h1, h2, -⟩ := done_stay t hd
      obtain ⟨h3, h4⟩ := forced_trace hf ha ns hn.2 hk
      rw [h1, h2, if_pos rfl, if_pos he, if_pos rfl, if_pos he]
      exact ⟨h3, h4⟩

/-- C268: with `-FF` the calibration of different cameras can be repeated wherever it was killed. -/
theorem C268_force (o : CalOptions) (hf : o.fo = true) (ha : o.foa = true) (names : List String) (hn : names.Nodup) :
    CanRepeat (monoTrace t o names) :=
  fun _ _ _ hk => (forced_trace t hf ha names hn hk).1

/-- C268: a run that is not killed is that of `CalFiles`. -/
theorem C268_same (o : CalOptions) : ∀ (names : List String) (s : CalState C D),
    (monoTrace t o names (asFolder s)).final (asFolder s) = asFolder (calMono t o names s).1 ∧
      (monoTrace t o names (asFolder s)).2 = (calMono t o names s).2
  | [], s => ⟨rfl, rfl⟩
  | n :: ns, s => by
    have as_yaml : ∀ (s : CalState C D) k c, asFolder { s with yaml := putFile s.yaml k c } =
        { asFolder s with yaml := putFile (asFolder s).yaml k (.whole c) } := by
      intro s k c
      unfold asFolder
      congr 1
      funext x
      simp only [putFile]
      split <;> rfl
    have as_json : ∀ (s : CalState C D) k d, asFolder { s with json := putFile s.json k d } =
        { asFolder s with json := putFile (asFolder s).json k (.whole d) } := by
      intro s k c
      unfold asFolder
      congr 1
      funext x
      simp only [putFile]
      split <;> rfl
    have one : (monoCameraSteps t o n (asFolder s)).final (asFolder s) = asFolder (monoCamera t o n s).1 ∧
        (monoCameraSteps t o n (asFolder s)).2 = (monoCamera t o n s).2 := by
      unfold monoCameraSteps monoCamera
      have hy : ((asFolder s).yaml (monoFile n o.suffix)).isSome = (s.yaml (monoFile n o.suffix)).isSome := by simp [asFolder]
      rw [hy]
      by_cases h : (s.yaml (monoFile n o.suffix)).isSome = true ∧ o.fo = false
      · rw [if_pos h, if_pos h]; exact ⟨rfl, rfl⟩
      rw [if_neg h, if_neg h]
      unfold monoSteps calibrateMono
      by_cases hi : t.images n < 8
      · rw [if_pos hi, if_pos hi]; exact ⟨rfl, rfl⟩
      rw [if_neg hi, if_neg hi]
      have hj : (asFolder s).json (monoFile n o.suffix) = (s.json (monoFile n o.suffix)).map .whole := rfl
      rw [hj]
      have det : (match t.detect n none with
            | some d => (jsonWrite (asFolder s) (monoFile n o.suffix) d ++ yamlWrite { asFolder s with json := putFile (asFolder s).json (monoFile n o.suffix) (.whole d) }
                (monoFile n o.suffix) (t.solve d none), none)
            | none => ([], some Err.valueError) : CalTrace C D).final (asFolder s) =
          asFolder (match t.detect n none with
            | some d => (⟨putFile s.yaml (monoFile n o.suffix) (t.solve d none), putFile s.json (monoFile n o.suffix) d⟩, none)
            | none => (s, some .valueError) : CalRun C D).1 ∧
          (match t.detect n none with
            | some d => (jsonWrite (asFolder s) (monoFile n o.suffix) d ++ yamlWrite { asFolder s with json := putFile (asFolder s).json (monoFile n o.suffix) (.whole d) }
                (monoFile n o.suffix) (t.solve d none), none)
            | none => ([], some Err.valueError) : CalTrace C D).2 =
          (match t.detect n none with
            | some d => (⟨putFile s.yaml (monoFile n o.suffix) (t.solve d none), putFile s.json (monoFile n o.suffix) d⟩, none)
            | none => (s, some .valueError) : CalRun C D).2 := by
        cases t.detect n none with
        | none => exact ⟨rfl, rfl⟩
        | some d =>
          refine ⟨?_, rfl⟩
          dsimp only
          rw [show (⟨putFile s.yaml (monoFile n o.suffix) (t.solve d none), putFile s.json (monoFile n o.suffix) d⟩ : CalState C D) =
            { ({ s with json := putFile s.json (monoFile n o.suffix) d } : CalState C D) with yaml := putFile s.yaml (monoFile n o.suffix) (t.solve d none) } from rfl]
          rw [as_yaml { s with json := putFile s.json (monoFile n o.suffix) d }, as_json]
          rfl
      cases hf : o.foa with
      | true => simp only [if_true]; exact det
      | false =>
        simp only [Bool.false_eq_true, if_false]
        cases hs : s.json (monoFile n o.suffix) with
        | none => exact det
        | some d => exact ⟨(as_yaml _ _ _).symm, rfl⟩
    show ((monoCameraSteps t o n (asFolder s)).next (asFolder s) (monoTrace t o ns)).final _ = asFolder (andThen (monoCamera t o n s) (calMono t o ns)).1 ∧
      ((monoCameraSteps t o n (asFolder s)).next (asFolder s) (monoTrace t o ns)).2 = (andThen (monoCamera t o n s) (calMono t o ns)).2
    rw [next_final, next_err, one.1, one.2]
    unfold andThen
    cases he : (monoCamera t o n s).2 with
    | some e => exact ⟨rfl, rfl⟩
    | none => simp only [if_true]; exact C268_same o ns _

private theorem mono_noPart {o : CalOptions} : ∀ (ns : List String) {s : CalFolder C D}, NoPart s → NoPart ((monoTrace t o ns s).final s)
  | [], _, h => h
  | n :: ns, s, h => by
    show NoPart (((monoCameraSteps t o n s).next s (monoTrace t o ns)).final s)
    rw [next_final]
    split
    · exact mono_noPart ns (step_noPart t h)
    · exact step_noPart t h

private theorem stereo_ne (l r x n y : String) : stereoFile l r x ≠ monoFile n y := by
  intro h
  have h' := congrArg (fun z => z.toList.head?) h
  unfold stereoFile monoFile at h'
  simp only [String.toList_append, List.append_assoc] at h'
  rw [show ("stereo_".toList ++ (l.toList ++ ("_".toList ++ (r.toList ++ x.toList)))).head? = some 's' from rfl,
    show ("mono_".toList ++ (n.toList ++ y.toList)).head? = some 'm' from rfl] at h'
  exact absurd h' (by decide)

private theorem both_skip {o : CalOptions} (hf : o.fo = false) (hx : o.suffix = "") {l r : String} {s : CalFolder C D}
    (hl : (s.yaml (monoFile l "")).isSome = true) (hr : (s.yaml (monoFile r "")).isSome = true) : monoTrace t o [l, r] s = ([], none) := by
  have a : monoCameraSteps t o l s = ([], none) := by unfold monoCameraSteps; rw [hx, if_pos ⟨hl, hf⟩]
  have b : monoCameraSteps t o r s = ([], none) := by unfold monoCameraSteps; rw [hx, if_pos ⟨hr, hf⟩]
  show (monoCameraSteps t o l s).next s (monoTrace t o [r]) = _
  rw [a]
  show ([] ++ ((monoCameraSteps t o r s).next s (monoTrace t o [])).1, ((monoCameraSteps t o r s).next s (monoTrace t o [])).2) = _
  rw [b]
  rfl

/-- C268: `auv_cal stereo` for two cameras, without `-F`, that is killed while no file is being written can be repeated. -/
theorem C268_stereo_partial (junk : Option C) (o : CalOptions) (hf : o.fo = false) (left right : String) :
    CanRepeatBetween (stereoTrace t junk o left right) := by
  intro s0 s h0 hk hp
  set out := stereoFile left right o.suffix with hout
  by_cases he : (s0.yaml out).isSome = true ∧ o.fo = false
  · unfold stereoTrace at hk
    rw [if_pos he] at hk
    rcases hk with hk | hk
    · subst hk; rfl
    · cases hk
  have hn : ∀ s : CalFolder C D, (s.yaml out).isSome = false → stereoTrace t junk o left right s =
      (ensureMonoSteps t o left right s).next s (stereoSteps t junk left right out) := by
    intro s hs
    unfold stereoTrace
    rw [if_neg (by rw [← hout, hs]; rintro ⟨h, _⟩; cases h)]
  have h0out : (s0.yaml out).isSome = false := by
    cases hh : (s0.yaml out).isSome with
    | false => rfl
    | true => exact absurd ⟨hh, hf⟩ he
  rw [hn s0 h0out] at hk ⊢
  rw [next_final]
  rcases next_killed hk with hk | ⟨hno, hk⟩
  · have hsout : (s.yaml out).isSome = false := by
      rw [← h0out]
      unfold ensureMonoSteps at hk
      split at hk
      · rcases hk with hk | hk
        · subst hk; rfl
        · cases hk
      · split at hk
        · rcases hk with hk | hk
          · subst hk; rfl
          · cases hk
        · rw [(trace_frame t out [left, right] (fun n _ => stereo_ne _ _ _ _ _) hk).1]
    rw [hn s hsout, next_final]
    have key : (ensureMonoSteps t o left right s).final s = (ensureMonoSteps t o left right s0).final s0 ∧
        (ensureMonoSteps t o left right s).2 = (ensureMonoSteps t o left right s0).2 := by
      unfold ensureMonoSteps at hk
      split at hk
      · rcases hk with hk | hk
        · subst hk; exact ⟨rfl, rfl⟩
        · cases hk
      · rename_i hboth
        split at hk
        · rcases hk with hk | hk
          · subst hk; exact ⟨rfl, rfl⟩
          · cases hk
        · rename_i hx
          have hx' : o.suffix = "" := not_not.mp hx
          have hm := mono_again t [left, right] h0 hk hp
          have e0 : ensureMonoSteps t o left right s0 = monoTrace t o [left, right] s0 := by
            unfold ensureMonoSteps; rw [if_neg hboth, if_neg hx]
          rw [e0]
          by_cases hb : (s.yaml (monoFile left "")).isSome = true ∧ (s.yaml (monoFile right "")).isSome = true
          · have es : ensureMonoSteps t o left right s = ([], none) := by unfold ensureMonoSteps; rw [if_pos hb]
            rw [both_skip t hf hx' hb.1 hb.2] at hm
            rw [es]
            exact hm
          · have es : ensureMonoSteps t o left right s = monoTrace t o [left, right] s := by
              unfold ensureMonoSteps; rw [if_neg hb, if_neg hx]
            rw [es]
            exact hm
    rw [key.1, key.2]
  · rw [if_pos hno]
    by_cases e : s = (ensureMonoSteps t o left right s0).final s0
    · have hsout : (s.yaml out).isSome = false := by
        rw [e, ← h0out]
        unfold ensureMonoSteps
        split
        · rfl
        · split
          · rfl
          · rw [(trace_frame t out [left, right] (fun n _ => stereo_ne _ _ _ _ _) (final_killed _ s0)).1]
      rw [hn s hsout, next_final]
      have hboth : (ensureMonoSteps t o left right s).final s = s ∧ (ensureMonoSteps t o left right s).2 = none := by
        by_cases hb0 : (s0.yaml (monoFile left "")).isSome = true ∧ (s0.yaml (monoFile right "")).isSome = true
        · have e0 : ensureMonoSteps t o left right s0 = ([], none) := by unfold ensureMonoSteps; rw [if_pos hb0]
          rw [e0] at e
          have : s = s0 := e
          subst this
          rw [e0]; exact ⟨rfl, rfl⟩
        · by_cases hx : o.suffix ≠ ""
          · have e0 : ensureMonoSteps t o left right s0 = ([], some .quit) := by unfold ensureMonoSteps; rw [if_neg hb0, if_pos hx]
            rw [e0] at hno; cases hno
          · have e0 : ensureMonoSteps t o left right s0 = monoTrace t o [left, right] s0 := by
              unfold ensureMonoSteps; rw [if_neg hb0, if_neg hx]
            rw [e0] at e hno
            have hm := mono_again t (o := o) [left, right] h0 (final_killed (monoTrace t o [left, right] s0) s0) (mono_noPart t _ h0)
            rw [← e] at hm
            unfold ensureMonoSteps
            split
            · exact ⟨rfl, rfl⟩
            · exact ⟨hm.1, hm.2.trans hno⟩
      rw [hboth.1, hboth.2, if_pos rfl, ← e]
    · have hm : s ∈ (stereoSteps t junk left right out ((ensureMonoSteps t o left right s0).final s0)).1 := hk.resolve_left e
      have hfin : s = (stereoSteps t junk left right out ((ensureMonoSteps t o left right s0).final s0)).final
          ((ensureMonoSteps t o left right s0).final s0) ∧ (s.yaml out).isSome = true := by
        revert hm
        unfold stereoSteps
        split
        · split
          · intro hm
            simp only [yamlWrite, List.mem_cons, List.not_mem_nil, or_false] at hm
            rcases hm with hm | hm
            · subst hm; exact absurd hp no_yaml
            · subst hm; exact ⟨rfl, by dsimp only; rw [put_at]; rfl⟩
          · intro hm; cases hm
        · intro hm; cases hm
      have es : stereoTrace t junk o left right s = ([], some .quit) := by
        unfold stereoTrace; rw [if_pos ⟨hfin.2, hf⟩]
      rw [es]
      exact hfin.1

/-- C268: `auv_cal laser` with one laser that is killed while no file is being written can be repeated; with `-F`, also with two lasers. -/
theorem C268_laser_partial (o : CalOptions) (name : String) (c : C) (h : t.twoLasers = false ∨ o.fo = true) :
    CanRepeatBetween (laserTrace t o name c) := by
  intro s0 s h0 hk hp
  by_cases e : s = s0
  · subst e; rfl
  have hm := hk.resolve_left e
  by_cases he : (s0.yaml (laserFile "top" name o.suffix)).isSome = true ∧ o.fo = false
  · unfold laserTrace at hm
    rw [if_pos he] at hm
    cases hm
  unfold laserTrace at hm ⊢
  rw [if_neg he] at hm ⊢
  cases hl : t.laser c with
  | none => rw [hl] at hm; cases hm
  | some p =>
    rw [hl] at hm
    dsimp only at hm ⊢
    cases ht : t.twoLasers with
    | false =>
      rw [ht] at hm
      simp only [Bool.false_eq_true, if_false] at hm ⊢
      simp only [yamlWrite, List.mem_cons, List.not_mem_nil, or_false] at hm
      rcases hm with hm | hm
      · subst hm; exact absurd hp no_yaml
      · subst hm
        split
        · rfl
        · show CalFolder.mk (putFile (putFile _ _ _) _ _) _ = CalFolder.mk _ _
          rw [put_put]
    | true =>
      have hfo := h.resolve_left (by rw [ht]; simp)
      rw [ht] at hm
      simp only [if_true] at hm ⊢
      rw [if_neg (by rw [hfo]; rintro ⟨_, h⟩; cases h)]
      have hne : laserFile "bottom" name o.suffix ≠ laserFile "top" name o.suffix := by
        intro h
        have h' := congrArg (fun z => z.toList) h
        unfold laserFile at h'
        simp only [String.toList_append, List.append_assoc] at h'
        have h2 := congrArg List.head? (List.append_cancel_left h')
        rw [show ("bottom".toList ++ ("_".toList ++ (name.toList ++ o.suffix.toList))).head? = some 'b' from rfl,
          show ("top".toList ++ ("_".toList ++ (name.toList ++ o.suffix.toList))).head? = some 't' from rfl] at h2
        exact absurd h2 (by decide)
      simp only [yamlWrite, List.mem_cons, List.not_mem_nil, or_false, List.cons_append, List.nil_append] at hm
      show CalFolder.mk (putFile (putFile s.yaml _ _) _ _) s.json = CalFolder.mk (putFile (putFile s0.yaml _ _) _ _) s0.json
      rcases hm with hm | hm | hm | hm
      · subst hm; exact absurd hp no_yaml
      · subst hm; simp only [put_put]
      · subst hm
        exact absurd hp (no_yaml (s := { s0 with yaml := putFile s0.yaml (laserFile "top" name o.suffix) (.whole p.1) }))
      · subst hm
        congr 1
        funext x
        simp only [putFile]
        by_cases h1 : x = laserFile "bottom" name o.suffix
        · simp [h1]
        · by_cases h2 : x = laserFile "top" name o.suffix
          · simp [h1, h2, hne.symm]
          · simp [h1, h2]

private theorem as_put (s : CalState C D) (k : String) (c : C) : asFolder { s with yaml := putFile s.yaml k c } =
    { asFolder s with yaml := putFile (asFolder s).yaml k (.whole c) } := by
  unfold asFolder
  congr 1
  funext x
  simp only [putFile]
  split <;> rfl

/-- C268: a calibration of the lasers that is not killed leaves the files of `CalFiles`. -/
theorem C268_laser_same (o : CalOptions) (c0 c1 : String) (names : List String) (c : C) (s : CalState C D)
    (hl : t.laserFolders = true) (hi : ¬ t.laserImages < 8) (hc : s.yaml (stereoFile c0 c1 "") = some c) :
    (laserTrace t o c0 c (asFolder s)).final (asFolder s) = asFolder (calLaser t o (c0 :: c1 :: names) s).1 ∧
      (laserTrace t o c0 c (asFolder s)).2 = (calLaser t o (c0 :: c1 :: names) s).2 := by
  unfold laserTrace calLaser
  have hy : ((asFolder s).yaml (laserFile "top" c0 o.suffix)).isSome = (s.yaml (laserFile "top" c0 o.suffix)).isSome := by simp [asFolder]
  dsimp only
  rw [hy]
  by_cases h : (s.yaml (laserFile "top" c0 o.suffix)).isSome = true ∧ o.fo = false
  · rw [if_pos h, if_pos h]; exact ⟨rfl, rfl⟩
  rw [if_neg h, if_neg h]
  have he : ensureStereo t o (c0 :: c1 :: names) (stereoFile c0 c1 "") s = (s, none) := by
    unfold ensureStereo
    rw [hc]
    rfl
  rw [he]
  unfold andThen calibrateLaser
  simp only [hl, hi, hc, if_false, Bool.true_eq_false]
  cases t.laser c with
  | none => exact ⟨rfl, rfl⟩
  | some p =>
    dsimp only
    cases ht : t.twoLasers with
    | false =>
      simp only [Bool.false_eq_true, if_false]
      exact ⟨(as_put _ _ _).symm, trivial⟩
    | true =>
      simp only [if_true]
      refine ⟨?_, trivial⟩
      have h1 := as_put s (laserFile "top" c0 o.suffix) p.1
      have h2 := as_put { s with yaml := putFile s.yaml (laserFile "top" c0 o.suffix) p.1 } (laserFile "bottom" c0 o.suffix) p.2
      refine Eq.trans ?_ h2.symm
      dsimp only
      rw [h1]
      rfl

/-- C268: a calibration of a pair of cameras that is not killed, of images of one size, leaves the files of `CalFiles`. -/
theorem C268_stereo_same (junk : Option C) (o : CalOptions) (left right : String) (s : CalState C D)
    (hl : ¬ t.images left < 8) (hr : ¬ t.images right < 8) (hs : ∀ a b, t.sameSize a b = true) :
    (stereoTrace t junk o left right (asFolder s)).final (asFolder s) = asFolder (calStereo t o [left, right] s).1 ∧
      (stereoTrace t junk o left right (asFolder s)).2 = (calStereo t o [left, right] s).2 := by
  have pair : ∀ s : CalState C D, (stereoSteps t junk left right (stereoFile left right o.suffix) (asFolder s)).final (asFolder s) =
        asFolder (calibrateStereo t left (monoFile left "") right (monoFile right "") (stereoFile left right o.suffix) o.foa s).1 ∧
      (stereoSteps t junk left right (stereoFile left right o.suffix) (asFolder s)).2 =
        (calibrateStereo t left (monoFile left "") right (monoFile right "") (stereoFile left right o.suffix) o.foa s).2 := by
    intro s
    unfold stereoSteps calibrateStereo
    have hj : ∀ f, readStored none ((asFolder s).json f) = s.json f := by
      intro f; unfold asFolder; dsimp only; cases s.json f <;> rfl
    have hy : ∀ f, readStored junk ((asFolder s).yaml f) = s.yaml f := by
      intro f; unfold asFolder; dsimp only; cases s.yaml f <;> rfl
    rw [hj, hj, hy, hy, if_neg (by rintro (h | h); exacts [hl h, hr h])]
    cases s.json (monoFile left "") with
    | none => exact ⟨rfl, rfl⟩
    | some dl =>
    cases s.json (monoFile right "") with
    | none => exact ⟨rfl, rfl⟩
    | some dr =>
    cases s.yaml (monoFile left "") with
    | none => exact ⟨rfl, rfl⟩
    | some cl =>
    cases s.yaml (monoFile right "") with
    | none => exact ⟨rfl, rfl⟩
    | some cr =>
      dsimp only
      rw [if_pos (hs cl cr)]
      unfold writeStereo
      cases t.stereo cl cr dl dr with
      | none => exact ⟨rfl, rfl⟩
      | some c => exact ⟨(as_put _ _ _).symm, rfl⟩
  have ens : (ensureMonoSteps t o left right (asFolder s)).final (asFolder s) = asFolder (ensureMono t o [left, right] left right s).1 ∧
      (ensureMonoSteps t o left right (asFolder s)).2 = (ensureMono t o [left, right] left right s).2 := by
    unfold ensureMonoSteps ensureMono
    have hy : ∀ f, ((asFolder s).yaml f).isSome = (s.yaml f).isSome := by intro f; simp [asFolder]
    rw [hy, hy]
    split
    · exact ⟨rfl, rfl⟩
    · split
      · exact ⟨rfl, rfl⟩
      · exact C268_same t o [left, right] s
  unfold stereoTrace calStereo calPair
  have hy : ((asFolder s).yaml (stereoFile left right o.suffix)).isSome = (s.yaml (stereoFile left right o.suffix)).isSome := by simp [asFolder]
  dsimp only
  rw [hy]
  split
  · exact ⟨rfl, rfl⟩
  · rw [next_final, next_err, ens.1, ens.2]
    unfold andThen
    cases he : (ensureMono t o [left, right] left right s).2 with
    | some e => exact ⟨rfl, rfl⟩
    | none => exact pair _

/-! ### Witnesses -/

private def exTools (two : Bool) : CalTools ℕ ℕ where
  images _ := 10
  detect _ _ := some 3
  solve d _ := d + 1
  sameSize _ _ := true
  stereo a b c d := some (a + b + c + d)
  laserImages := 10
  laser c := some (c, c + 1)
  twoLasers := two
  laserFolders := true

private def exEmpty : CalFolder ℕ ℕ := ⟨fun _ => none, fun _ => none⟩

private theorem exEmpty_noPart : NoPart exEmpty := ⟨fun _ => Option.some_ne_none _ |>.symm, fun _ => Option.some_ne_none _ |>.symm⟩

/-- Five cameras are calibrated in twenty steps, at each of which the program may be killed. -/
example : (monoTrace (exTools true) ⟨false, false, ""⟩ ["a", "b", "c", "d", "e"] exEmpty).1.length = 20 := by decide +kernel

/-- Two cameras without calibrations; the pair is calibrated with what was just found for each camera. -/
example : ((stereoTrace (exTools true) none ⟨false, false, ""⟩ "a" "b" exEmpty).final exEmpty).yaml (stereoFile "a" "b" "") = some (.whole 14) := by
  have h := C268_stereo_same (exTools true) none ⟨false, false, ""⟩ "a" "b" ⟨fun _ => none, fun _ => none⟩ (by decide) (by decide)
    (fun _ _ => rfl)
  have e : asFolder (⟨fun _ => none, fun _ => none⟩ : CalState ℕ ℕ) = exEmpty := rfl
  rw [e] at h
  rw [h.1]
  have k : (calStereo (exTools true) ⟨false, false, ""⟩ ["a", "b"] ⟨fun _ => none, fun _ => none⟩).1.yaml (stereoFile "a" "b" "") = some 14 := by
    decide +kernel
  unfold asFolder
  dsimp only
  rw [k]
  rfl

/-- One laser: the plane of the top laser is written. -/
example : ((laserTrace (exTools false) ⟨false, false, ""⟩ "a" 5 (asFolder ⟨fun f => if f = stereoFile "a" "b" "" then some 5 else none, fun _ => none⟩)).final
    exEmpty).yaml (laserFile "top" "a" "") = some (.whole 5) := rfl

private def isPart {A : Type} : Option (Stored A) → Bool
  | some .part => true
  | _ => false

private def killedAt (r : CalTrace ℕ ℕ) (k : ℕ) : CalFolder ℕ ℕ := r.1.getD k exEmpty

private theorem killedAt_mem (r : CalTrace ℕ ℕ) (k : ℕ) (h : k < r.1.length) : KilledIn r exEmpty (killedAt r k) := by
  right
  unfold killedAt
  rw [List.getD_eq_getElem?_getD, List.getElem?_eq_getElem h]
  exact List.getElem_mem h

/-- C268 is false: killed while the calibration is written, the camera counts as calibrated, and its file stays as it is. -/
theorem C268_mono_false : ¬ CanRepeat (monoTrace (exTools true) ⟨false, false, ""⟩ ["a"]) := by
  intro h
  have := h exEmpty _ exEmpty_noPart (killedAt_mem (monoTrace (exTools true) ⟨false, false, ""⟩ ["a"] exEmpty) 2 (by decide +kernel))
  have := congrArg (fun s => isPart (s.yaml (monoFile "a" ""))) this
  exact absurd this (by decide +kernel)

/-- C268 is false with `-F`: killed while the detections are written, every run but one with `-FF` fails with an error. -/
theorem C268_detections_false : ¬ CanRepeat (monoTrace (exTools true) ⟨true, false, ""⟩ ["a"]) := by
  intro h
  have := h exEmpty _ exEmpty_noPart (killedAt_mem (monoTrace (exTools true) ⟨true, false, ""⟩ ["a"] exEmpty) 0 (by decide +kernel))
  have := congrArg (fun s => (s.yaml (monoFile "a" "")).isSome) this
  exact absurd this (by decide +kernel)

/-- C268 is false: killed between the two planes, the plane of the second laser is never written. -/
theorem C268_laser_false : ¬ CanRepeatBetween (laserTrace (exTools true) ⟨false, false, ""⟩ "a" 5) := by
  intro h
  have := h exEmpty _ exEmpty_noPart (killedAt_mem (laserTrace (exTools true) ⟨false, false, ""⟩ "a" 5 exEmpty) 1 (by decide +kernel)) ?_
  · have := congrArg (fun s => (s.yaml (laserFile "bottom" "a" "")).isSome) this
    exact absurd this (by decide +kernel)
  · show NoPart { exEmpty with yaml := putFile exEmpty.yaml (laserFile "top" "a" "") (.whole 5) }
    exact noPart_yaml exEmpty_noPart _ _

private def exOld : CalFolder ℕ ℕ := ⟨fun f => if f = "mono_b" then some (.whole 9) else none, fun _ => none⟩

/-- C268 is false with `-F`: killed after the missing monocular calibration was made, the next run uses the old calibration of the other camera,
which the run that was killed would have replaced. -/
theorem C268_stereo_false : ¬ CanRepeatBetween (stereoTrace (exTools true) none ⟨true, false, ""⟩ "a" "b") := by
  intro h
  have h0 : NoPart exOld := by
    refine ⟨fun f h => ?_, fun f h => by cases h⟩
    simp only [exOld] at h
    split at h <;> cases h
  let s : CalFolder ℕ ℕ := ⟨putFile exOld.yaml "mono_a" (.whole 4), putFile exOld.json "mono_a" (.whole 3)⟩
  have hs : NoPart s := noPart_yaml (noPart_json h0 _ _) _ _
  have hk : KilledIn (stereoTrace (exTools true) none ⟨true, false, ""⟩ "a" "b" exOld) exOld s := by
    right
    have : s = (stereoTrace (exTools true) none ⟨true, false, ""⟩ "a" "b" exOld).1.getD 3 exOld := rfl
    rw [this, List.getD_eq_getElem?_getD, List.getElem?_eq_getElem (by decide +kernel)]
    exact List.getElem_mem _
  have := congrArg (fun s => (s.json "mono_b").isSome) (h exOld s h0 hk hs)
  exact absurd this (by decide +kernel)

end Oplab.Props
