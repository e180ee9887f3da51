import Mathlib.Data.List.Basic
import Verif.Spec.DebayerFolder

/-! # C255: debayering a folder -/

namespace Oplab.Props
open Oplab Oplab.Spec

private theorem picName_inj {s t e : List Char} (h : picName s e = picName t e) : s = t := List.append_cancel_right h

private theorem picName_split {s t e f : List Char} (he : '.' ∉ e) (hf : '.' ∉ f) (h : picName s e = picName t f) : s = t ∧ e = f := by
  unfold picName at h
  rcases List.append_eq_append_iff.1 h with ⟨a, h1, h2⟩ | ⟨a, h1, h2⟩
  · cases a with
    | nil => simp only [List.nil_append, List.cons.injEq, true_and, List.append_nil] at h1 h2; exact ⟨h1.symm, h2⟩
    | cons c a =>
      simp only [List.cons_append, List.cons.injEq] at h2
      exact absurd (by rw [h2.2]; simp) he
  · cases a with
    | nil => simp only [List.nil_append, List.cons.injEq, true_and, List.append_nil] at h1 h2; exact ⟨h1, h2.symm⟩
    | cons c a =>
      simp only [List.cons_append, List.cons.injEq] at h2
      exact absurd (by rw [h2.2]; simp) hf

private theorem png_no_dot : '.' ∉ ['p', 'n', 'g'] := by decide

/-- What holds while steps are left. -/
private structure DebInv {P : Type} (conv : P → Option P) (a : DebayerArgs) (stems : List (List Char)) (f0 : PicFile → Option P)
    (s : DebayerState P) (steps : List DebayerStep) : Prop where
  other : ∀ f, (∀ t ∈ stems, f ≠ (a.out, picName t ['p', 'n', 'g'])) → s.files f = f0 f
  job : ∀ t ∈ stems,
    (steps.filter (fun e => e.stem = t) = [.read t, .write t] ∧ s.files (a.out, picName t ['p', 'n', 'g']) = f0 (a.out, picName t ['p', 'n', 'g'])) ∨
    (steps.filter (fun e => e.stem = t) = [.write t] ∧ s.done t = (f0 (a.src, picName t a.ext)).bind conv) ∨
    (steps.filter (fun e => e.stem = t) = [] ∧ s.files (a.out, picName t ['p', 'n', 'g']) = (f0 (a.src, picName t a.ext)).bind conv)
  none : ∀ t, t ∉ stems → steps.filter (fun e => e.stem = t) = []

private theorem deb_run {P : Type} (conv : BayerCode → P → Option P) (a : DebayerArgs) (code : BayerCode) (hm : debayerMode a.pattern = .ok (some code))
    (hext : '.' ∉ a.ext) (stems : List (List Char)) (f0 : PicFile → Option P)
    (hs : ∀ t ∈ stems, ((f0 (a.src, picName t a.ext)).bind (conv code)).isSome = true) (steps : List DebayerStep) :
    ∀ s : DebayerState P, DebInv (conv code) a stems f0 s steps →
      ∃ s', debayerSteps conv a s steps = .ok s' ∧ DebInv (conv code) a stems f0 s' [] := by
  induction steps with
  | nil => intro s h; exact ⟨s, rfl, h⟩
  | cons e steps ih =>
    intro s h
    have hne : ∀ t, t ≠ e.stem → (e :: steps).filter (fun e => e.stem = t) = steps.filter (fun e => e.stem = t) := by
      intro t ht
      rw [List.filter_cons_of_neg]
      simpa using fun h => ht h.symm
    have heq : (e :: steps).filter (fun x => x.stem = e.stem) = e :: steps.filter (fun x => x.stem = e.stem) := by
      rw [List.filter_cons_of_pos]; simp
    have hmem : e.stem ∈ stems := by
      by_contra hn
      have := h.none _ hn
      rw [heq] at this; cases this
    have hnone : ∀ t, t ∉ stems → steps.filter (fun e => e.stem = t) = [] := by
      intro t ht
      rw [← hne t (fun e' => ht (e' ▸ hmem))]
      exact h.none t ht
    have hj := h.job e.stem hmem
    rw [heq] at hj
    cases e with
    | read t =>
      rcases hj with ⟨h1, h2⟩ | ⟨h1, h2⟩ | ⟨h1, h2⟩
      · have h1' : steps.filter (fun e => e.stem = t) = [.write t] := (List.cons.inj h1).2
        have hsrc : s.files (a.src, picName t a.ext) = f0 (a.src, picName t a.ext) := by
          by_cases hc : ∃ u ∈ stems, (a.src, picName t a.ext) = (a.out, picName u ['p', 'n', 'g'])
          · obtain ⟨u, hu, hc⟩ := hc
            have hx := picName_split hext png_no_dot (Prod.mk.inj hc).2
            rw [hc, ← hx.1]
            exact h2
          · push Not at hc
            exact h.other _ hc
        obtain ⟨p, hp⟩ := Option.isSome_iff_exists.1 (hs t hmem)
        have hstep : debayerStep conv a s (.read t) = .ok { s with done := fun u => if u = t then some p else s.done u } := by
          simp only [debayerStep, hm, bind, Except.bind]
          rw [hsrc]
          have hp' : (f0 (a.src, picName t a.ext)).bind (conv code) = some p := hp
          simp only [hp']
        obtain ⟨s', hr, hi⟩ := ih { s with done := fun u => if u = t then some p else s.done u } ⟨h.other, by
          intro u hu
          by_cases hut : u = t
          · subst hut
            exact Or.inr (Or.inl ⟨h1', by simp only [if_true]; exact hp.symm⟩)
          · have := h.job u hu
            rw [hne u hut] at this
            simpa only [if_neg hut] using this, hnone⟩
        exact ⟨s', by simp only [debayerSteps, hstep, bind, Except.bind]; exact hr, hi⟩
      · exact absurd (List.cons.inj h1).1 (by simp)
      · cases h1
    | write t =>
      rcases hj with ⟨h1, h2⟩ | ⟨h1, h2⟩ | ⟨h1, h2⟩
      · exact absurd (List.cons.inj h1).1 (by simp)
      · have h1' : steps.filter (fun e => e.stem = t) = [] := (List.cons.inj h1).2
        obtain ⟨p, hp⟩ := Option.isSome_iff_exists.1 (hs t hmem)
        have hd : s.done t = some p := h2.trans hp
        have hstep : debayerStep conv a s (.write t) =
            .ok { s with files := fun f => if f = (a.out, picName t ['p', 'n', 'g']) then some p else s.files f } := by
          simp only [debayerStep, hd]
        obtain ⟨s', hr, hi⟩ := ih { s with files := fun f => if f = (a.out, picName t ['p', 'n', 'g']) then some p else s.files f } ⟨by
          intro f hf
          simp only [if_neg (hf t hmem)]
          exact h.other f hf, by
          intro u hu
          by_cases hut : u = t
          · subst hut
            exact Or.inr (Or.inr ⟨h1', by simp only [if_true]; exact hp.symm⟩)
          · have := h.job u hu
            rw [hne u hut] at this
            have hf : ¬ ((a.out, picName u ['p', 'n', 'g']) : PicFile) = (a.out, picName t ['p', 'n', 'g']) :=
              fun e => hut (picName_inj (Prod.mk.inj e).2)
            simpa only [if_neg hf] using this, hnone⟩
        exact ⟨s', by simp only [debayerSteps, hstep, bind, Except.bind]; exact hr, hi⟩
      · cases h1

/-- C255: whatever the order in which the workers read and write, every image is converted from the image as it was before the run,
and no other file is changed, also if the images are written to the folder they are read from. -/
theorem C255_all_partial {P : Type} (conv : BayerCode → P → Option P) (a : DebayerArgs) (code : BayerCode)
    (hm : (a.pattern, code) ∈ patternCode) (hext : '.' ∉ a.ext) (stems : List (List Char)) (files : PicFile → Option P)
    (hs : ∀ t ∈ stems, ((files (a.src, picName t a.ext)).bind (conv code)).isSome = true) (steps : List DebayerStep)
    (hsch : DebayerSchedule stems steps) :
    ∃ after, debayerRun conv a files steps = .ok after ∧ Debayered (conv code) a stems files after := by
  have hm' : debayerMode a.pattern = .ok (some code) := by
    simp only [patternCode, List.mem_cons, Prod.mk.injEq, List.not_mem_nil, or_false] at hm
    rcases hm with ⟨h, rfl⟩ | ⟨h, rfl⟩ | ⟨h, rfl⟩ | ⟨h, rfl⟩ | ⟨h, rfl⟩ | ⟨h, rfl⟩ | ⟨h, rfl⟩ | ⟨h, rfl⟩ <;> rw [h] <;> rfl
  obtain ⟨s', hr, hi⟩ := deb_run conv a code hm' hext stems files hs steps ⟨files, fun _ => none⟩ ⟨fun _ _ => rfl, by
    intro t ht
    have := hsch t
    rw [if_pos ht] at this
    exact Or.inl ⟨this, rfl⟩, by
    intro t ht
    have := hsch t
    rwa [if_neg ht] at this⟩
  refine ⟨s'.files, by simp only [debayerRun, hr, bind, Except.bind], ?_, hi.other⟩
  intro t ht
  obtain ⟨q, hq⟩ := Option.isSome_iff_exists.1 (hs t ht)
  obtain ⟨p, hp, hpq⟩ := Option.bind_eq_some_iff.1 hq
  rcases hi.job t ht with ⟨h1, -⟩ | ⟨h1, -⟩ | ⟨-, h2⟩
  · cases h1
  · cases h1
  · exact ⟨p, q, hp, hpq, h2.trans hq⟩

/-- C255: two schedules of the workers give the same files. -/
theorem C255_schedules {P : Type} (conv : BayerCode → P → Option P) (a : DebayerArgs) (code : BayerCode)
    (hm : (a.pattern, code) ∈ patternCode) (hext : '.' ∉ a.ext) (stems : List (List Char)) (files : PicFile → Option P)
    (hs : ∀ t ∈ stems, ((files (a.src, picName t a.ext)).bind (conv code)).isSome = true) (x y : List DebayerStep)
    (hx : DebayerSchedule stems x) (hy : DebayerSchedule stems y) :
    ∃ after, debayerRun conv a files x = .ok after ∧ debayerRun conv a files y = .ok after := by
  obtain ⟨u, hu, h1, h2⟩ := C255_all_partial conv a code hm hext stems files hs x hx
  obtain ⟨v, hv, h3, h4⟩ := C255_all_partial conv a code hm hext stems files hs y hy
  have e : u = v := by
    funext f
    by_cases hc : ∃ t ∈ stems, f = (a.out, picName t ['p', 'n', 'g'])
    · obtain ⟨t, ht, rfl⟩ := hc
      obtain ⟨p, q, hp, hq, h⟩ := h1 t ht
      obtain ⟨p', q', hp', hq', h'⟩ := h3 t ht
      rw [hp] at hp'
      cases hp'
      rw [hq] at hq'
      cases hq'
      exact h.trans h'.symm
    · push Not at hc
      rw [h2 f hc, h4 f hc]
  subst e
  exact ⟨u, hu, hv⟩

/-- C255 (partial): the images that are read are kept, and a second run gives the same, if they are in another folder or no PNG files.
Missing: PNG images that are written to the folder they are read from, see `C255_sources_false`. -/
theorem C255_again_partial {P : Type} (conv : BayerCode → P → Option P) (a : DebayerArgs) (code : BayerCode)
    (hm : (a.pattern, code) ∈ patternCode) (hext : '.' ∉ a.ext) (hd : a.src ≠ a.out ∨ a.ext ≠ ['p', 'n', 'g'])
    (stems : List (List Char)) (files : PicFile → Option P)
    (hs : ∀ t ∈ stems, ((files (a.src, picName t a.ext)).bind (conv code)).isSome = true) (x y : List DebayerStep)
    (hx : DebayerSchedule stems x) (hy : DebayerSchedule stems y) :
    ∃ after, debayerRun conv a files x = .ok after ∧ debayerRun conv a after y = .ok after ∧
      ∀ t, after (a.src, picName t a.ext) = files (a.src, picName t a.ext) := by
  obtain ⟨u, hu, h1, h2⟩ := C255_all_partial conv a code hm hext stems files hs x hx
  have hk : ∀ t, u (a.src, picName t a.ext) = files (a.src, picName t a.ext) := by
    intro t
    apply h2
    intro t' _ e
    have e' := Prod.mk.inj e
    have hx := picName_split hext png_no_dot e'.2
    exact hd.elim (fun h => h e'.1) (fun h => h hx.2)
  obtain ⟨v, hv, h3, h4⟩ := C255_all_partial conv a code hm hext stems u (fun t ht => by rw [hk t]; exact hs t ht) y hy
  have e : v = u := by
    funext f
    by_cases hc : ∃ t ∈ stems, f = (a.out, picName t ['p', 'n', 'g'])
    · obtain ⟨t, ht, rfl⟩ := hc
      obtain ⟨p, q, hp, hq, h⟩ := h1 t ht
      obtain ⟨p', q', hp', hq', h'⟩ := h3 t ht
      rw [hk t, hp] at hp'
      cases hp'
      rw [hq] at hq'
      cases hq'
      exact h'.trans h.symm
    · push Not at hc
      exact h4 f hc
  subst e
  exact ⟨v, hu, hv, hk⟩

private def bayArgs : DebayerArgs := ⟨"in", ['t', 'i', 'f'], "RGGB", "out"⟩
private def bayFiles : PicFile → Option ℕ := fun f =>
  if f = ("in", picName ['a'] ['t', 'i', 'f']) then some 1 else if f = ("in", picName ['b'] ['t', 'i', 'f']) then some 2 else none
private def bayConv : BayerCode → ℕ → Option ℕ := fun _ n => if n < 10 then some (n + 10) else none

example : (bayArgs.pattern, BayerCode.bg) ∈ patternCode ∧ '.' ∉ bayArgs.ext ∧
    (∀ t ∈ [['a'], ['b']], ((bayFiles (bayArgs.src, picName t bayArgs.ext)).bind (bayConv .bg)).isSome = true) ∧
    DebayerSchedule [['a'], ['b']] [.read ['b'], .read ['a'], .write ['a'], .write ['b']] := by
  refine ⟨by decide, by decide, by decide, ?_⟩
  intro t
  by_cases ha : t = ['a']
  · subst ha; decide
  · by_cases hb : t = ['b']
    · subst hb; decide
    · have h1 : ¬ ['a'] = t := fun e => ha e.symm
      have h2 : ¬ ['b'] = t := fun e => hb e.symm
      simp [DebayerStep.stem, h1, h2, ha, hb]

/-- C255: an image that is missing or that cannot be converted stops the run, in every schedule in which it is read (unless images are
replaced). -/
theorem C255_refused {P : Type} (conv : BayerCode → P → Option P) (a : DebayerArgs) (code : BayerCode)
    (hm : (a.pattern, code) ∈ patternCode) (hext : '.' ∉ a.ext) (hd : a.src ≠ a.out ∨ a.ext ≠ ['p', 'n', 'g']) (t : List Char)
    (files : PicFile → Option P) (steps : List DebayerStep) (ht : .read t ∈ steps)
    (hr : (files (a.src, picName t a.ext)).bind (conv code) = none) :
    ∃ e, debayerRun conv a files steps = .error e := by
  have hm' : debayerMode a.pattern = .ok (some code) := by
    simp only [patternCode, List.mem_cons, Prod.mk.injEq, List.not_mem_nil, or_false] at hm
    rcases hm with ⟨h, rfl⟩ | ⟨h, rfl⟩ | ⟨h, rfl⟩ | ⟨h, rfl⟩ | ⟨h, rfl⟩ | ⟨h, rfl⟩ | ⟨h, rfl⟩ | ⟨h, rfl⟩ <;> rw [h] <;> rfl
  have key : ∀ (l : List DebayerStep), .read t ∈ l → ∀ s : DebayerState P,
      s.files (a.src, picName t a.ext) = files (a.src, picName t a.ext) → ∃ e, debayerSteps conv a s l = .error e := by
    intro l
    induction l with
    | nil => intro h; cases h
    | cons e l ih =>
      intro hl s hs
      by_cases he0 : e = .read t
      · subst he0
        refine ⟨.assertion, ?_⟩
        simp only [debayerSteps, debayerStep, hm', bind, Except.bind, hs]
        have hr' : (files (a.src, picName t a.ext)).bind (conv code) = none := hr
        simp only [hr']
      have hl' : .read t ∈ l := (List.mem_cons.1 hl).resolve_left fun h => he0 h.symm
      simp only [debayerSteps]
      cases he : debayerStep conv a s e with
      | error x => exact ⟨x, rfl⟩
      | ok s' =>
        refine ih hl' s' ?_
        cases e with
        | read u =>
          simp only [debayerStep, hm', bind, Except.bind] at he
          split at he
          · cases he
          · simp only [Except.ok.injEq] at he
            rw [← he]; exact hs
        | write u =>
          simp only [debayerStep] at he
          split at he
          · simp only [Except.ok.injEq] at he
            rw [← he]; exact hs
          · simp only [Except.ok.injEq] at he
            rw [← he]
            have hf : ¬ ((a.src, picName t a.ext) : PicFile) = (a.out, picName u ['p', 'n', 'g']) := by
              intro e
              have e' := Prod.mk.inj e
              have hx := picName_split hext png_no_dot e'.2
              exact hd.elim (fun h => h e'.1) (fun h => h hx.2)
            simp only [if_neg hf]
            exact hs
  obtain ⟨e, he⟩ := key steps ht ⟨files, fun _ => none⟩ rfl
  exact ⟨e, by simp only [debayerRun, he, bind, Except.bind]⟩

example : (bayFiles (bayArgs.src, picName ['c'] bayArgs.ext)).bind (bayConv .bg) = none ∧
    DebayerStep.read ['c'] ∈ [DebayerStep.read ['a'], .write ['a'], .read ['c']] := by decide

/-- C255: the script and `correct_images` take a pattern to be the same conversion. -/
theorem C255_patterns (pattern : String) (code : BayerCode) :
    (debayerMode pattern = .ok (some code) ↔ (pattern, code) ∈ patternCode) ∧ (bayerCode pattern = .ok code ↔ (pattern, code) ∈ patternCode) := by
  constructor
  · constructor
    · intro h
      unfold debayerMode at h
      split at h
      · rename_i hp; cases h; rcases hp with rfl | rfl <;> decide
      split at h
      · rename_i hp; cases h; rcases hp with rfl | rfl <;> decide
      split at h
      · rename_i hp; cases h; rcases hp with rfl | rfl <;> decide
      split at h
      · rename_i hp; cases h; rcases hp with rfl | rfl <;> decide
      split at h
      · cases h
      · cases h
    · intro h
      simp only [patternCode, List.mem_cons, Prod.mk.injEq, List.not_mem_nil, or_false] at h
      rcases h with ⟨rfl, rfl⟩ | ⟨rfl, rfl⟩ | ⟨rfl, rfl⟩ | ⟨rfl, rfl⟩ | ⟨rfl, rfl⟩ | ⟨rfl, rfl⟩ | ⟨rfl, rfl⟩ | ⟨rfl, rfl⟩ <;> simp [debayerMode]
  · constructor
    · intro h
      unfold bayerCode at h
      split at h
      · rename_i hp; cases h; rcases hp with rfl | rfl <;> decide
      split at h
      · rename_i hp; cases h; rcases hp with rfl | rfl <;> decide
      split at h
      · rename_i hp; cases h; rcases hp with rfl | rfl <;> decide
      split at h
      · rename_i hp; cases h; rcases hp with rfl | rfl <;> decide
      cases h
    · intro h
      simp only [patternCode, List.mem_cons, Prod.mk.injEq, List.not_mem_nil, or_false] at h
      rcases h with ⟨rfl, rfl⟩ | ⟨rfl, rfl⟩ | ⟨rfl, rfl⟩ | ⟨rfl, rfl⟩ | ⟨rfl, rfl⟩ | ⟨rfl, rfl⟩ | ⟨rfl, rfl⟩ | ⟨rfl, rfl⟩ <;> simp [bayerCode]

/-- C255: for the pattern MONO, which the help text offers, nothing is written. -/
theorem C255_mono_false : ¬ AllDebayered := by
  intro h
  obtain ⟨after, h1, h2⟩ := h (fun _ n => some n) ⟨"in", ['t', 'i', 'f'], "MONO", "out"⟩ bayFiles ['a'] 1 (by decide) (by decide) (fun _ => rfl)
  have e : debayerRun (fun (_ : BayerCode) (n : ℕ) => some n) ⟨"in", ['t', 'i', 'f'], "MONO", "out"⟩ bayFiles [.read ['a'], .write ['a']] = .ok bayFiles := by
    rfl
  rw [e] at h1
  simp only [Except.ok.injEq] at h1
  subst h1
  exact absurd h2 (by decide)

/-- C255: PNG images written to the folder they are read from are replaced. -/
theorem C255_sources_false : ¬ BayerSourcesKept := by
  intro h
  obtain ⟨after, h1, h2, -⟩ := C255_all_partial bayConv ⟨"in", ['p', 'n', 'g'], "RGGB", "in"⟩ .bg (by decide) (by decide) [['a']]
    (fun f => if f = ("in", picName ['a'] ['p', 'n', 'g']) then some 1 else none) (by decide) [.read ['a'], .write ['a']] (by
      intro t
      by_cases ha : t = ['a']
      · subst ha; decide
      · have h1 : ¬ ['a'] = t := fun e => ha e.symm
        simp [DebayerStep.stem, h1, ha])
  have h3 := h _ _ _ after ['a'] h1
  obtain ⟨p, q, hp, hq, ho⟩ := h2 ['a'] (by simp)
  simp only at hp h3 ho
  rw [ho, hp] at h3
  have hp' : p = 1 := by
    have e : (if ("in", picName ['a'] ['p', 'n', 'g']) = ("in", picName ['a'] ['p', 'n', 'g']) then some 1 else none) = some p := hp
    rw [if_pos rfl] at e
    exact (Option.some.inj e).symm
  subst hp'
  have hq' : q = 11 := (Option.some.inj (show some 11 = some q from hq)).symm
  subst hq'
  exact absurd h3 (by decide)

end Oplab.Props
