import Verif.Spec.KoyoFiles
import Mathlib.Tactic

/-! # C251: the files that the conversion of a dive of the ROV of 2020 reads -/

namespace Oplab.Props
open Oplab Oplab.Spec

private theorem pattern_iff (name : List Char) :
    koyoPattern name = true ↔ ∃ start c, name = start ++ [c] ++ ['.', 'c', 's', 'v'] ∧ c ≠ 'F' ∧ c ≠ 'I' ∧ c ≠ 'X' := by
  constructor
  · intro h
    unfold koyoPattern at h
    split at h
    · rename_i c rest he
      refine ⟨rest.reverse, c, ?_, ?_⟩
      · have := congrArg List.reverse he
        rw [List.reverse_reverse] at this
        rw [this]
        simp
      · simpa [and_assoc] using h
    · cases h
  · rintro ⟨start, c, rfl, h1, h2, h3⟩
    unfold koyoPattern
    simp [h1, h2, h3]

/-- C251 (part of: exactly the position files are read): every file that is read is a `.csv` file whose name does not end in FIX, and of those every
one is read whose name ends in another character than F, I and X. -/
theorem C251_files_partial (name : List Char) :
    (koyoPattern name = true → PositionFile name) ∧
    (∀ start c, name = start ++ [c] ++ ['.', 'c', 's', 'v'] → (koyoPattern name = true ↔ c ≠ 'F' ∧ c ≠ 'I' ∧ c ≠ 'X')) := by
  constructor
  · intro h
    obtain ⟨start, c, rfl, h1, h2, h3⟩ := (pattern_iff name).mp h
    refine ⟨start ++ [c], rfl, ?_⟩
    rintro ⟨s, hs⟩
    have : (start ++ [c]) = (s ++ ['F', 'I']) ++ ['X'] := by rw [hs]; simp
    exact h3 (by simpa using (List.append_inj' this rfl).2)
  · rintro start c rfl
    rw [pattern_iff]
    constructor
    · rintro ⟨s, c', he, h⟩
      have h1 := (List.append_inj' he rfl).1
      have h2 := (List.append_inj' h1 rfl).2
      cases h2
      exact h
    · intro h
      exact ⟨start, c, rfl, h⟩

example : koyoPattern "20200824.csv".toList = true := by decide +kernel
example : koyoPattern "20200824_FIX.csv".toList = false := by decide +kernel

/-- C251: it is not so that exactly the position files are read: the pattern leaves out every file whose name ends in F, I or X. -/
theorem C251_files_false : ¬ PositionFilesRead := by
  intro h
  have := (h "KOYO_II.csv".toList).mpr ⟨"KOYO_II".toList, by decide +kernel, by
    rintro ⟨s, hs⟩
    have e : "KOYO_II".toList = ['K', 'O', 'Y', 'O', '_', 'I'] ++ ['I'] := by decide +kernel
    rw [e] at hs
    have hs' : ['K', 'O', 'Y', 'O', '_', 'I'] ++ ['I'] = (s ++ ['F', 'I']) ++ ['X'] := by rw [hs]; simp
    have := (List.append_inj' hs' rfl).2
    revert this
    decide⟩
  revert this
  decide +kernel

/-- C251: the conversion starts only if all its inputs exist; with a missing one it ends before anything is read. -/
theorem C251_inputs (c : RovSetup) (forcing : Bool) (exist : List (String × Bool)) (d : KoyoDive) (h : ¬ InputsExist d) :
    koyoConvert c forcing exist d = .error .assertion := by
  obtain ⟨dive, log, turns, laser, camera, vehicle, mission⟩ := d
  simp only [InputsExist] at h
  unfold koyoConvert
  rcases dive with _ | _
  · rfl
  · rcases turns with _ | turns
    · rfl
    · rcases laser with _ | laser
      · rfl
      · rcases camera with _ | camera
        · rfl
        · rcases vehicle with _ | _
          · rfl
          · rcases mission with _ | _
            · rfl
            · simp at h

/-- C251: without a position file that is read, the conversion ends with an error and writes nothing. -/
theorem C251_none (c : RovSetup) (forcing : Bool) (exist : List (String × Bool)) (d : KoyoDive) (hi : InputsExist d)
    (h : ∀ f ∈ d.shipLog, koyoPattern f.1 = false) : koyoConvert c forcing exist d = .error .indexError := by
  obtain ⟨dive, log, turns, laser, camera, vehicle, mission⟩ := d
  obtain ⟨h1, h2, h3, h4, h5, h6⟩ := hi
  dsimp only at h1 h2 h3 h4 h5 h6
  subst h1 h5 h6
  obtain ⟨turns, rfl⟩ := Option.ne_none_iff_exists'.mp h2
  obtain ⟨laser, rfl⟩ := Option.ne_none_iff_exists'.mp h3
  obtain ⟨camera, rfl⟩ := Option.ne_none_iff_exists'.mp h4
  have he : koyoShipFiles ⟨true, log, some turns, some laser, some camera, true, true⟩ = [] := by
    unfold koyoShipFiles
    rw [List.filter_eq_nil_iff]
    intro f hf
    simp [h f hf]
  have hlog : rovShipLog [] = .ok [] := by
    simp [rovShipLog, shipRecords, rovFill, bind, Except.bind, pure, Except.pure]
  unfold koyoConvert
  simp only [he, List.map_nil, rovRun, hlog, bind, Except.bind, List.head?_nil, Bool.and_self, if_true]
  simp

section
variable {K α : Type} [LinearOrder K]

private theorem mapM_map (files : List (List (Option (K × α)))) (vs : List (List (K × α))) (h : files.mapM shipFile = .ok vs) :
    (∀ f ∈ files, ∃ v, shipFile f = .ok v) ∧ vs = files.map fun f => (shipFile f).toOption.getD [] := by
  induction files generalizing vs with
  | nil =>
    cases h
    exact ⟨by simp, rfl⟩
  | cons f files ih =>
    rw [List.mapM_cons] at h
    cases h1 : shipFile f with
    | error e => rw [h1] at h; cases h
    | ok v =>
      cases h2 : files.mapM shipFile with
      | error e => rw [h1, h2] at h; cases h
      | ok ws =>
        rw [h1, h2] at h
        cases h
        obtain ⟨h3, h4⟩ := ih ws h2
        refine ⟨?_, ?_⟩
        · intro g hg
          rcases List.mem_cons.mp hg with rfl | hg
          · exact ⟨v, h1⟩
          · exact h3 g hg
        · rw [h4, List.map_cons, h1]
          rfl

private theorem map_mapM (files : List (List (Option (K × α)))) (h : ∀ f ∈ files, ∃ v, shipFile f = .ok v) :
    files.mapM shipFile = .ok (files.map fun f => (shipFile f).toOption.getD []) := by
  induction files with
  | nil => rfl
  | cons f files ih =>
    obtain ⟨v, hv⟩ := h f (List.mem_cons_self ..)
    rw [List.mapM_cons, hv, ih fun g hg => h g (List.mem_cons_of_mem _ hg), List.map_cons, hv]
    rfl

/-- C251 (part of: the records do not depend on the order in which the files are listed): so it is if no two records have the same time. -/
theorem C251_listing_partial {files files' : List (List (Option (K × α)))} (hp : files.Perm files') {l : List (K × α)}
    (h : shipRecords files = .ok l) (hd : ∀ a ∈ l, ∀ b ∈ l, a.1 = b.1 → a = b) : shipRecords files' = .ok l := by
  unfold shipRecords at h ⊢
  cases hm : files.mapM shipFile with
  | error e => rw [hm] at h; cases h
  | ok vs =>
    rw [hm] at h
    simp only [bind, Except.bind, Except.ok.injEq] at h
    obtain ⟨h1, h2⟩ := mapM_map files vs hm
    rw [map_mapM files' fun f hf => h1 f (hp.mem_iff.mpr hf)]
    simp only [bind, Except.bind, Except.ok.injEq]
    have hperm : ((files'.map fun f => (shipFile f).toOption.getD []).flatten).Perm vs.flatten := by
      rw [h2]
      exact (hp.symm.map _).flatten
    have hp1 := List.perm_insertionSort (r := fun a b : K × α => a.1 ≤ b.1) vs.flatten
    have hp2 := List.perm_insertionSort (r := fun a b : K × α => a.1 ≤ b.1) ((files'.map fun f => (shipFile f).toOption.getD []).flatten)
    have : Std.Total fun a b : K × α => a.1 ≤ b.1 := ⟨fun a b => le_total _ _⟩
    have : IsTrans (K × α) fun a b => a.1 ≤ b.1 := ⟨fun a b c => le_trans⟩
    have hs1 := List.pairwise_insertionSort (fun a b : K × α => a.1 ≤ b.1) vs.flatten
    have hs2 := List.pairwise_insertionSort (fun a b : K × α => a.1 ≤ b.1) ((files'.map fun f => (shipFile f).toOption.getD []).flatten)
    rw [h] at hp1 hs1
    have hq := (hp2.trans hperm).trans hp1.symm
    exact hq.eq_of_pairwise (fun a b ha hb h3 h4 => hd a (hq.mem_iff.mp ha) b hb (le_antisymm h3 h4)) hs2 hs1

end

/-- C251 (part of: the conversion does not depend on the order in which the files are listed): so it is for the outputs, if no two records of the
ship have the same time. -/
theorem C251_convert_partial (c : RovSetup) (forcing : Bool) (exist : List (String × Bool)) (d : KoyoDive)
    (log : List (List Char × List (Option (ℝ × RovShip)))) (hp : d.shipLog.Perm log) (out : RovFiles)
    (hd : ∀ l, shipRecords ((koyoShipFiles d).map Prod.snd) = .ok l → ∀ a ∈ l, ∀ b ∈ l, a.1 = b.1 → a = b)
    (h : koyoConvert c forcing exist d = .ok out) : koyoConvert c forcing exist { d with shipLog := log } = .ok out := by
  obtain ⟨dive, log0, turns, laser, camera, vehicle, mission⟩ := d
  have hf : (koyoShipFiles ⟨dive, log0, turns, laser, camera, vehicle, mission⟩).Perm
      (koyoShipFiles ⟨dive, log, turns, laser, camera, vehicle, mission⟩) := hp.filter _
  by_cases hi : InputsExist ⟨dive, log0, turns, laser, camera, vehicle, mission⟩
  · obtain ⟨h1, h2, h3, h4, h5, h6⟩ := hi
    dsimp only at h1 h2 h3 h4 h5 h6
    subst h1 h5 h6
    obtain ⟨turns, rfl⟩ := Option.ne_none_iff_exists'.mp h2
    obtain ⟨laser, rfl⟩ := Option.ne_none_iff_exists'.mp h3
    obtain ⟨camera, rfl⟩ := Option.ne_none_iff_exists'.mp h4
    simp only [koyoConvert, Bool.and_self, if_true, Bool.true_eq_false, if_false] at h ⊢
    cases hr : shipRecords ((koyoShipFiles ⟨true, log0, some turns, some laser, some camera, true, true⟩).map Prod.snd) with
    | error e =>
      rw [rovRun, rovShipLog, hr] at h
      cases h
    | ok l =>
      have hr' := C251_listing_partial (hf.map Prod.snd) hr (hd l hr)
      rw [← h, rovRun, rovRun, rovShipLog, rovShipLog, hr, hr']
  · rw [C251_inputs _ _ _ _ hi] at h
    cases h

/-- C251: it is not so that the records do not depend on the order of the listing: of two files with records of the same time, the one listed first
comes first. -/
theorem C251_listing_false : ¬ ListingFree := by
  intro h
  have := h [[some (0, 0), some (1, 1)], [some (0, 0), some (1, 2)]] [[some (0, 0), some (1, 2)], [some (0, 0), some (1, 1)]]
    (List.Perm.swap ..) [(1, 1), (1, 2)] [(1, 2), (1, 1)] rfl rfl
  revert this
  decide

example : ∃ l, shipRecords (K := ℚ) [[some (0, 0), some (3, 1)], [some (1, 0), some (2, 2)]] = .ok l ∧ ∀ a ∈ l, ∀ b ∈ l, a.1 = b.1 → a = b :=
  ⟨[(2, 2), (3, 1)], rfl, by decide⟩

end Oplab.Props
