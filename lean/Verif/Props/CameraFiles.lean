import Verif.Spec.CameraFiles

/-! # C257: the poses in the files of images -/

namespace Oplab.Props
open Oplab Oplab.Spec

variable {α I P : Type}

private theorem bind_ok {β γ : Type} {x : Res β} {f : β → Res γ} {c : γ} (h : (x >>= f) = .ok c) : ∃ a, x = .ok a ∧ f a = .ok c := by
  cases x with
  | error e => cases h
  | ok a => exact ⟨a, rfl, h⟩

private theorem get_nat {β : Type} {l : List β} {i : ℕ} {x : β} (h : pyGet l (i : Int) = .ok x) : l[i]? = some x := by
  have hi : ¬ ((i : Int) < 0) := by omega
  unfold pyGet at h
  simp only [hi, if_false, Int.toNat_natCast] at h
  cases hl : l[i]? with
  | none => simp [hl] at h
  | some y =>
    simp only [hl] at h
    rw [Except.ok.inj h]

private theorem get0 {β : Type} {l : List β} {x : β} (h : pyGet l 0 = .ok x) : l[0]? = some x := get_nat (i := 0) h
private theorem get1 {β : Type} {l : List β} {x : β} (h : pyGet l 1 = .ok x) : l[1]? = some x := get_nat (i := 1) h

private theorem loaded_some (r : ImageRun α I) (s : CamSlot) (h : 0 < (r.loaded s).length) : r.loaded s = r.images s := by
  cases s with
  | one => rfl
  | three => rfl
  | two =>
    show (if r.names.length > 1 then r.images .two else []) = _
    change 0 < (if r.names.length > 1 then r.images .two else []).length at h
    by_cases hn : r.names.length > 1
    · rw [if_pos hn]
    · rw [if_neg hn] at h
      cases h

private theorem mount_three (r : ImageRun α I) (m : α) (h : camera3Position r.format (r.mount .one) (r.mount .two) (r.mount .three) r.lasers = .ok m) :
    SlotMount r .three m := by
  unfold camera3Position at h
  split at h
  · rename_i hf
    obtain ⟨a, ha, h⟩ := bind_ok h
    have ha := get0 ha
    split at h
    · rename_i e
      exact Or.inr (Or.inl ⟨hf, by rw [ha, e], (Except.ok.inj h).symm⟩)
    · rename_i e
      obtain ⟨b, hb, h⟩ := bind_ok h
      have hb := get1 hb
      split at h
      · rename_i e2
        exact Or.inr (Or.inr ⟨hf, by rw [ha]; simpa using e, by rw [hb, e2], (Except.ok.inj h).symm⟩)
      · cases h
  · rename_i hf
    exact Or.inl ⟨hf, (Except.ok.inj h).symm⟩

/-- What is known of a list that has more than one row in the end. -/
private theorem interp_rows (r : ImageRun α I) (k : PoseMakers α I P) (e : Estimate) (m : α) (s : CamSlot) (rows : List (I × Option P))
    (h : interpList r k e m s = .ok rows) (h1 : 1 < rows.length) (h3 : s = .three → 2 ≤ r.names.length) :
    r.loaded s = r.images s ∧ k.interp e m (r.images s) = .ok rows := by
  unfold interpList at h
  simp only at h
  split at h
  · rename_i hl
    have hload : r.loaded s = r.images s := loaded_some r s (by omega)
    rw [hload] at h
    refine ⟨hload, ?_⟩
    cases s with
    | one =>
      obtain ⟨_, -, h⟩ := bind_ok h
      exact h
    | two =>
      obtain ⟨_, -, h⟩ := bind_ok h
      exact h
    | three =>
      simp only [ge_iff_le, h3 rfl, if_true] at h
      exact h
  · rename_i hl
    rw [← Except.ok.inj h, List.length_map] at h1
    exact absurd h1 hl

private theorem slot_mem {r : ImageRun α I} {n : Text} {d p e : List (I × Option P)} {f : ImageFile I P} (h : f ∈ slotFiles r n d p e) :
    (f = ⟨.dr, Estimate.tag .dr ++ n, d⟩) ∨ (r.pf = true ∧ f = ⟨.pf, Estimate.tag .pf ++ n, p⟩) ∨ (r.ekf = true ∧ f = ⟨.ekf, Estimate.tag .ekf ++ n, e⟩) := by
  unfold slotFiles at h
  simp only [List.mem_append, List.mem_singleton] at h
  rcases h with (h | h) | h
  · exact Or.inl h
  · split at h
    · rename_i hp
      exact Or.inr (Or.inl ⟨hp, List.mem_singleton.mp h⟩)
    · cases h
  · split at h
    · rename_i he
      exact Or.inr (Or.inr ⟨he, List.mem_singleton.mp h⟩)
    · cases h

private theorem slot_own (r : ImageRun α I) (k : PoseMakers α I P) (s : CamSlot) (n : Text) (m : α) (d p : List (I × Option P))
    (hpf : r.pf = true → 1 < r.pfStates) (hn : SlotName r s n) (hm : SlotMount r s m) (h3 : s = .three → 2 ≤ r.names.length)
    (hd : interpList r k .dr m s = .ok d) (hp : pfList r k m s = .ok p) (f : ImageFile I P) (hf : f ∈ slotFiles r n d p (ekfRows r k m s))
    (hlen : 1 < f.rows.length) : OwnFile r k s f := by
  rcases slot_mem hf with rfl | ⟨h, rfl⟩ | ⟨h, rfl⟩
  · exact ⟨n, m, hn, rfl, hm, (interp_rows r k .dr m s d hd hlen h3).2⟩
  · refine ⟨n, m, hn, rfl, hm, ?_⟩
    rw [pfList, if_pos h, if_pos (hpf h)] at hp
    exact (interp_rows r k .pf m s p hp hlen h3).2
  · refine ⟨n, m, hn, rfl, hm, ?_⟩
    show ekfRows r k m s = k.update m (r.images s)
    unfold ekfRows at hlen ⊢
    rw [if_pos h] at hlen ⊢
    split
    · rename_i hl
      rw [loaded_some r s hl]
    · rename_i hl
      simp [hl] at hlen

private theorem laser_name (r : ImageRun α I) (n : Text) (h : laserFileName r.names = some n) : SlotName r .three (n ++ laserSuffix) ∧ 2 ≤ r.names.length := by
  have e : laserSuffix = "_laser".toList := by decide +kernel
  unfold laserFileName at h
  split at h
  · rename_i hl
    exact ⟨⟨n, by rw [e], Or.inr ⟨hl, h⟩⟩, by omega⟩
  · split at h
    · rename_i hl
      exact ⟨⟨n, by rw [e], Or.inl ⟨hl, h⟩⟩, by omega⟩
    · cases h

/-- C257 (partial): every file of images that is written has the name of the solution and of the camera, and its rows are made from the images of that
camera with the track of that solution and the place of that camera; there is one more file of the images of the laser, at the DVL. Missing: the particle
filter without position fixes, see `C257_pf_false`. -/
theorem C257_rows_partial (r : ImageRun α I) (k : PoseMakers α I P) (fs : List (ImageFile I P)) (hpf : r.pf = true → 1 < r.pfStates)
    (h : imageFiles r k = .ok fs) : ∀ f ∈ fs, 1 < f.rows.length ∧ ((∃ s, OwnFile r k s f) ∨ AtDvlFile r k f) := by
  unfold imageFiles at h
  obtain ⟨m3, hm3, h⟩ := bind_ok h
  obtain ⟨d1, hd1, h⟩ := bind_ok h
  obtain ⟨d2, hd2, h⟩ := bind_ok h
  obtain ⟨d3, hd3, h⟩ := bind_ok h
  obtain ⟨p1, hp1, h⟩ := bind_ok h
  obtain ⟨p2, hp2, h⟩ := bind_ok h
  obtain ⟨p3, hp3, h⟩ := bind_ok h
  obtain ⟨f1, hf1, h⟩ := bind_ok h
  obtain ⟨f2, hf2, h⟩ := bind_ok h
  have h := Except.ok.inj h
  subst h
  intro f hf
  rw [List.mem_filter] at hf
  obtain ⟨hf, hl⟩ := hf
  have hlen : 1 < f.rows.length := of_decide_eq_true hl
  refine ⟨hlen, ?_⟩
  rw [List.mem_append, List.mem_append] at hf
  rcases hf with (hf | hf) | hf
  · unfold pairFiles at hf1
    split at hf1
    · obtain ⟨n, hn, hf1⟩ := bind_ok hf1
      rw [← Except.ok.inj hf1] at hf
      exact Or.inl ⟨.one, slot_own r k .one n _ d1 p1 hpf (get0 hn) rfl (by simp) hd1 hp1 f hf hlen⟩
    · rw [← Except.ok.inj hf1] at hf
      cases hf
  · unfold pairFiles at hf2
    split at hf2
    · obtain ⟨n, hn, hf2⟩ := bind_ok hf2
      rw [← Except.ok.inj hf2] at hf
      exact Or.inl ⟨.two, slot_own r k .two n _ d2 p2 hpf (get1 hn) rfl (by simp) hd2 hp2 f hf hlen⟩
    · rw [← Except.ok.inj hf2] at hf
      cases hf
  · split at hf
    · split at hf
      · rename_i n hn
        obtain ⟨h1, h2⟩ := laser_name r n hn
        rw [List.mem_append] at hf
        rcases hf with hf | hf
        · exact Or.inl ⟨.three, slot_own r k .three _ m3 d3 p3 hpf h1 (mount_three r m3 hm3) (fun _ => h2) hd3 hp3 f hf hlen⟩
        · split at hf
          · rw [List.mem_singleton] at hf
            subst hf
            refine Or.inr ⟨rfl, ⟨_, h1, ?_⟩, ?_⟩
            · have e : atDvlSuffix = laserSuffix ++ "_at_dvl".toList := by decide +kernel
              simp only [e, List.append_assoc]
            · simp only at hlen ⊢
              split
              · rfl
              · rename_i hz
                simp [hz] at hlen
          · cases hf
      · cases hf
    · cases hf

private def good : PoseMakers ℕ ℕ ℕ := ⟨fun _ m l => .ok (l.map fun i => (i, some m)), fun m l => l.map fun i => (i, some m), fun l => l.map fun i => (i, some 0)⟩

private def pair (pf : Bool) (states : ℕ) : ImageRun ℕ ℕ :=
  { format := "biocam", names := [['L'], ['R']], lasers := [some true, none], mount := fun s => match s with | .one => 11 | .two => 12 | .three => 13
    images := fun s => match s with | .one => [1, 2] | .two => [1, 2] | .three => [3, 4], pf := pf, ekf := false, pfStates := states }

private def shown (x : Res (List (ImageFile ℕ ℕ))) : Option (List (Estimate × List Char × List (ℕ × Option ℕ))) :=
  match x with
  | .ok l => some (l.map fun f => (f.folder, f.name, f.rows))
  | .error _ => none

private theorem shown_ok {x : Res (List (ImageFile ℕ ℕ))} {l : List (Estimate × List Char × List (ℕ × Option ℕ))} (h : shown x = some l) :
    ∃ fs, x = .ok fs ∧ (fs.map fun f => (f.folder, f.name, f.rows)) = l := by
  match x, h with
  | .ok fs, h => exact ⟨fs, rfl, Option.some.inj h⟩
  | .error _, h => cases h

example : ∃ fs, imageFiles (pair true 5) good = .ok fs ∧ fs.length = 6 := by
  have e : (shown (imageFiles (pair true 5) good)).map List.length = some 6 := by decide +kernel
  match h : imageFiles (pair true 5) good, e with
  | .ok fs, e =>
    rw [shown, Option.map_some, List.length_map] at e
    exact ⟨fs, rfl, Option.some.inj e⟩
  | .error _, e => cases e

/-- C257 is false: with the particle filter switched on and no position fix its files of images are written all the same, without any pose. -/
theorem C257_pf_false : ¬ EveryRowPlaced := by
  intro h
  have e : shown (imageFiles (pair true 0) good) = some
      [(.dr, Estimate.tag .dr ++ ['L'], [(1, some 11), (2, some 11)]), (.pf, Estimate.tag .pf ++ ['L'], [(1, none), (2, none)]),
        (.dr, Estimate.tag .dr ++ ['R'], [(1, some 12), (2, some 12)]), (.pf, Estimate.tag .pf ++ ['R'], [(1, none), (2, none)]),
        (.dr, Estimate.tag .dr ++ ['R'] ++ laserSuffix, [(3, some 11), (4, some 11)]), (.pf, Estimate.tag .pf ++ ['R'] ++ laserSuffix, [(3, none), (4, none)])] := rfl
  obtain ⟨fs, h1, h2⟩ := shown_ok e
  have hg : AlwaysPlaces good := by
    refine ⟨?_, ?_, ?_⟩
    · intro e m l rows hr p hp
      rw [← Except.ok.inj hr] at hp
      obtain ⟨i, -, rfl⟩ := List.mem_map.mp hp
      simp
    · intro m l p hp
      obtain ⟨i, -, rfl⟩ := List.mem_map.mp hp
      simp
    · intro l p hp
      obtain ⟨i, -, rfl⟩ := List.mem_map.mp hp
      simp
  have hm : (Estimate.pf, Estimate.tag .pf ++ ['L'], [((1 : ℕ), (none : Option ℕ)), (2, none)]) ∈ fs.map fun f => (f.folder, f.name, f.rows) := by
    rw [h2]
    simp
  obtain ⟨f, hf, hff⟩ := List.mem_map.mp hm
  have hr : f.rows = [(1, none), (2, none)] := (Prod.mk.inj (Prod.mk.inj hff).2).2
  exact h _ good fs hg h1 f hf (1, none) (by rw [hr]; simp) rfl

/-- C257 is false: if the first of the two cameras of BioCam records the laser, the images of the laser are placed at it but go by the name of the second. -/
theorem C257_laser_name_false : ¬ LaserCameraNamed := by
  intro h
  have e : shown (imageFiles (pair false 0) good) = some
      [(.dr, Estimate.tag .dr ++ ['L'], [(1, some 11), (2, some 11)]), (.dr, Estimate.tag .dr ++ ['R'], [(1, some 12), (2, some 12)]),
        (.dr, Estimate.tag .dr ++ ['R'] ++ laserSuffix, [(3, some 11), (4, some 11)])] := rfl
  obtain ⟨fs, h1, h2⟩ := shown_ok e
  have hm : (Estimate.dr, Estimate.tag .dr ++ ['R'] ++ laserSuffix, [((3 : ℕ), some (11 : ℕ)), (4, some 11)]) ∈ fs.map fun f => (f.folder, f.name, f.rows) := by
    rw [h2]
    simp
  obtain ⟨f, hf, hff⟩ := List.mem_map.mp hm
  have hn : f.name = Estimate.tag .dr ++ ['R'] ++ laserSuffix := (Prod.mk.inj (Prod.mk.inj hff).2).1
  have hr : f.rows = [(3, some 11), (4, some 11)] := (Prod.mk.inj (Prod.mk.inj hff).2).2
  have := h (pair false 0) good fs 0 ['L'] rfl (by decide) rfl rfl (by
    intro j hj
    match j, hj with
    | 0, hj => exact absurd rfl hj
    | 1, _ => simp [pair]
    | j + 2, _ => simp [pair]) rfl h1 f hf (by
    rw [hr]
    refine ⟨rfl, ?_⟩
    intro s hs
    cases s with
    | one => decide
    | two => decide
    | three => exact absurd rfl hs)
  rw [hn] at this
  exact absurd this (by decide +kernel)

/-- C257: the images of each camera are all accounted for: if more than one row is left by dead reckoning, the file of dead reckoning is written, and so is
that of each filter that is switched on, if more than one row is left by it. For images of the laser this needs two cameras or more in the mission. -/
theorem C257_complete (r : ImageRun α I) (k : PoseMakers α I P) (fs : List (ImageFile I P)) (h : imageFiles r k = .ok fs) (s : CamSlot)
    (h2 : s ≠ .one → 2 ≤ r.names.length) (hl : 1 < (r.images s).length) :
    ∃ m dr, SlotMount r s m ∧ k.interp .dr m (r.images s) = .ok dr ∧ (1 < dr.length →
      (∃ f ∈ fs, f.folder = .dr ∧ f.rows = dr) ∧
      (r.pf = true → 1 < r.pfStates → ∃ p, k.interp .pf m (r.images s) = .ok p ∧ (1 < p.length → ∃ f ∈ fs, f.folder = .pf ∧ f.rows = p)) ∧
      (r.ekf = true → 1 < (k.update m (r.images s)).length → ∃ f ∈ fs, f.folder = .ekf ∧ f.rows = k.update m (r.images s))) := by
  have key : ∀ (n : Text) (m : α) (d p : List (I × Option P)), SlotMount r s m → interpList r k .dr m s = .ok d → pfList r k m s = .ok p →
      (∀ f ∈ slotFiles r n d p (ekfRows r k m s), 1 < d.length → 1 < f.rows.length → f ∈ fs) →
      ∃ m dr, SlotMount r s m ∧ k.interp .dr m (r.images s) = .ok dr ∧ (1 < dr.length →
      (∃ f ∈ fs, f.folder = .dr ∧ f.rows = dr) ∧
      (r.pf = true → 1 < r.pfStates → ∃ p, k.interp .pf m (r.images s) = .ok p ∧ (1 < p.length → ∃ f ∈ fs, f.folder = .pf ∧ f.rows = p)) ∧
      (r.ekf = true → 1 < (k.update m (r.images s)).length → ∃ f ∈ fs, f.folder = .ekf ∧ f.rows = k.update m (r.images s))) := by
    intro n m d p hm hd hp hin
    have hload : r.loaded s = r.images s := by
      cases s with
      | one => rfl
      | three => rfl
      | two =>
        have := h2 (by decide)
        show (if r.names.length > 1 then r.images .two else []) = _
        rw [if_pos (by omega)]
    have hint : ∀ e d, interpList r k e m s = .ok d → k.interp e m (r.images s) = .ok d := by
      intro e d hd
      unfold interpList at hd
      simp only [hload, gt_iff_lt, hl, if_true] at hd
      cases s with
      | one =>
        obtain ⟨_, -, h⟩ := bind_ok hd
        exact h
      | two =>
        obtain ⟨_, -, h⟩ := bind_ok hd
        exact h
      | three =>
        simp only [ge_iff_le, h2 (by decide), if_true] at hd
        exact hd
    refine ⟨m, d, hm, hint _ _ hd, fun hdl => ⟨?_, ?_, ?_⟩⟩
    · exact ⟨⟨.dr, Estimate.tag .dr ++ n, d⟩, hin _ (by simp [slotFiles]) hdl hdl, rfl, rfl⟩
    · intro h1 h3
      rw [pfList, if_pos h1, if_pos h3] at hp
      exact ⟨p, hint _ _ hp, fun hpl => ⟨⟨.pf, Estimate.tag .pf ++ n, p⟩, hin _ (by simp [slotFiles, h1]) hdl hpl, rfl, rfl⟩⟩
    · intro h1 h3
      have he : ekfRows r k m s = k.update m (r.images s) := by
        unfold ekfRows
        rw [if_pos h1, hload, if_pos (by omega)]
      exact ⟨⟨.ekf, Estimate.tag .ekf ++ n, ekfRows r k m s⟩, hin _ (by simp [slotFiles, h1]) hdl (by rw [he]; exact h3), rfl, he⟩
  unfold imageFiles at h
  obtain ⟨m3, hm3, h⟩ := bind_ok h
  obtain ⟨d1, hd1, h⟩ := bind_ok h
  obtain ⟨d2, hd2, h⟩ := bind_ok h
  obtain ⟨d3, hd3, h⟩ := bind_ok h
  obtain ⟨p1, hp1, h⟩ := bind_ok h
  obtain ⟨p2, hp2, h⟩ := bind_ok h
  obtain ⟨p3, hp3, h⟩ := bind_ok h
  obtain ⟨f1, hf1, h⟩ := bind_ok h
  obtain ⟨f2, hf2, h⟩ := bind_ok h
  have h := Except.ok.inj h
  cases s with
  | one =>
    by_cases hz : d1.length > 0
    · rw [pairFiles, if_pos hz] at hf1
      obtain ⟨n, hn, hf1⟩ := bind_ok hf1
      refine key n _ d1 p1 rfl hd1 hp1 ?_
      intro f hf hdl hfl
      rw [← h, List.mem_filter, ← Except.ok.inj hf1]
      exact ⟨List.mem_append_left _ (List.mem_append_left _ hf), decide_eq_true hfl⟩
    · exact key [] _ d1 p1 rfl hd1 hp1 fun f _ hdl _ => absurd hdl (by omega)
  | two =>
    by_cases hz : d2.length > 1
    · rw [pairFiles, if_pos hz] at hf2
      obtain ⟨n, hn, hf2⟩ := bind_ok hf2
      refine key n _ d2 p2 rfl hd2 hp2 ?_
      intro f hf hdl hfl
      rw [← h, List.mem_filter, ← Except.ok.inj hf2]
      exact ⟨List.mem_append_left _ (List.mem_append_right _ hf), decide_eq_true hfl⟩
    · exact key [] _ d2 p2 rfl hd2 hp2 fun f _ hdl _ => absurd hdl (by omega)
  | three =>
    obtain ⟨n, hn⟩ : ∃ n, laserFileName r.names = some n := by
      have := h2 (by decide)
      unfold laserFileName
      by_cases h4 : r.names.length > 2
      · rw [if_pos h4]
        exact ⟨_, List.getElem?_eq_getElem h4⟩
      · rw [if_neg h4, if_pos (by omega)]
        exact ⟨_, List.getElem?_eq_getElem (by omega)⟩
    refine key (n ++ laserSuffix) m3 d3 p3 (mount_three r m3 hm3) hd3 hp3 ?_
    intro f hf hdl hfl
    rw [← h, List.mem_filter]
    refine ⟨List.mem_append_right _ ?_, decide_eq_true hfl⟩
    rw [if_pos hdl]
    simp only [hn]
    exact List.mem_append_left _ hf

/-- C257: the file of the images of the laser at the DVL is written too. -/
theorem C257_at_dvl (r : ImageRun α I) (k : PoseMakers α I P) (fs : List (ImageFile I P)) (h : imageFiles r k = .ok fs) (h2 : 2 ≤ r.names.length)
    (hl : 1 < (r.images .three).length) (he : r.ekf = true) (hd : 1 < (k.atDvl (r.images .three)).length)
    (hr : ∀ m rows, k.interp .dr m (r.images .three) = .ok rows → 1 < rows.length) : ∃ f ∈ fs, AtDvlFile r k f := by
  unfold imageFiles at h
  obtain ⟨m3, hm3, h⟩ := bind_ok h
  obtain ⟨d1, hd1, h⟩ := bind_ok h
  obtain ⟨d2, hd2, h⟩ := bind_ok h
  obtain ⟨d3, hd3, h⟩ := bind_ok h
  obtain ⟨p1, hp1, h⟩ := bind_ok h
  obtain ⟨p2, hp2, h⟩ := bind_ok h
  obtain ⟨p3, hp3, h⟩ := bind_ok h
  obtain ⟨f1, hf1, h⟩ := bind_ok h
  obtain ⟨f2, hf2, h⟩ := bind_ok h
  have h := Except.ok.inj h
  have hd3l : 1 < d3.length := by
    unfold interpList at hd3
    simp only [ImageRun.loaded, gt_iff_lt, hl, if_true, ge_iff_le, h2] at hd3
    exact hr _ _ hd3
  have hs : (r.loaded .three).length > 0 := by rw [ImageRun.loaded]; omega
  obtain ⟨n, hn, hsn⟩ : ∃ n, laserFileName r.names = some n ∧ SlotName r .three (n ++ laserSuffix) := by
    unfold laserFileName
    by_cases h4 : r.names.length > 2
    · rw [if_pos h4]
      exact ⟨_, List.getElem?_eq_getElem h4, _, rfl, Or.inr ⟨h4, List.getElem?_eq_getElem h4⟩⟩
    · have h5 : r.names.length = 2 := by omega
      rw [if_neg h4, if_pos h5]
      exact ⟨_, List.getElem?_eq_getElem (by omega), _, rfl, Or.inl ⟨h5, List.getElem?_eq_getElem (by omega)⟩⟩
  refine ⟨⟨.ekf, Estimate.tag .ekf ++ n ++ atDvlSuffix, k.atDvl (r.images .three)⟩, ?_, rfl, ⟨n ++ laserSuffix, hsn, ?_⟩, rfl⟩
  · rw [← h, List.mem_filter]
    refine ⟨List.mem_append_right _ ?_, decide_eq_true hd⟩
    rw [if_pos hd3l]
    simp only [hn, he, hs, if_true]
    exact List.mem_append_right _ (by simp [ImageRun.loaded])
  · have e : atDvlSuffix = laserSuffix ++ "_at_dvl".toList := by decide +kernel
    simp only [e, List.append_assoc]

/-- BioCam with two cameras and the filter switched on. -/
example : ∃ fs, imageFiles { pair true 5 with ekf := true } good = .ok fs ∧ ∃ f ∈ fs, AtDvlFile { pair true 5 with ekf := true } good f := by
  obtain ⟨fs, h⟩ : ∃ fs, imageFiles { pair true 5 with ekf := true } good = .ok fs := ⟨_, rfl⟩
  exact ⟨fs, h, C257_at_dvl _ good fs h (by decide) (by decide) rfl (by decide) (fun m rows hr => by cases hr; simp [pair])⟩

private theorem nth_ok (l : List Text) (i : ℕ) (h : i < l.length) : ∃ n, pyGet l i = .ok n := by
  refine ⟨l[i], ?_⟩
  have h0 : ¬ (i : ℤ) < 0 := by omega
  simp [pyGet, h0, h]

private theorem interp_ok (r : ImageRun α I) (k : PoseMakers α I P) (hn : 0 < r.names.length) (hk : ∀ e m l, ∃ rows, k.interp e m l = .ok rows ∧ rows.length ≤ l.length)
    (e : Estimate) (m : α) (s : CamSlot) : ∃ d, interpList r k e m s = .ok d ∧ d.length ≤ (r.loaded s).length := by
  unfold interpList
  obtain ⟨rows, hr, hl⟩ := hk e m (r.loaded s)
  by_cases h : (r.loaded s).length > 1
  · rw [if_pos h]
    cases s with
    | one =>
      obtain ⟨n, e0⟩ := nth_ok r.names 0 hn
      exact ⟨rows, by simp only [Nat.cast_zero] at e0; simp only [e0, bind, Except.bind]; exact hr, hl⟩
    | two =>
      have h2 : 1 < r.names.length := by
        by_contra hc
        rw [ImageRun.loaded, if_neg hc] at h
        simp at h
      obtain ⟨n, e0⟩ := nth_ok r.names 1 h2
      exact ⟨rows, by simp only [Nat.cast_one] at e0; simp only [e0, bind, Except.bind]; exact hr, hl⟩
    | three =>
      by_cases h2 : r.names.length ≥ 2
      · exact ⟨rows, by simp only [if_pos h2]; exact hr, hl⟩
      · exact ⟨(r.loaded .three).map fun i => (i, none), by simp only [if_neg h2], by rw [List.length_map]⟩
  · rw [if_neg h]
    exact ⟨_, rfl, by simp⟩

private theorem pf_ok (r : ImageRun α I) (k : PoseMakers α I P) (hn : 0 < r.names.length) (hk : ∀ e m l, ∃ rows, k.interp e m l = .ok rows ∧ rows.length ≤ l.length)
    (m : α) (s : CamSlot) : ∃ d, pfList r k m s = .ok d := by
  unfold pfList
  split_ifs
  · obtain ⟨d, h, _⟩ := interp_ok r k hn hk .pf m s
    exact ⟨d, h⟩
  · exact ⟨_, rfl⟩
  · exact ⟨_, rfl⟩

/-- C257: the files are written, whatever number of cameras the mission has, one included, if images can be placed; BioCam needs a camera among the first
two that records the laser. -/
theorem C257_written (r : ImageRun α I) (k : PoseMakers α I P) (hn : 0 < r.names.length) (hm : ∃ m, SlotMount r .three m)
    (hk : ∀ e m l, ∃ rows, k.interp e m l = .ok rows ∧ rows.length ≤ l.length) (hl : r.format = "biocam" → 0 < r.lasers.length) :
    ∃ fs, imageFiles r k = .ok fs := by
  obtain ⟨m3, e3⟩ : ∃ m, camera3Position r.format (r.mount .one) (r.mount .two) (r.mount .three) r.lasers = .ok m := by
    unfold camera3Position
    obtain ⟨m, hm | hm | hm⟩ := hm
    · exact ⟨_, if_neg hm.1⟩
    · rw [if_pos hm.1]
      have : pyGet r.lasers 0 = .ok (some true) := by simp [pyGet, hm.2.1]
      exact ⟨_, by simp only [this, bind, Except.bind]; rfl⟩
    · rw [if_pos hm.1]
      have hz := hl hm.1
      have h0 : pyGet r.lasers 0 = .ok r.lasers[0] := by simp [pyGet, hz]
      have h1 : pyGet r.lasers 1 = .ok (some true) := by simp [pyGet, hm.2.2.1]
      have hne : r.lasers[0] ≠ some true := by
        have := hm.2.1
        rw [List.getElem?_eq_getElem hz] at this
        exact fun hc => this (by rw [hc])
      exact ⟨_, by simp only [h0, h1, bind, Except.bind, if_neg hne]; rfl⟩
  obtain ⟨d1, h1, _⟩ := interp_ok r k hn hk .dr (r.mount .one) .one
  obtain ⟨d2, h2, hl2⟩ := interp_ok r k hn hk .dr (r.mount .two) .two
  obtain ⟨d3, h3, _⟩ := interp_ok r k hn hk .dr m3 .three
  obtain ⟨p1, q1⟩ := pf_ok r k hn hk (r.mount .one) .one
  obtain ⟨p2, q2⟩ := pf_ok r k hn hk (r.mount .two) .two
  obtain ⟨p3, q3⟩ := pf_ok r k hn hk m3 .three
  obtain ⟨f1, g1⟩ : ∃ f, pairFiles r 0 d1 p1 (ekfRows r k (r.mount .one) .one) = .ok f := by
    unfold pairFiles
    split_ifs
    · obtain ⟨n, e⟩ := nth_ok r.names 0 hn
      exact ⟨_, by simp only [e, bind, Except.bind]; rfl⟩
    · exact ⟨_, rfl⟩
  obtain ⟨f2, g2⟩ : ∃ f, pairFiles r 1 d2 p2 (ekfRows r k (r.mount .two) .two) = .ok f := by
    unfold pairFiles
    split_ifs with hd
    · have hln : 1 < r.names.length := by
        by_contra hc
        rw [ImageRun.loaded, if_neg hc] at hl2
        simp only [List.length_nil] at hl2
        omega
      obtain ⟨n, e⟩ := nth_ok r.names 1 hln
      exact ⟨_, by simp only [e, bind, Except.bind]; rfl⟩
    · exact ⟨_, rfl⟩
  unfold imageFiles
  simp only [e3, h1, h2, h3, q1, q2, q3, g1, g2, bind, Except.bind]
  exact ⟨_, rfl⟩

/-- A mission with one camera. -/
example : ∃ fs, imageFiles { pair true 5 with format := "ae2000", names := [['L']] } good = .ok fs :=
  C257_written _ good (by decide) ⟨_, Or.inl ⟨by decide, rfl⟩⟩ (fun _ _ _ => ⟨_, rfl, by simp⟩) (fun h => absurd h (by decide))

end Oplab.Props
