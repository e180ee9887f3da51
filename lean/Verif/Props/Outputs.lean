import Mathlib.Data.List.Infix
import Mathlib.Data.List.Nodup
import Mathlib.Algebra.Order.Field.Rat
import Mathlib.Tactic.NormNum
import Verif.Model.Outputs
import Verif.Lemmas.Seek
import Verif.Props.EkfRun

/-! C83-C86: payload files, geographic positions, altitudes and times of EKF poses. -/

namespace Oplab.Props
open Oplab Oplab.Spec Oplab.Seek

private theorem charsIn_iff (sub s : List Char) : charsIn sub s = true ↔ sub <:+: s := by
  simp only [charsIn, List.any_eq_true, List.mem_tails, List.isPrefixOf_iff_prefix]
  constructor
  · rintro ⟨t, h1, h2⟩; exact h2.isInfix.trans h1.isInfix
  · rintro ⟨a, b, rfl⟩
    exact ⟨sub ++ b, ⟨a, by simp⟩, ⟨b, rfl⟩⟩

/-- A pattern whose first character occurs only once does not begin before the suffix `d :: es`. -/
private theorem prefix_append {d : Char} {ds es : List Char} (hd : d ∉ ds) :
    ∀ (t : List Char), t ≠ [] → (d :: ds) <+: t ++ (d :: es) → (d :: ds) <+: t := by
  intro t ht h
  obtain ⟨x, xs, rfl⟩ := List.exists_cons_of_ne_nil ht
  obtain ⟨r, hr⟩ := h
  simp only [List.cons_append, List.cons.injEq] at hr
  obtain ⟨rfl, hr⟩ := hr
  rcases List.append_eq_append_iff.1 hr with ⟨a, h1, h2⟩ | ⟨a, h1, h2⟩
  · exact ⟨a, by rw [h1]; simp⟩
  · cases a with
    | nil => exact ⟨[], by simp at h1; simp [h1]⟩
    | cons y ys =>
      exfalso
      simp only [List.cons_append, List.cons.injEq] at h2
      apply hd; rw [h1, h2.1]; simp

private theorem no_prefix {sub s t : List Char} (h : ¬ sub <:+: s) (ht : t <:+ s) : ¬ sub <+: t :=
  fun h1 => h (h1.isInfix.trans ht.isInfix)

private theorem infix_append {d : Char} {ds es : List Char} (hd : d ∉ ds) (s : List Char) (h : ¬ (d :: ds) <:+: s)
    (hs : ¬ (d :: ds) <:+: (d :: es)) : ¬ (d :: ds) <:+: s ++ (d :: es) := by
  induction s with
  | nil => exact hs
  | cons c cs ih =>
    intro h1
    rw [List.cons_append, List.infix_cons_iff] at h1
    rcases h1 with h1 | h1
    · exact h (prefix_append hd (c :: cs) (by simp) h1).isInfix
    · exact ih (fun h2 => h (h2.trans (List.suffix_cons c cs).isInfix)) h1

private theorem removeAll_append {d : Char} {ds : List Char} (hd : d ∉ ds) (s : List Char) (h : ¬ (d :: ds) <:+: s) :
    removeAll d ds (s ++ (d :: ds)) = s := by
  induction s with
  | nil =>
    rw [List.nil_append, removeAll, if_pos (by simp)]
    simp [removeAll]
  | cons c cs ih =>
    rw [List.cons_append, removeAll, if_neg, ih (fun h2 => h (h2.trans (List.suffix_cons c cs).isInfix))]
    rw [List.isPrefixOf_iff_prefix]
    intro h1
    exact h (prefix_append hd (c :: cs) (by simp) h1).isInfix

private theorem dictSet_new {α : Type} (d : List (List Char × α)) (k : List Char) (v : α) (h : k ∉ d.map Prod.fst) :
    dictSet d k v = d ++ [(k, v)] := by
  rw [dictSet, if_neg]
  rw [List.any_eq_true]
  rintro ⟨p, hp, e⟩
  exact h (List.mem_map.2 ⟨p, hp, by simpa using e⟩)

private theorem foldl_dictSet {α β : Type} (f : β → List Char) (g : β → α) : ∀ (l : List β) (d : List (List Char × α)),
    (l.map f).Nodup → (∀ x ∈ l, f x ∉ d.map Prod.fst) →
    l.foldl (fun d x => dictSet d (f x) (g x)) d = d ++ l.map fun x => (f x, g x)
  | [], d, _, _ => by simp
  | x :: l, d, hn, hd => by
    rw [List.map_cons, List.nodup_cons] at hn
    rw [List.foldl_cons, dictSet_new _ _ _ (hd x (by simp)), foldl_dictSet f g l _ hn.2]
    · simp
    · intro y hy hm
      simp only [List.map_append, List.map_cons, List.map_nil, List.mem_append, List.mem_singleton] at hm
      rcases hm with hm | hm
      · exact hd y (by simp [hy]) hm
      · exact hn.1 (List.mem_map.2 ⟨y, hy, hm⟩)

/-- A name without the marks of the two filters. -/
def PlainName (n : List Char) : Prop := ¬ "_pf".toList <:+: n ∧ ¬ "_ekf".toList <:+: n

private theorem plain_has {n : List Char} (h : PlainName n) : hasPf n = false ∧ hasEkf n = false := by
  refine ⟨?_, ?_⟩
  · rw [Bool.eq_false_iff]; intro e; exact h.1 ((charsIn_iff _ _).1 e)
  · rw [Bool.eq_false_iff]; intro e; exact h.2 ((charsIn_iff _ _).1 e)

private theorem pf_has {n : List Char} (h : PlainName n) : hasPf (n ++ "_pf".toList) = true ∧ hasEkf (n ++ "_pf".toList) = false ∧
    removeAll '_' ['p', 'f'] (n ++ "_pf".toList) = n := by
  refine ⟨(charsIn_iff _ _).2 ⟨n, [], by simp⟩, ?_, removeAll_append (by decide) n h.1⟩
  rw [Bool.eq_false_iff]; intro e
  exact infix_append (d := '_') (ds := ['e', 'k', 'f']) (es := ['p', 'f']) (by decide) n h.2 (by decide) ((charsIn_iff _ _).1 e)

private theorem ekf_has {n : List Char} (h : PlainName n) : hasEkf (n ++ "_ekf".toList) = true ∧
    hasPf (n ++ "_ekf".toList) = false ∧ removeAll '_' ['e', 'k', 'f'] (n ++ "_ekf".toList) = n := by
  refine ⟨(charsIn_iff _ _).2 ⟨n, [], by simp⟩, ?_, removeAll_append (by decide) n h.2⟩
  rw [Bool.eq_false_iff]; intro e
  exact infix_append (d := '_') (ds := ['p', 'f']) (es := ['e', 'k', 'f']) (by decide) n h.1 (by decide) ((charsIn_iff _ _).1 e)

private theorem addCopies_eq {α : Type} (suffix : List Char) (d e : List (List Char × α))
    (hf : (d.filter fun p => !hasPf p.1 && !hasEkf p.1) = e) (hn : (e.map Prod.fst).Nodup)
    (hd : ∀ p ∈ e, p.1 ++ suffix ∉ d.map Prod.fst) : addCopies suffix d = d ++ e.map fun p => (p.1 ++ suffix, p.2) := by
  have hn2 : (e.map fun p => p.1 ++ suffix).Nodup := by
    have : (e.map fun p => p.1 ++ suffix) = (e.map Prod.fst).map (· ++ suffix) := by simp
    rw [this]
    exact hn.map (fun a b h => List.append_cancel_right h)
  have h1 : e.foldl (fun acc p => dictSet acc (p.1 ++ suffix) p.2) [] = e.map fun p => (p.1 ++ suffix, p.2) := by
    have := foldl_dictSet (fun p : List Char × α => p.1 ++ suffix) (fun p => p.2) e [] hn2 (by simp)
    simpa using this
  rw [addCopies, hf, h1, dictMerge, foldl_dictSet Prod.fst Prod.snd _ d]
  · simp
  · rw [List.map_map]; exact hn2
  · intro x hx
    obtain ⟨p, hp, rfl⟩ := List.mem_map.1 hx
    exact hd p hp

private theorem payloadDict_eq (pf ekf : Bool) (names : List (List Char)) (hn : names.Nodup) (hp : ∀ n ∈ names, PlainName n) :
    payloadDict pf ekf names = names.map (fun n => (n, n)) ++
      (if pf then names.map (fun n => (n ++ "_pf".toList, n)) else []) ++
      (if ekf then names.map (fun n => (n ++ "_ekf".toList, n)) else []) := by
  have hb : names.foldl (fun d n => dictSet d n n) [] = names.map fun n => (n, n) := by
    have := foldl_dictSet (fun n : List Char => n) (fun n => n) names [] (by simpa using hn) (by simp)
    simpa using this
  have hfil : (names.map (fun n => (n, n))).filter (fun p => !hasPf p.1 && !hasEkf p.1) = names.map (fun n => (n, n)) := by
    rw [List.filter_eq_self]
    intro p hm
    obtain ⟨n, hn', rfl⟩ := List.mem_map.1 hm
    simp [plain_has (hp n hn')]
  have hnd : ((names.map (fun n => (n, n))).map Prod.fst).Nodup := by simpa [Function.comp_def] using hn
  have h1 : (if pf then addCopies "_pf".toList (names.map fun n => (n, n)) else names.map fun n => (n, n)) =
      names.map (fun n => (n, n)) ++ (if pf then names.map (fun n => (n ++ "_pf".toList, n)) else []) := by
    cases pf with
    | false => simp
    | true =>
      rw [if_pos rfl, if_pos rfl, addCopies_eq _ _ _ hfil hnd]
      · simp
      · intro p hm hc
        obtain ⟨n, hn', rfl⟩ := List.mem_map.1 hm
        obtain ⟨q, hq, e⟩ := List.mem_map.1 hc
        obtain ⟨m, hm', rfl⟩ := List.mem_map.1 hq
        have := (plain_has (hp m hm')).1
        rw [show m = n ++ "_pf".toList from e, (pf_has (hp n hn')).1] at this
        cases this
  simp only [payloadDict, hb]
  rw [h1]
  cases ekf with
  | false => simp
  | true =>
    rw [if_pos rfl, if_pos rfl, addCopies_eq _ _ (names.map fun n => (n, n)) _ hnd]
    · simp
    · intro p hm hc
      obtain ⟨n, hn', rfl⟩ := List.mem_map.1 hm
      rw [List.map_append, List.mem_append] at hc
      have he := ekf_has (hp n hn')
      rcases hc with hc | hc
      · obtain ⟨q, hq, e⟩ := List.mem_map.1 hc
        obtain ⟨m, hm', rfl⟩ := List.mem_map.1 hq
        have := (plain_has (hp m hm')).2
        rw [show m = n ++ "_ekf".toList from e, he.1] at this
        cases this
      · cases pf with
        | false => simp at hc
        | true =>
          rw [if_pos rfl] at hc
          obtain ⟨q, hq, e⟩ := List.mem_map.1 hc
          obtain ⟨m, hm', rfl⟩ := List.mem_map.1 hq
          have := (pf_has (hp m hm')).1
          rw [show m ++ "_pf".toList = n ++ "_ekf".toList from e, he.2.1] at this
          cases this
    · rw [List.filter_append, hfil]
      have : (if pf then names.map (fun n => (n ++ "_pf".toList, n)) else []).filter
          (fun p => !hasPf p.1 && !hasEkf p.1) = [] := by
        rw [List.filter_eq_nil_iff]
        intro p hm
        cases pf with
        | false => simp at hm
        | true =>
          rw [if_pos rfl] at hm
          obtain ⟨n, hn', rfl⟩ := List.mem_map.1 hm
          simp only [(pf_has (hp n hn')).1]; simp
      rw [this, List.append_nil]

/-- C83, for plain names: every payload gets one file per solution that is switched on, in that solution's folder, with
its own data. The dead-reckoning file is always interpolated from dead reckoning, the others from their own solution if it
has run, with the position of that payload on the vehicle. -/
theorem C83_files_partial (pfOn ekfOn pfRun ekfRun : Bool) (names : List (List Char)) (hn : names.Nodup)
    (hp : ∀ n ∈ names, PlainName n) :
    payloadFiles pfOn ekfOn pfRun ekfRun names = .ok (
      names.map (fun n => ⟨.dr, n ++ "_dr".toList, n, [(.dr, n)]⟩) ++
      (if pfOn then names.map (fun n => ⟨.pf, n ++ "_pf".toList, n, if pfRun then [(.pf, n)] else []⟩) else []) ++
      (if ekfOn then names.map (fun n => ⟨.ekf, n ++ "_ekf".toList, n, if ekfRun then [(.ekf, n)] else []⟩) else [])) := by
  have h1 : ∀ n ∈ names, payloadPoses pfRun ekfRun n = [(.dr, n)] := fun n hm => by
    simp [payloadPoses, plain_has (hp n hm)]
  have h2 : ∀ n ∈ names, payloadPoses pfRun ekfRun (n ++ "_pf".toList) = if pfRun then [(.pf, n)] else [] := fun n hm => by
    obtain ⟨a, b, c⟩ := pf_has (hp n hm)
    simp only [payloadPoses, a, b, c]; simp
  have h3 : ∀ n ∈ names, payloadPoses pfRun ekfRun (n ++ "_ekf".toList) = if ekfRun then [(.ekf, n)] else [] := fun n hm => by
    obtain ⟨a, b, c⟩ := ekf_has (hp n hm)
    simp only [payloadPoses, a, b, c]; simp
  have f1 : ∀ n ∈ names, payloadFolder n = (.dr, n ++ "_dr".toList) := fun n hm => by
    simp [payloadFolder, plain_has (hp n hm)]
  have f2 : ∀ n ∈ names, payloadFolder (n ++ "_pf".toList) = (.pf, n ++ "_pf".toList) := fun n hm => by
    rw [payloadFolder, if_pos (pf_has (hp n hm)).1]
  have f3 : ∀ n ∈ names, payloadFolder (n ++ "_ekf".toList) = (.ekf, n ++ "_ekf".toList) := fun n hm => by
    rw [payloadFolder, if_neg (by rw [(ekf_has (hp n hm)).2.1]; simp), if_pos (ekf_has (hp n hm)).1]
  have hl : payloadLookup names ((payloadDict pfOn ekfOn names).flatMap fun p => payloadPoses pfRun ekfRun p.1) = .ok () := by
    rw [payloadLookup, if_pos]
    rw [List.all_eq_true]
    intro x hx
    obtain ⟨p, hm, hx⟩ := List.mem_flatMap.1 hx
    rw [payloadDict_eq _ _ _ hn hp, List.mem_append, List.mem_append] at hm
    rcases hm with (hm | hm) | hm
    · obtain ⟨n, hn', rfl⟩ := List.mem_map.1 hm
      rw [h1 n hn', List.mem_singleton] at hx
      subst hx; simpa using hn'
    · cases pfOn with
      | false => simp at hm
      | true =>
        rw [if_pos rfl] at hm
        obtain ⟨n, hn', rfl⟩ := List.mem_map.1 hm
        simp only [h2 n hn'] at hx
        cases pfRun <;> simp at hx
        subst hx; simpa using hn'
    · cases ekfOn with
      | false => simp at hm
      | true =>
        rw [if_pos rfl] at hm
        obtain ⟨n, hn', rfl⟩ := List.mem_map.1 hm
        simp only [h3 n hn'] at hx
        cases ekfRun <;> simp at hx
        subst hx; simpa using hn'
  simp only [payloadFiles, bind, Except.bind]
  rw [hl]
  simp only
  congr 1
  rw [payloadDict_eq _ _ _ hn hp, List.map_append, List.map_append]
  congr 1
  · congr 1
    · rw [List.map_map]
      exact List.map_congr_left fun n hm => by simp only [Function.comp, f1 n hm, h1 n hm]
    · cases pfOn with
      | false => rfl
      | true =>
        rw [if_pos rfl, if_pos rfl, List.map_map]
        exact List.map_congr_left fun n hm => by simp only [Function.comp, f2 n hm, h2 n hm]
  · cases ekfOn with
    | false => rfl
    | true =>
      rw [if_pos rfl, if_pos rfl, List.map_map]
      exact List.map_congr_left fun n hm => by simp only [Function.comp, f3 n hm, h3 n hm]

example : ∃ names : List (List Char), names.Nodup ∧ names.length = 2 ∧ (∀ n ∈ names, PlainName n) :=
  ⟨["ctd".toList, "e_p".toList], by decide, rfl, by simp only [PlainName]; decide⟩

/-- C83 in full: for any distinct names, each payload has a dead-reckoning file with its data and positions from dead
reckoning. -/
def PayloadsLocated (pfOn ekfOn pfRun ekfRun : Bool) : Prop :=
  ∀ names : List (List Char), names.Nodup → ∃ files, payloadFiles pfOn ekfOn pfRun ekfRun names = .ok files ∧
    ∀ n ∈ names, ∃ f ∈ files, f.folder = .dr ∧ f.data = n ∧ f.poses = [(.dr, n)]

private theorem okOf {α : Type} {x : Res α} {a : α} (h : x.toOption = some a) : x = .ok a := by
  cases x with
  | error e => cases h
  | ok b => exact congrArg _ (Option.some.inj h)

/-- A payload called "laser_pf" gets no position at all and is filed with the particle filter results. -/
theorem C83_named_like_filter_false : ¬ PayloadsLocated false false false false := by
  intro h
  obtain ⟨files, h1, h2⟩ := h ["laser_pf".toList] (by simp)
  have h3 : payloadFiles false false false false ["laser_pf".toList] = .ok [⟨.pf, "laser_pf".toList, "laser_pf".toList, []⟩] :=
    okOf (by decide +kernel)
  rw [h3] at h1
  obtain ⟨f, hf, h4, -⟩ := h2 _ (List.mem_singleton.2 rfl)
  rw [← Except.ok.inj h1, List.mem_singleton] at hf
  subst hf; cases h4

/-- With payloads "laser" and "laser_pf" and the particle filter on, the data of the second are in no file. -/
theorem C83_data_lost_false : ¬ ∀ names : List (List Char), names.Nodup → ∀ files,
    payloadFiles true false false false names = .ok files → ∀ n ∈ names, ∃ f ∈ files, f.data = n := by
  intro h
  have h3 : payloadFiles true false false false ["laser".toList, "laser_pf".toList] =
      .ok [⟨.dr, "laser_dr".toList, "laser".toList, [(.dr, "laser".toList)]⟩, ⟨.pf, "laser_pf".toList, "laser".toList, []⟩] :=
    okOf (by decide +kernel)
  obtain ⟨f, hf, h4⟩ := h _ (by decide) _ h3 "laser_pf".toList (by simp)
  revert h4
  simp only [List.mem_cons, List.not_mem_nil, or_false] at hf
  rcases hf with rfl | rfl <;> decide

/-- Without USBL fixes the particle filter does not run, and the files in its folder have no positions. -/
theorem C83_filter_not_run_false : ¬ ∀ names : List (List Char), names.Nodup → (∀ n ∈ names, PlainName n) → ∀ files,
    payloadFiles true false false false names = .ok files → ∀ f ∈ files, f.poses ≠ [] := by
  intro h
  have h1 := C83_files_partial true false false false ["ctd".toList] (by simp) (by simp only [PlainName]; decide)
  refine h ["ctd".toList] (by simp) (by simp only [PlainName]; decide) _ h1 ⟨.pf, "ctd_pf".toList, "ctd".toList, []⟩ ?_ rfl
  simp

/-! ## Geographic positions -/

section
variable {K : Type} [Field K] [LinearOrder K]

/-- Latitude and longitude are the geographic position of the northings and eastings. -/
def GeoConsistent (geo : K → K → K × K) (p : GeoPose K) : Prop :=
  p.lat = .num (geo p.e p.n).1 ∧ p.lon = .num (geo p.e p.n).2

omit [LinearOrder K] in
/-- C84: after alignment with USBL fixes every pose is consistent, and all have been moved by the same vector; so are the
particle filter poses of the vehicle and the EKF poses, whatever the lever arm. -/
theorem C84_consistent_partial (geo : K → K → K × K) (o : K × K) (l : List (GeoPose K)) :
    (∀ p ∈ alignGeo geo true o l, GeoConsistent geo p) ∧
    (alignGeo geo true o l).map (fun p => (p.n, p.e)) = l.map (fun p => (p.n + o.1, p.e + o.2)) ∧
    (∀ p, GeoConsistent geo (pfGeoCentre geo o p) ∧ (pfGeoCentre geo o p).n = p.n + o.1 ∧ (pfGeoCentre geo o p).e = p.e + o.2) ∧
    ∀ shift p, GeoConsistent geo (ekfGeo geo shift o p) ∧
      (ekfGeo geo shift o p).n = p.n + (if shift then o.1 else 0) ∧ (ekfGeo geo shift o p).e = p.e + (if shift then o.2 else 0) := by
  refine ⟨?_, by simp [alignGeo], fun p => ⟨⟨rfl, rfl⟩, rfl, rfl⟩, ?_⟩
  · intro p hp
    rw [alignGeo, if_pos rfl] at hp
    obtain ⟨q, -, rfl⟩ := List.mem_map.1 hp
    exact ⟨rfl, rfl⟩
  · intro shift p
    cases shift
    · exact ⟨⟨rfl, rfl⟩, by simp [ekfGeo], by simp [ekfGeo]⟩
    · exact ⟨⟨rfl, rfl⟩, rfl, rfl⟩

example : alignGeo (K := ℚ) (fun e n => (50 + n / 100, -3 + e / 100)) true (1, 2) [⟨0, 0, .unset, .unset⟩, ⟨4, 5, .unset, .unset⟩] =
    [⟨1, 2, .num (50 + 1 / 100), .num (-3 + 2 / 100)⟩, ⟨5, 7, .num (50 + 5 / 100), .num (-3 + 7 / 100)⟩] := by
  norm_num [alignGeo]

/-- C84 in full fails for dead reckoning without USBL fixes: the poses, created with unset latitude and longitude, stay so. -/
theorem C84_no_fixes_false (geo : ℚ → ℚ → ℚ × ℚ) :
    ¬ ∀ (fixes : Bool) (o : ℚ × ℚ) (l : List (GeoPose ℚ)), ∀ p ∈ alignGeo geo fixes o l, GeoConsistent geo p := by
  intro h
  have := (h false (0, 0) [⟨0, 0, .unset, .unset⟩] ⟨0, 0, .unset, .unset⟩ (by simp [alignGeo])).1
  cases this

omit [Field K] [LinearOrder K] in
/-- It fails for every particle filter pose of the DVL: the longitude is a pair. -/
theorem C84_particle_dvl_false (geo : K → K → K × K) (p : GeoPose K) : ¬ GeoConsistent geo (pfGeoDvl geo p) := by
  rintro ⟨-, h⟩; cases h

omit [Field K] [LinearOrder K] in
/-- C84 (partial): this pair is the right latitude and longitude of its position, and the position is kept. Missing: latitude
and longitude in their own places. -/
theorem C84_particle_dvl_partial (geo : K → K → K × K) (p : GeoPose K) :
    ∃ lat lon, (pfGeoDvl geo p).lon = .pair lat lon ∧ (lat, lon) = geo (pfGeoDvl geo p).e (pfGeoDvl geo p).n ∧
      (pfGeoDvl geo p).n = p.n ∧ (pfGeoDvl geo p).e = p.e :=
  ⟨_, _, rfl, rfl, rfl, rfl⟩

/-! ## Altitudes of EKF poses -/

private theorem ekfAltLoop_ok [IsStrictOrderedRing K] (dr : List (K × K)) (hs : dr.Pairwise fun a b => a.1 < b.1) :
    ∀ (qs : List K) (i : ℕ) (a : K × K), 1 ≤ i → i < dr.length → dr[i - 1]? = some a → qs.Pairwise (· ≤ ·) →
      (∀ q ∈ qs, a.1 ≤ q ∧ ∀ z ∈ dr.getLast?, q ≤ z.1) →
      ∃ ys, ekfAltLoop dr i qs = .ok ys ∧ List.Forall₂ (fun q y => OnCurve dr q y) qs ys
  | [], i, a, _, _, _, _, _ => ⟨[], rfl, .nil⟩
  | q :: qs, i, a, h1, hi, ha, hp, hc => by
    obtain ⟨e1, e2, e3, e4⟩ := seekIdx_spec dr.length (fun m => (dr.map Prod.fst)[m]?.any (· < q)) dr.length i (by omega)
    rw [ekfAltLoop]
    generalize seekIdx dr.length (fun m => (dr.map Prod.fst)[m]?.any (· < q)) dr.length i = k at e1 e2 e3 e4
    have hq := hc q (by simp)
    have hlast : dr.getLast? = some dr[dr.length - 1] := by
      rw [List.getLast?_eq_getElem?, List.getElem?_eq_getElem (by omega)]
    have hk : k < dr.length := by
      by_contra hk
      have hk' : k = dr.length := by omega
      have := e3 (dr.length - 1) (by omega) (by omega)
      rw [List.getElem?_map, List.getElem?_eq_getElem (by omega)] at this
      simp only [Option.map_some, Option.any_some, decide_eq_true_eq] at this
      exact absurd (hq.2 _ hlast) (not_le.2 this)
    obtain ⟨b, hb⟩ : ∃ b, dr[k]? = some b := ⟨_, List.getElem?_eq_getElem hk⟩
    obtain ⟨c, hcc⟩ : ∃ c, dr[k - 1]? = some c := ⟨_, List.getElem?_eq_getElem (by omega)⟩
    have hqb : q ≤ b.1 := by
      have := e4 hk
      rw [List.getElem?_map, hb] at this
      simpa using this
    have hcq : c.1 ≤ q := by
      rcases Nat.lt_or_ge i k with hik | hik
      · have := e3 (k - 1) (by omega) (by omega)
        rw [List.getElem?_map, hcc] at this
        simp only [Option.map_some, Option.any_some, decide_eq_true_eq] at this
        exact this.le
      · have : k = i := by omega
        rw [this, ha] at hcc
        rw [← Option.some.inj hcc]; exact hq.1
    have hcb : c.1 < b.1 := head_lt_getElem Prod.fst hs hcc hb (by omega)
    have g1 : pyGet dr ((k : Int) - 1) = .ok c := by
      have := pyGet_nat dr (k - 1) c hcc
      rwa [show ((k - 1 : ℕ) : Int) = (k : Int) - 1 by omega] at this
    have g2 := pyGet_nat dr k b hb
    obtain ⟨ys, hys, hf⟩ := ekfAltLoop_ok dr hs qs k c (by omega) hk hcc hp.of_cons (fun q' hq' =>
      ⟨hcq.trans (List.rel_of_pairwise_cons hp hq'), (hc q' (by simp [hq'])).2⟩)
    refine ⟨interpolate q c.1 b.1 c.2 b.2 :: ys, ?_, .cons ?_ hf⟩
    · simp only [interpAt, bind, Except.bind, g1, g2, hys]
    · refine ⟨k - 1, c, b, hcc, by rw [show k - 1 + 1 = k by omega]; exact hb, hcq, hqb, ?_⟩
      exact interp_onLine _ _ _ _ _ hcb

/-- C85, for times during dead reckoning: every EKF pose gets the altitude on the curve of dead-reckoning altitudes at its
time. -/
theorem C85_altitudes_partial [IsStrictOrderedRing K] (dr : List (K × K)) (qs : List K) (hr : IsRecord Prod.fst dr)
    (hs : qs.Pairwise (· ≤ ·)) (hc : ∀ q ∈ qs, Covers Prod.fst dr q) :
    ∃ ys, ekfAltitudes dr qs = .ok ys ∧ List.Forall₂ (fun q y => OnCurve dr q y) qs ys := by
  obtain ⟨a, ha⟩ : ∃ a, dr[0]? = some a := ⟨_, List.getElem?_eq_getElem (by have := hr.1; omega)⟩
  exact ekfAltLoop_ok dr hr.2 qs 1 a le_rfl (by have := hr.1; omega) ha hs fun q hq =>
    ⟨(hc q hq).1 a (by rw [List.head?_eq_getElem?]; exact ha), (hc q hq).2⟩

example : ekfAltitudes (K := ℚ) [(0, 4), (10, 8), (20, 6)] [0, 5, 10, 15, 20] = .ok [4, 6, 8, 7, 6] :=
  okOf (by decide +kernel)

/-- A pose after the last dead-reckoning entry ends the program. -/
theorem C85_after_end [IsStrictOrderedRing K] (dr : List (K × K)) (q : K) (qs : List K) (h1 : 1 ≤ dr.length)
    (hq : ∀ d ∈ dr, d.1 < q) : ekfAltitudes dr (q :: qs) = .error .indexError := by
  obtain ⟨e1, e2, e3, e4⟩ := seekIdx_spec dr.length (fun m => (dr.map Prod.fst)[m]?.any (· < q)) dr.length 1 (by omega)
  rw [ekfAltitudes, ekfAltLoop]
  generalize seekIdx dr.length (fun m => (dr.map Prod.fst)[m]?.any (· < q)) dr.length 1 = k at e1 e2 e3 e4
  have hk : k = dr.length := by
    have : ¬ k < dr.length := fun hk => by
      have := e4 hk
      rw [List.getElem?_map, List.getElem?_eq_getElem hk] at this
      simp only [Option.map_some, Option.any_some, decide_eq_false_iff_not] at this
      exact this (hq _ (List.getElem_mem _))
    omega
  have g1 : pyGet dr ((k : Int) - 1) = .ok dr[dr.length - 1] := by
    have h2 : dr[dr.length - 1]? = some dr[dr.length - 1] := List.getElem?_eq_getElem (by omega)
    have := pyGet_nat dr _ _ h2
    rwa [show ((dr.length - 1 : ℕ) : Int) = (k : Int) - 1 by omega] at this
  have g2 : pyGet dr (k : Int) = .error .indexError := by
    have h0 : ¬ ((k : Int) < 0) := by omega
    have : dr[k]? = none := List.getElem?_eq_none (by omega)
    simp only [pyGet, if_neg h0, Int.toNat_natCast, this]
  simp only [interpAt, bind, Except.bind, g1, g2]

example : ∀ d ∈ [((0 : ℚ), (4 : ℚ)), (10, 8)], d.1 < 11 := by decide +kernel

/-! ## Times of the EKF -/

omit [Field K] in
private theorem insertTime_mem (x y : K) (l : List K) : y ∈ insertTime x l ↔ y = x ∨ y ∈ l := by
  induction l with
  | nil => simp [insertTime]
  | cons a l ih =>
    rw [insertTime]
    split_ifs with h1 h2
    · simp
    · subst h2; simp
    · simp only [List.mem_cons, ih]; tauto

omit [Field K] in
private theorem insertTime_sorted (x : K) (l : List K) (h : l.Pairwise (· < ·)) : (insertTime x l).Pairwise (· < ·) := by
  induction l with
  | nil => simp [insertTime]
  | cons a l ih =>
    rw [List.pairwise_cons] at h
    rw [insertTime]
    split_ifs with h1 h2
    · rw [List.pairwise_cons, List.pairwise_cons]
      exact ⟨fun y hy => by
        rcases List.mem_cons.1 hy with rfl | hy
        · exact h1
        · exact h1.trans (h.1 y hy), h.1, h.2⟩
    · exact List.pairwise_cons.2 h
    · rw [List.pairwise_cons]
      refine ⟨fun y hy => ?_, ih h.2⟩
      rcases (insertTime_mem x y l).1 hy with rfl | hy
      · exact lt_of_le_of_ne (not_lt.1 h1) (Ne.symm h2)
      · exact h.1 y hy

/-- C85 is false: not every list of poses that starts with the record gets altitudes. -/
theorem C85_false :
    ¬ ∀ (dr : List (ℚ × ℚ)) (qs : List ℚ), IsRecord Prod.fst dr → qs.Pairwise (· ≤ ·) → (∀ d ∈ dr.head?, ∀ q ∈ qs, d.1 ≤ q) →
      ∃ ys, ekfAltitudes dr qs = .ok ys ∧ ys.length = qs.length := by
  intro h
  obtain ⟨ys, h1, -⟩ := h [(0, 4), (10, 8)] [11] (by unfold IsRecord; decide +kernel) (by simp) (by simp)
  rw [C85_after_end _ _ _ (by simp) (by decide +kernel)] at h1
  cases h1

/-- C86: the EKF is asked for exactly the times of the images and of the EKF payloads, each once, in increasing order. -/
theorem C86_times (cam1 cam2 cam3 : List K) (payloads : List (List Char × List K)) :
    (ekfTimestamps cam1 cam2 cam3 payloads).Pairwise (· < ·) ∧
    ∀ t, t ∈ ekfTimestamps cam1 cam2 cam3 payloads ↔ t ∈ cam1 ∨ t ∈ cam2 ∨ t ∈ cam3 ∨
      ∃ p ∈ payloads, "_ekf".toList <:+: p.1 ∧ t ∈ p.2 := by
  have hm : ∀ (l : List K) t, t ∈ l.foldr insertTime [] ↔ t ∈ l := by
    intro l t
    induction l with
    | nil => simp
    | cons a l ih => rw [List.foldr_cons, insertTime_mem, ih, List.mem_cons]
  have hs : ∀ l : List K, (l.foldr insertTime []).Pairwise (· < ·) := by
    intro l
    induction l with
    | nil => simp
    | cons a l ih => rw [List.foldr_cons]; exact insertTime_sorted _ _ ih
  refine ⟨hs _, fun t => ?_⟩
  rw [ekfTimestamps, hm]
  have he : ∀ k : List Char, hasEkf k = true ↔ "_ekf".toList <:+: k := fun k => charsIn_iff _ k
  simp only [List.mem_append, List.mem_flatMap, List.mem_filter, he]
  constructor
  · rintro (((h | h) | h) | ⟨p, ⟨h1, h2⟩, h3⟩)
    · exact Or.inl h
    · exact Or.inr (Or.inl h)
    · exact Or.inr (Or.inr (Or.inl h))
    · exact Or.inr (Or.inr (Or.inr ⟨p, h1, h2, h3⟩))
  · rintro (h | h | h | ⟨p, h1, h2, h3⟩)
    · exact Or.inl (Or.inl (Or.inl h))
    · exact Or.inl (Or.inl (Or.inr h))
    · exact Or.inl (Or.inr h)
    · exact Or.inr ⟨p, ⟨h1, h2⟩, h3⟩

example : ekfTimestamps (K := ℚ) [3, 5] [3] [4] [("ctd".toList, [1]), ("ctd_ekf".toList, [1, 9])] = [1, 3, 4, 5, 9] := by
  decide +kernel

end

/-! ## Images of a relative-uncertainty run -/

private theorem cropLoop_true (start stop : String) (l m post : List String) (hl : l = m ++ stop :: post) (hm : stop ∉ m) :
    cropLoop start stop true l = m ++ [stop] := by
  subst hl
  induction m with
  | nil => simp [cropLoop]
  | cons a m ih =>
    have ha : (a == stop) = false := by
      rw [beq_eq_false_iff_ne]; rintro rfl; simp at hm
    rw [List.cons_append, cropLoop]
    simp only [Bool.true_or, ha, if_true, Bool.false_eq_true, if_false]
    rw [ih (fun h => hm (List.mem_cons_of_mem _ h))]; rfl

/-- C86: with a first and a last image in this order, the selection is the images from the first to the last, both
included. -/
theorem C86_selection (start stop : String) (pre mid post : List String) (h : start ≠ stop)
    (h1 : start ∉ pre) (h2 : stop ∉ pre) (h3 : stop ∉ mid) :
    cropCameras start stop (pre ++ start :: mid ++ stop :: post) = .ok (start :: mid ++ [stop]) := by
  have key : cropLoop start stop false (pre ++ start :: mid ++ stop :: post) = start :: mid ++ [stop] := by
    induction pre with
    | nil =>
      have hb : (start == stop) = false := beq_eq_false_iff_ne.2 h
      rw [List.nil_append, List.cons_append, cropLoop]
      simp only [beq_self_eq_true, Bool.or_true, if_true, hb, Bool.false_eq_true, if_false]
      rw [cropLoop_true start stop _ mid post rfl h3]; rfl
    | cons a pre ih =>
      have ha : (a == start) = false := by rw [beq_eq_false_iff_ne]; rintro rfl; simp at h1
      have hb : (a == stop) = false := by rw [beq_eq_false_iff_ne]; rintro rfl; simp at h2
      rw [List.cons_append, List.cons_append, cropLoop]
      simp only [ha, Bool.or_false, hb, Bool.false_eq_true, if_false]
      exact ih (fun h => h1 (List.mem_cons_of_mem _ h)) (fun h => h2 (List.mem_cons_of_mem _ h))
  rw [cropCameras, key, if_neg (by simp)]

/-- C86: one image that is both. -/
theorem C86_single (start : String) (pre post : List String) (h1 : start ∉ pre) :
    cropCameras start start (pre ++ start :: post) = .ok [start] := by
  have key : cropLoop start start false (pre ++ start :: post) = [start] := by
    induction pre with
    | nil => simp [cropLoop]
    | cons a pre ih =>
      have ha : (a == start) = false := by rw [beq_eq_false_iff_ne]; rintro rfl; simp at h1
      rw [List.cons_append, cropLoop]
      simp only [ha, Bool.or_false, Bool.false_eq_true, if_false]
      exact ih (fun h => h1 (List.mem_cons_of_mem _ h))
  rw [cropCameras, key, if_neg (by simp)]

/-- C86: the program stops if the first image is missing or comes after the last. -/
theorem C86_refused (start stop : String) (pre post : List String) (h1 : start ∉ pre) (h : start ≠ stop) :
    cropCameras start stop pre = .error .quit ∧ cropCameras start stop (pre ++ stop :: post) = .error .quit := by
  have key : ∀ pre : List String, start ∉ pre → ∀ post, cropLoop start stop false pre = [] ∧
      cropLoop start stop false (pre ++ stop :: post) = [] := by
    intro pre
    induction pre with
    | nil => intro _ post; have := beq_eq_false_iff_ne.2 h.symm; simp [cropLoop, h.symm]
    | cons a pre ih =>
      intro h1 post
      have ha : (a == start) = false := by rw [beq_eq_false_iff_ne]; rintro rfl; simp at h1
      obtain ⟨i1, i2⟩ := ih (fun h => h1 (List.mem_cons_of_mem _ h)) post
      rw [List.cons_append, cropLoop, cropLoop]
      simp [ha, i1, i2]
  obtain ⟨k1, k2⟩ := key pre h1 post
  exact ⟨by rw [cropCameras, if_pos k1], by rw [cropCameras, if_pos k2]⟩

/-- If the last image is missing the selection runs to the end of the record. -/
theorem C86_last_missing_false : ¬ ∀ (start stop : String) (l : List String), stop ∉ l →
    cropCameras start stop l = .error .quit := by
  intro h
  have h1 : cropCameras "b" "x" ["a", "b", "c"] = .ok ["b", "c"] := okOf (by decide +kernel)
  rw [h "b" "x" ["a", "b", "c"] (by decide)] at h1
  cases h1

/-! ## Altitudes of a whole EKF run -/

/-- C85: in a run that starts at the first and ends at the last dead-reckoning entry, whose last time is one of the
orientation times, every EKF pose gets an altitude on the dead-reckoning curve. -/
theorem C85_run (c : EkfCfg) (start : ℝ) (s0 : KVec) (P0 Q : KMat) (thr : ℝ) (q : Queues) (e : Ekf) (h0 : 0 ≤ start)
    (hq : InOrder q) (he : ekfRun c start s0 P0 Q thr q = .ok e) (dr : List (ℝ × ℝ)) (hr : IsRecord Prod.fst dr)
    (hstart : ∀ d ∈ dr.head?, d.1 = start) (hend : ∀ d ∈ dr.getLast?, d.1 = c.endT) (ho : c.endT ∈ q.orient.map (·.time)) :
    ∃ ys, ekfAltitudes dr (e.hist.map (·.time)) = .ok ys ∧
      List.Forall₂ (fun t y => OnCurve dr t y) (e.hist.map (·.time)) ys := by
  obtain ⟨a, ha⟩ : ∃ a, dr[0]? = some a := ⟨_, List.getElem?_eq_getElem (by have := hr.1; omega)⟩
  obtain ⟨z, hz⟩ : ∃ z, dr[dr.length - 1]? = some z := ⟨_, List.getElem?_eq_getElem (by have := hr.1; omega)⟩
  have ha' := hstart a (by rw [List.head?_eq_getElem?]; exact ha)
  have hz' := hend z (by rw [List.getLast?_eq_getElem?]; exact hz)
  have hlt : start < c.endT := by
    rw [← ha', ← hz']; exact head_lt_getElem Prod.fst hr.2 ha hz (by have := hr.1; omega)
  have hw := C33_within_end c start s0 P0 Q thr q h0 hq hlt (by simp only [allTimes, List.mem_append]; tauto) e he
  obtain ⟨k1, -, -, -⟩ := C33_states c start s0 P0 Q thr q h0 hq e he
  refine C85_altitudes_partial dr _ hr k1 fun t htm => ?_
  obtain ⟨s, hs, rfl⟩ := List.mem_map.1 htm
  refine ⟨fun d hd => ?_, fun d hd => ?_⟩
  · rw [hstart d hd]; exact (hw s hs).1
  · rw [hend d hd]; exact (hw s hs).2

/-- A run with one orientation, at the end time, succeeds: the hypotheses of `C85_run` can be met. -/
example (std : EkfStd) : ∃ (c : EkfCfg) (q : Queues) (e : Ekf) (dr : List (ℝ × ℝ)), InOrder q ∧
    ekfRun c 0 0 1 1 3 q = .ok e ∧ IsRecord Prod.fst dr ∧ (∀ d ∈ dr.head?, d.1 = 0) ∧ (∀ d ∈ dr.getLast?, d.1 = c.endT) ∧
    c.endT ∈ q.orient.map (·.time) := by
  have h1 : ∃ e, ekfRun ⟨std, ⟨0, 0, 0⟩, ⟨0, 0, 0⟩, 1⟩ 0 0 1 1 3 ⟨[⟨1, ⟨0, 0, 0⟩, ⟨1, 1, 1⟩⟩], [], [], [], []⟩ = .ok e := by
    have h : IsCov (1 : KMat) := by
      refine ⟨Matrix.transpose_one, fun v => ?_⟩
      rw [Matrix.one_mulVec]
      exact Finset.sum_nonneg fun i _ => mul_self_nonneg _
    have hc : CovOk (Ekf.init 0 0 1 1 3) := ⟨h, h, fun s hs => by rw [List.mem_singleton.mp hs]; exact h⟩
    obtain ⟨e1, hp⟩ : ∃ e', (Ekf.init 0 0 1 1 3).predict 1 (1 - (Ekf.init 0 0 1 1 3).lastT) = .ok e' := by
      simp [Ekf.predict, Ekf.init]
    obtain ⟨e2, h2, -⟩ := C29_correct e1 (fromOrientation std ⟨1, ⟨0, 0, 0⟩, ⟨1, 1, 1⟩⟩) (C29_predict _ _ _ _ hc hp)
      ((C29_built_diagonal std ⟨0, 0, 0⟩ ⟨0, 0, 0⟩).2.2.2 _)
    refine ⟨e2, ?_⟩
    have hn : Queues.next ⟨[⟨1, ⟨0, 0, 0⟩, ⟨1, 1, 1⟩⟩], [], [], [], []⟩ = some 1 := by simp [Queues.next]
    have hs : Queues.skip ⟨[⟨1, ⟨0, 0, 0⟩, ⟨1, 1, 1⟩⟩], [], [], [], []⟩ 0 = ⟨[⟨1, ⟨0, 0, 0⟩, ⟨1, 1, 1⟩⟩], [], [], [], []⟩ := by
      simp [Queues.skip]
    rw [ekfRun, hs]
    simp only [Queues.size, List.length_cons, List.length_nil, Nat.reduceAdd, ekfLoop, hn, ekfIter, hp, takeAt, bind, Except.bind,
      zero_lt_one, if_true, h2, Except.map, pure, Except.pure, lt_irrefl, if_false]
  obtain ⟨e, he⟩ := h1
  exact ⟨_, _, e, [(0, 5), (1, 7)], by simp [InOrder], he, ⟨by simp, by simp⟩, by simp, by simp, by simp⟩

end Oplab.Props
