import Verif.Model.CsvLoad
import Mathlib.Data.List.Basic
import Mathlib.Algebra.BigOperators.Group.List.Basic
import Mathlib.Algebra.Group.Basic
import Mathlib.Algebra.Group.Int.Defs
import Mathlib.Tactic.Abel

/-! C40 (loading poses), C41 (SLAM++ information), C71 (CSV rows read back), C72 (SLAM++
edges). -/

namespace Oplab.Props
open Oplab

/-! ### C71 -/

/-- C71: a camera row read by column name gives back every attribute. -/
theorem C71_camera_columns {V : Type} (c : CamRec V) :
    camFromDf (camHeader.zip (camRow c)) = .ok c := by
  rfl

/-- C71: the same for the rows of the vehicle centre. -/
theorem C71_centre_columns {V : Type} (c : CentreRec V) :
    centreFromDf (centreHeader.zip (centreRow c)) = .ok c := by
  rfl

private theorem read_line (fields : List Text) (hne : fields ≠ []) (h : ∀ f ∈ fields, ',' ∉ f) :
    readLine (csvLine fields) = fields := by
  rw [readLine, csvLine, List.dropLast_concat, List.splitOn_intercalate ',' h hne]

/-- C71: written as a line of text and read back, a camera keeps every attribute, as long as
no field contains a comma. -/
theorem C71_camera_text (c : CamRec Text) (h : ∀ f ∈ camRow c, ',' ∉ f) :
    camFromDf (camHeader.zip (readLine (csvLine (camRow c)))) = .ok c := by
  rw [read_line _ (by simp [camRow]) h]
  rfl

/-- C71: the same for the vehicle centre. -/
theorem C71_centre_text (c : CentreRec Text) (h : ∀ f ∈ centreRow c, ',' ∉ f) :
    centreFromDf (centreHeader.zip (readLine (csvLine (centreRow c)))) = .ok c := by
  rw [read_line _ (by simp [centreRow]) h]
  rfl

/-- C71: two records that are written alike are the same record. -/
theorem C71_injective (c d : CamRec Text) (hc : ∀ f ∈ camRow c, ',' ∉ f)
    (hd : ∀ f ∈ camRow d, ',' ∉ f) (h : csvLine (camRow c) = csvLine (camRow d)) : c = d := by
  have h1 := C71_camera_text c hc
  rw [h, C71_camera_text d hd] at h1
  exact (Except.ok.inj h1).symm

/-- Non-vacuity: a record without commas. -/
example : ∀ f ∈ camRow (⟨['a'], ['1'], ['2'], ['3'], [], [], [], [], [], [], [], [], [], [], [], [], [], [], [],
    [], [], [], [], [], [], []⟩ : CamRec Text), ',' ∉ f := by decide

/-! ### C40 -/

private theorem concat_eq {P C : Type} : ∀ (poses : List (String × P)) (covs : List (String × C)),
    poses.length = covs.length →
    concatTables poses covs = (poses.zip covs).map (fun r => ⟨some r.1, some r.2⟩)
  | [], [], _ => rfl
  | p :: ps, c :: cs, h => by
    simp only [concatTables, List.zip_cons_cons, List.map_cons, List.head?_cons, List.tail_cons]
    rw [concat_eq ps cs (by simpa using h)]

private theorem loop_true {P C : Type} (first last : String) :
    ∀ (rows : List ((String × P) × (String × C))),
    loadLoop first last true (rows.map (fun r => ⟨some r.1, some r.2⟩))
      = .ok ((rows.take (rows.findIdx (fun r => r.1.1 == last) + 1)).map
          (fun r => (r.1.1, r.1.2, r.2.2))) := by
  intro rows
  induction rows with
  | nil => rfl
  | cons r t ih =>
    simp only [List.map_cons, loadLoop, Bool.true_or, if_true, Option.map_some, List.findIdx_cons]
    by_cases h : r.1.1 = last
    · simp [h]; rfl
    · have : (r.1.1 == last) = false := by simpa using h
      simp only [this, cond_false, List.take_succ_cons, List.map_cons]
      rw [if_neg (by simpa using h), ih]
      rfl

private theorem loop_false {P C : Type} (first last : String) :
    ∀ (rows : List ((String × P) × (String × C))),
    loadLoop first last false (rows.map (fun r => ⟨some r.1, some r.2⟩))
      = .ok (((rows.take (rows.findIdx (fun r => r.1.1 == last) + 1)).drop
          (rows.findIdx (fun r => r.1.1 == first))).map (fun r => (r.1.1, r.1.2, r.2.2))) := by
  intro rows
  induction rows with
  | nil => rfl
  | cons r t ih =>
    by_cases hf : r.1.1 = first
    · have h1 : loadLoop first last false ((r :: t).map (fun r => ⟨some r.1, some r.2⟩))
          = loadLoop first last true ((r :: t).map (fun r => ⟨some r.1, some r.2⟩)) := by
        simp [loadLoop, hf]
      rw [h1, loop_true]
      simp [List.findIdx_cons, hf]
    · have hf' : (r.1.1 == first) = false := by simpa using hf
      simp only [List.map_cons, loadLoop, Bool.false_or, Option.map_some, List.findIdx_cons, hf',
        cond_false]
      rw [if_neg (by simpa using hf)]
      by_cases hl : r.1.1 = last
      · rw [if_pos (by simpa using hl)]
        simp [hl]
      · have hl' : (r.1.1 == last) = false := by simpa using hl
        rw [if_neg (by simpa using hl)]
        have hb : decide (some r.1.1 = some first) = false := by simpa using hf
        rw [hb, ih]
        simp [hl']

/-- C40: for files with equally many lines, exactly the rows from the first one of the start
image up to and including the first one of the end image (up to the end of the file if there
is none) are returned, in order, each with the pose and the covariance of its own line. -/
theorem C40_range_partial {P C : Type} (first last : String) (poses : List (String × P))
    (covs : List (String × C)) (h : poses.length = covs.length) :
    loadStates first last poses covs = .ok
      ((((poses.zip covs).take (poses.findIdx (fun p => p.1 == last) + 1)).drop
        (poses.findIdx (fun p => p.1 == first))).map (fun r => (r.1.1, r.1.2, r.2.2))) := by
  have hidx : ∀ name, (poses.zip covs).findIdx (fun r => r.1.1 == name)
      = poses.findIdx (fun p => p.1 == name) := by
    intro name
    clear first last
    induction poses generalizing covs with
    | nil => rfl
    | cons p ps ih =>
      cases covs with
      | nil => simp at h
      | cons c cs =>
        simp only [List.zip_cons_cons, List.findIdx_cons]
        rw [ih cs (by simpa using h)]
  rw [loadStates, concat_eq poses covs h, loop_false, hidx, hidx]

/-- C40: a missing start image gives no state at all. -/
theorem C40_no_start {P C : Type} (first last : String) (poses : List (String × P))
    (covs : List (String × C)) (h : poses.length = covs.length) (hs : ∀ p ∈ poses, p.1 ≠ first) :
    loadStates first last poses covs = .ok [] := by
  rw [C40_range_partial first last poses covs h]
  have : poses.findIdx (fun p => p.1 == first) = poses.length := by
    rw [List.findIdx_eq_length]
    intro p hp
    simpa using hs p hp
  rw [this]
  have hl : ((poses.zip covs).take (poses.findIdx (fun p => p.1 == last) + 1)).length ≤ poses.length := by
    simp only [List.length_take, List.length_zip]; omega
  rw [List.drop_eq_nil_of_le hl, List.map_nil]

/-- Non-vacuity: a range in the middle of four images. -/
example : loadStates "b" "c" [("a", 1), ("b", 2), ("c", 3), ("d", 4)]
    [("a", 10), ("b", 20), ("c", 30), ("d", 40)] = .ok [("b", 2, 20), ("c", 3, 30)] := by decide

private theorem loop_used {P C : Type} (first last : String) : ∀ (poses : List (String × P)) (covs : List (String × C)),
    loadLoop first last true (concatTables poses covs) =
      if (poses.findIdx (fun p => p.1 == last) < poses.length ∧ poses.findIdx (fun p => p.1 == last) < covs.length) ∨ poses.length = covs.length then
        .ok (((poses.zip covs).take (poses.findIdx (fun p => p.1 == last) + 1)).map (fun r => (r.1.1, r.1.2, r.2.2)))
      else .error .typeError
  | [], [] => by simp [concatTables, loadLoop]
  | [], c :: cs => by simp [concatTables, loadLoop]
  | p :: ps, [] => by simp [concatTables, loadLoop]
  | p :: ps, c :: cs => by
    have ih := loop_used first last ps cs
    by_cases hp : p.1 = last
    · simp [concatTables, loadLoop, hp, List.findIdx_cons]
      rfl
    · have hp' : (p.1 == last) = false := by simpa using hp
      simp only [concatTables, loadLoop, List.head?_cons, List.tail_cons, Option.map_some, Option.some.injEq, hp, decide_false, Bool.true_or, if_true,
        Bool.false_eq_true, if_false, List.findIdx_cons, hp', cond_false, List.length_cons, Nat.add_lt_add_iff_right, Nat.add_right_cancel_iff, ih,
        List.zip_cons_cons, List.take_succ_cons, List.map_cons]
      split <;> rfl

private theorem loop_unused {P C : Type} (first last : String) : ∀ (poses : List (String × P)) (covs : List (String × C)),
    loadLoop first last false (concatTables poses covs) =
      if poses.findIdx (fun p => p.1 == first) = poses.length ∨ poses.findIdx (fun p => p.1 == last) < poses.findIdx (fun p => p.1 == first) ∨
        (poses.findIdx (fun p => p.1 == last) < poses.length ∧ poses.findIdx (fun p => p.1 == last) < covs.length) ∨ poses.length = covs.length then
        .ok ((((poses.zip covs).take (poses.findIdx (fun p => p.1 == last) + 1)).drop (poses.findIdx (fun p => p.1 == first))).map
          (fun r => (r.1.1, r.1.2, r.2.2)))
      else .error .typeError
  | [], covs => by
    have : ∀ cs : List (String × C), loadLoop (P := P) first last false (cs.map fun c => ⟨none, some c⟩) = .ok [] := by
      intro cs
      induction cs with
      | nil => rfl
      | cons c cs ih => simpa [loadLoop] using ih
    simp [concatTables, this]
  | p :: ps, covs => by
    have ih := loop_unused first last ps covs.tail
    by_cases hf : p.1 = first
    · have h1 := loop_used first last (p :: ps) covs
      have h2 : loadLoop first last false (concatTables (p :: ps) covs) = loadLoop first last true (concatTables (p :: ps) covs) := by
        simp [concatTables, loadLoop, hf]
      have h3 : (p :: ps).findIdx (fun p => p.1 == first) = 0 := by simp [List.findIdx_cons, hf]
      rw [h2, h1, h3]
      simp
    · have hf' : (p.1 == first) = false := by simpa using hf
      have h3 : (p :: ps).findIdx (fun p => p.1 == first) = ps.findIdx (fun p => p.1 == first) + 1 := by simp [List.findIdx_cons, hf']
      by_cases hl : p.1 = last
      · have h4 : (p :: ps).findIdx (fun p => p.1 == last) = 0 := by simp [List.findIdx_cons, hl]
        rw [h3, h4, if_pos (Or.inr (Or.inl (Nat.succ_pos _)))]
        have hlf : last ≠ first := fun h => hf (hl.trans h)
        have e : ((p :: ps).zip covs |>.take (0 + 1)).drop (ps.findIdx (fun p => p.1 == first) + 1) = [] := by
          rw [List.drop_eq_nil_iff, List.length_take]
          omega
        rw [e]
        simp [concatTables, loadLoop, hl, hlf]
      · have hl' : (p.1 == last) = false := by simpa using hl
        have h4 : (p :: ps).findIdx (fun p => p.1 == last) = ps.findIdx (fun p => p.1 == last) + 1 := by simp [List.findIdx_cons, hl']
        have h5 : loadLoop first last false (concatTables (p :: ps) covs) = loadLoop first last false (concatTables ps covs.tail) := by
          simp [concatTables, loadLoop, hf, hl]
        rw [h5, ih, h3, h4]
        have hle : ps.findIdx (fun p => p.1 == first) ≤ ps.length := List.findIdx_le_length
        cases covs with
        | nil =>
          simp only [List.tail_nil, List.zip_nil_right, List.take_nil, List.drop_nil, List.map_nil, List.length_cons, List.length_nil]
          exact if_congr (by omega) rfl rfl
        | cons c cs =>
          refine if_congr ?_ (by simp) rfl
          simp only [List.tail_cons, List.length_cons]
          omega

/-- C40: for files of any lengths: the rows from the start image to the end image are returned if there is no start image, if the end image comes before
it, or if both files have the row of the end image (or both end together); otherwise the call fails. -/
theorem C40_exact {P C : Type} (first last : String) (poses : List (String × P)) (covs : List (String × C)) :
    loadStates first last poses covs =
      if poses.findIdx (fun p => p.1 == first) = poses.length ∨ poses.findIdx (fun p => p.1 == last) < poses.findIdx (fun p => p.1 == first) ∨
        (poses.findIdx (fun p => p.1 == last) < poses.length ∧ poses.findIdx (fun p => p.1 == last) < covs.length) ∨ poses.length = covs.length then
        .ok ((((poses.zip covs).take (poses.findIdx (fun p => p.1 == last) + 1)).drop (poses.findIdx (fun p => p.1 == first))).map
          (fun r => (r.1.1, r.1.2, r.2.2)))
      else .error .typeError := loop_unused first last poses covs

/-- Non-vacuity: a covariance file that ends after the end image is enough; one that goes on after the poses is not. -/
example : loadStates "b" "c" [("a", 1), ("b", 2), ("c", 3), ("d", 4)] [("a", 5), ("b", 6), ("c", 7)] = .ok [("b", 2, 6), ("c", 3, 7)] ∧
    loadStates "a" "z" [("a", 1)] [("a", 5), ("b", 6)] = .error .typeError := by decide

/-- C40 is false when the covariance file is one line short (as after an interrupted run):
the states that are there are not returned, the call raises `TypeError`. -/
theorem C40_short_false :
    ∃ (poses : List (String × Nat)) (covs : List (String × Nat)),
      loadStates "a" "z" poses covs = .error .typeError :=
  ⟨[("a", 1), ("b", 2)], [("a", 1)], by decide⟩

/-- C40: the covariance columns of a row are the matrix that was written. -/
theorem C40_covariance {V : Type} (cov : Nat → Nat → V) (a b : Nat) (ha : a < 6) (hb : b < 6) :
    covReshape (covEntries cov) a b = some (cov a b) := by
  have h1 : a = 0 ∨ a = 1 ∨ a = 2 ∨ a = 3 ∨ a = 4 ∨ a = 5 := by omega
  have h2 : b = 0 ∨ b = 1 ∨ b = 2 ∨ b = 3 ∨ b = 4 ∨ b = 5 := by omega
  rcases h1 with rfl | rfl | rfl | rfl | rfl | rfl <;>
    rcases h2 with rfl | rfl | rfl | rfl | rfl | rfl <;> rfl

/-- C40: `load_states` accepts a header exactly if it starts with the one `Camera` writes for covariances, which has one
column for the path and one for every entry of a row. -/
theorem C40_header : (∀ h, checkCovHeader h = .ok () ↔ covHeader <+: h) ∧
    ∀ {V : Type} (cov : Nat → Nat → V), covHeader.length = 1 + (covEntries cov).length := by
  have e : covHeader = expectedCovHeader := by decide +kernel
  have hl : expectedCovHeader.length = 37 := by decide +kernel
  refine ⟨fun h => ⟨fun hh => ?_, fun hh => ?_⟩, fun {V} cov => ?_⟩
  · unfold checkCovHeader at hh
    split_ifs at hh with hc
    rw [e, ← not_not.mp (not_or.mp hc).2]
    exact List.take_prefix _ _
  · rw [e] at hh
    have h1 := hh.length_le
    have h2 : h.take 37 = expectedCovHeader := by rw [← hl]; exact (List.prefix_iff_eq_take.mp hh).symm
    unfold checkCovHeader
    rw [if_neg (by rw [hl] at h1; simp only [h2, ne_eq, not_true_eq_false, or_false]; omega)]
  · rw [e, hl]
    rfl

/-! ### C41 -/

/-- Order of the variables in SLAM++: x, y, z, yaw, pitch, roll. -/
def sppOrder : Nat → Nat
  | 3 => 5
  | 5 => 3
  | i => i

/-- The upper triangle, row by row, of the pose block in SLAM++'s order. -/
def sppUpper {V : Type} (m : Nat → Nat → V) : List V :=
  (List.range 6).flatMap (fun i =>
    ((List.range 6).filter (fun j => decide (i ≤ j))).map (fun j => m (sppOrder i) (sppOrder j)))

private theorem swapCols_map {V W : Type} (f : V → W) (l : List V) (i : Nat) :
    swapCols (l.map f) i = (swapCols l i).map f := by
  unfold swapCols
  rw [List.getElem?_map, List.getElem?_map]
  cases h1 : l[12 * i + 3]? <;> cases h2 : l[12 * i + 5]? <;> simp [List.map_set]

private theorem fold_map {V W : Type} (f : V → W) (stepV : List V → Nat → List V)
    (stepW : List W → Nat → List W) (h : ∀ l i, stepW (l.map f) i = (stepV l i).map f) :
    ∀ (is : List Nat) (l : List V), is.foldl stepW (l.map f) = (is.foldl stepV l).map f := by
  intro is
  induction is with
  | nil => intro l; rfl
  | cons i t ih => intro l; rw [List.foldl_cons, List.foldl_cons, h, ih]

private theorem sppInfo_map {V W : Type} (f : V → W) (l : List V) :
    sppInfo (l.map f) = (sppInfo l).map f := by
  simp only [sppInfo, List.length_map, ← List.map_take]
  rw [fold_map f swapCols swapCols (swapCols_map f)]
  have : ∀ l : List V, swapRows (l.map f) = (swapRows l).map f := by
    intro l; simp [swapRows, List.map_drop, List.map_take]
  rw [this]
  rw [fold_map f keepUpper keepUpper fun l i => by
    simp [keepUpper, ← List.map_take, ← List.map_drop, ← List.map_append]]

/-- C41: for every information matrix the 21 numbers written are the upper triangle of its
pose block with the rotations in the order yaw, pitch, roll. -/
theorem C41_information {V : Type} (m : Nat → Nat → V) :
    sppInfo (flatten12 m) = sppUpper m ∧ (sppInfo (flatten12 m)).length = 21 := by
  have e : sppInfo (List.range 144)
      = [0, 1, 2, 5, 4, 3, 13, 14, 17, 16, 15, 26, 29, 28, 27, 65, 64, 63, 52, 51, 39] := by
    decide +kernel
  have h : sppInfo (flatten12 m) = sppUpper m := by
    rw [flatten12, sppInfo_map, e]
    rfl
  exact ⟨h, by rw [h]; rfl⟩

/-! ### C72 -/

private theorem rel_fold {K : Type} [Sub K] (pre : List K) : ∀ (l : List K),
    (((List.range' pre.length (l.length - 1)).foldl relStep (pre ++ l)).dropLast)
      = pre ++ List.zipWith (· - ·) l l.tail ∨ l = [] := by
  intro l
  induction l generalizing pre with
  | nil => exact Or.inr rfl
  | cons a t ih =>
    left
    cases t with
    | nil => simp
    | cons b t =>
      have hs : relStep (pre ++ a :: b :: t) pre.length = (pre ++ [a - b]) ++ b :: t := by
        simp [relStep]
      simp only [List.length_cons, Nat.add_sub_cancel, List.range'_succ, List.foldl_cons, hs]
      rcases ih (pre ++ [a - b]) with h | h
      · simp only [List.length_append, List.length_cons, List.length_nil, Nat.zero_add,
          Nat.add_sub_cancel] at h
        rw [h]
        simp
      · simp at h

/-- C72: for the first camera, edge `i` is the pose of image `i` minus the pose of image
`i + 1`, and there is one edge less than images. -/
theorem C72_first_camera_partial {K : Type} [Sub K] (cam1 cam2 : List K) :
    (sppPoses cam1 cam2).1 = List.zipWith (· - ·) cam1 cam1.tail := by
  rcases rel_fold [] cam1 with h | h
  · simpa [sppPoses, sppRelative, List.range_eq_range'] using h
  · subst h; rfl

/-- C72: so the edges of the first camera add up to the displacement from its last image to
its first. -/
theorem C72_first_camera_sum {K : Type} [AddCommGroup K] (a : K) (t cam2 : List K) :
    ((sppPoses (a :: t) cam2).1).sum = a - (a :: t).getLast (by simp) := by
  rw [C72_first_camera_partial]
  induction t generalizing a with
  | nil => simp
  | cons b t ih =>
    have := ih b
    simp only [List.tail_cons, List.zipWith_cons_cons, List.sum_cons] at this ⊢
    have e : (a :: b :: t).getLast (by simp) = (b :: t).getLast (by simp) := List.getLast_cons (by simp)
    rw [this, e]
    abel

/-- C72 is false for the second camera: its absolute poses are written as edges. -/
theorem C72_second_camera_false :
    ∃ cam1 cam2 : List Int, (sppPoses cam1 cam2).2 = cam2 ∧
      (sppPoses cam1 cam2).2 ≠ List.zipWith (· - ·) cam2 cam2.tail :=
  ⟨[], [100, 101], rfl, by decide⟩

/-- C72: node numbers: if all file names carry a number, the first edge starts at node zero
and every edge leads to the next number. -/
theorem C72_nodes (files : List Text)
    (hd : ∀ f ∈ files, imageDigits f ≠ [] ∧ ∀ c ∈ imageDigits f, c.isDigit = true) :
    sppNodes files = .ok (files.map (fun f =>
      (digitsVal (imageDigits f) - nodeOffset files,
       digitsVal (imageDigits f) - nodeOffset files + 1))) ∧
    ∀ f ∈ files.head?, digitsVal (imageDigits f) - nodeOffset files = 0 := by
  have h : ∀ f ∈ files, isDigits (imageDigits f) = true := by
    intro f hf
    obtain ⟨h1, h2⟩ := hd f hf
    simp only [isDigits, Bool.and_eq_true, Bool.not_eq_true', List.isEmpty_eq_false_iff, List.all_eq_true]
    exact ⟨h1, h2⟩
  clear hd
  constructor
  · unfold sppNodes
    generalize nodeOffset files = off
    induction files with
    | nil => rfl
    | cons f t ih =>
      rw [List.mapM_cons]
      have := h f (by simp)
      have hn : nodeNumber off f = .ok (digitsVal (imageDigits f) - off) := by
        simp only [nodeNumber, this, if_true]
      rw [hn, ih fun g hg => h g (by simp [hg])]
      rfl
  · intro f hf
    cases files with
    | nil => simp at hf
    | cons g t =>
      simp at hf
      subst hf
      simp [nodeOffset, h g (by simp)]

/-- C72: image names that are plain numbers of up to four digits (so that the place of the number in a name is empty)
give these numbers as nodes, without an offset. -/
theorem C72_plain_numbers (files : List Text) (h : ∀ f ∈ files, f ≠ [] ∧ f.length ≤ 4 ∧ ∀ c ∈ f, c.isDigit = true) :
    sppNodes files = .ok (files.map (fun f => (digitsVal f, digitsVal f + 1))) := by
  have hi : ∀ f ∈ files, imageDigits f = [] ∧ isDigits f = true := by
    intro f hf
    obtain ⟨h1, h2, h3⟩ := h f hf
    refine ⟨by simp [imageDigits, Nat.sub_eq_zero_of_le h2], ?_⟩
    simp only [isDigits, Bool.and_eq_true, Bool.not_eq_true', List.isEmpty_eq_false_iff, List.all_eq_true]
    exact ⟨h1, h3⟩
  unfold sppNodes
  generalize nodeOffset files = off
  clear h
  induction files with
  | nil => rfl
  | cons f t ih =>
    rw [List.mapM_cons]
    obtain ⟨h1, h2⟩ := hi f (by simp)
    have hn : nodeNumber off f = .ok (digitsVal f) := by
      rw [nodeNumber, h1, if_neg (by decide), if_pos h2]
    rw [hn, ih fun g hg => hi g (by simp [hg])]
    rfl

/-- C72: if the first image is neither numbered nor a plain number, nothing is written. -/
theorem C72_no_number (f : Text) (files : List Text) (h1 : ∃ c ∈ imageDigits f, c.isDigit = false) (h2 : ∃ c ∈ f, c.isDigit = false) :
    sppNodes (f :: files) = .error .valueError := by
  have hn : ∀ s : Text, (∃ c ∈ s, c.isDigit = false) → isDigits s = false := by
    rintro s ⟨c, hc, hd⟩
    have : s.all Char.isDigit = false := by
      rw [List.all_eq_false]
      exact ⟨c, hc, by simp [hd]⟩
    simp [isDigits, this]
  have : ∀ off, nodeNumber off f = .error .valueError := by
    intro off
    rw [nodeNumber, if_neg (by simp [hn _ h1]), if_neg (by simp [hn _ h2])]
  unfold sppNodes
  rw [List.mapM_cons, this]
  rfl

/-- Non-vacuity: the name of a BioCam image. -/
example : (∃ c ∈ imageDigits "20180918_171534_pco1.tif".toList, c.isDigit = false) ∧ ∃ c ∈ "20180918_171534_pco1.tif".toList, c.isDigit = false := by
  decide +kernel

/-- C72 is false for a mixture: after a first image without a number the nodes of the others are absolute numbers. -/
theorem C72_mixed_false : sppNodes [['7'], "image0000012.tif".toList] = .ok [(7, 8), (12, 13)] := by
  have h1 : nodeOffset [['7'], "image0000012.tif".toList] = 0 := by decide
  have h2 : nodeNumber 0 ['7'] = .ok 7 := by
    rw [nodeNumber, if_neg (by decide), if_pos (by decide)]; rfl
  have h3 : nodeNumber 0 "image0000012.tif".toList = .ok 12 := by
    rw [nodeNumber, if_pos (by decide)]
    congr 1
  unfold sppNodes
  rw [h1, List.mapM_cons, List.mapM_cons, List.mapM_nil, h2, h3]
  rfl

/-- Non-vacuity: a file name with a number. -/
example : isDigits (imageDigits "image0000012.tif".toList) = true ∧
    digitsVal (imageDigits "image0000012.tif".toList) = 12 := by decide

end Oplab.Props
