import Verif.Model.CornerOrder
import Verif.Spec.CornerOrder
import Verif.Props.CameraCal
import Mathlib.Tactic.Ring
import Mathlib.Tactic.Linarith
import Mathlib.Tactic.NormNum

/-!
# C225: corners are numbered alike in all views
-/

namespace Oplab.Props
open Oplab Oplab.Spec

section lists
variable {A : Type}

private def tableOf (s : ℕ → ℕ → A) (rows cols : ℕ) : List A :=
  (List.range rows).flatMap fun i => (List.range cols).map fun j => s i j

private theorem table_length (s : ℕ → ℕ → A) : ∀ rows cols, (tableOf s rows cols).length = rows * cols
  | 0, cols => by simp [tableOf]
  | r + 1, cols => by
    have := table_length s r cols
    unfold tableOf at *
    rw [List.range_succ, List.flatMap_append, List.length_append, this]
    simp [Nat.add_mul]

private theorem table_get (s : ℕ → ℕ → A) (cols : ℕ) : ∀ rows i j, i < rows → j < cols → (tableOf s rows cols)[i * cols + j]? = some (s i j)
  | 0, i, j, hi, _ => absurd hi (by omega)
  | r + 1, i, j, hi, hj => by
    have hl := table_length s r cols
    have ih := table_get s cols r
    unfold tableOf at *
    rw [List.range_succ, List.flatMap_append]
    by_cases h : i < r
    · rw [List.getElem?_append_left (by rw [hl]; nlinarith)]
      exact ih i j h hj
    · obtain rfl : i = r := by omega
      rw [List.getElem?_append_right (by rw [hl]; omega), hl]
      simp [hj]

private theorem index_split {rows cols k : ℕ} (hk : k < rows * cols) : ∃ i j, i < rows ∧ j < cols ∧ k = i * cols + j := by
  have hc : 0 < cols := by
    rcases Nat.eq_zero_or_pos cols with h | h
    · rw [h] at hk; omega
    · exact h
  refine ⟨k / cols, k % cols, (Nat.div_lt_iff_lt_mul hc).2 hk, Nat.mod_lt _ hc, ?_⟩
  rw [Nat.mul_comm]
  exact (Nat.div_add_mod k cols).symm

private theorem table_ext (s t : ℕ → ℕ → A) (rows cols : ℕ) (h : ∀ i j, i < rows → j < cols → s i j = t i j) :
    tableOf s rows cols = tableOf t rows cols := by
  apply List.ext_getElem?
  intro k
  by_cases hk : k < rows * cols
  · obtain ⟨i, j, hi, hj, rfl⟩ := index_split hk
    rw [table_get s cols rows i j hi hj, table_get t cols rows i j hi hj, h i j hi hj]
  · rw [List.getElem?_eq_none (by rw [table_length]; omega), List.getElem?_eq_none (by rw [table_length]; omega)]

private theorem table_reverse (s : ℕ → ℕ → A) (rows cols : ℕ) :
    (tableOf s rows cols).reverse = tableOf (fun i j => s (rows - 1 - i) (cols - 1 - j)) rows cols := by
  apply List.ext_getElem?
  intro k
  by_cases hk : k < rows * cols
  · obtain ⟨i, j, hi, hj, rfl⟩ := index_split hk
    rw [List.getElem?_reverse (by rw [table_length]; exact hk), table_get _ cols rows i j hi hj, table_length]
    have e : rows * cols - 1 - (i * cols + j) = (rows - 1 - i) * cols + (cols - 1 - j) := by
      obtain ⟨a, rfl⟩ : ∃ a, rows = i + 1 + a := ⟨rows - (i + 1), by omega⟩
      rw [show i + 1 + a - 1 - i = a by omega, Nat.add_mul, Nat.add_mul, Nat.one_mul]
      omega
    rw [e]
    exact table_get s cols rows _ _ (by omega) (by omega)
  · rw [List.getElem?_eq_none (by rw [List.length_reverse, table_length]; omega), List.getElem?_eq_none (by rw [table_length]; omega)]

private theorem mapM_values {B C : Type} (f : B → Res C) (g : B → C) : ∀ l : List B, (∀ b ∈ l, f b = .ok (g b)) → l.mapM f = .ok (l.map g)
  | [], _ => rfl
  | b :: l, h => by
    rw [List.mapM_cons, h b (by simp), mapM_values f g l fun x hx => h x (by simp [hx])]
    rfl

private theorem table_pairs (s : ℕ → ℕ → A) (rows cols : ℕ) :
    tableOf s rows cols = (tableOf (fun i j => (i, j)) rows cols).map fun p => s p.1 p.2 := by
  simp [tableOf, List.map_flatMap, Function.comp_def]

private theorem mem_table {rows cols : ℕ} {p : ℕ × ℕ} (h : p ∈ tableOf (fun i j => (i, j)) rows cols) : p.1 < rows ∧ p.2 < cols := by
  simp only [tableOf, List.mem_flatMap, List.mem_range, List.mem_map] at h
  obtain ⟨i, hi, j, hj, rfl⟩ := h
  exact ⟨hi, hj⟩

private theorem pyGet_nat (l : List A) (i : ℕ) (a : A) (h : l[i]? = some a) : pyGet l (i : Int) = .ok a := by
  unfold pyGet
  rw [if_neg (by omega), if_neg (by omega), Int.toNat_natCast, h]

private theorem table_pick (l : List A) (f : ℕ → ℕ → ℕ) (t : ℕ → ℕ → A) (rows cols : ℕ)
    (h : ∀ i j, i < rows → j < cols → l[f i j]? = some (t i j)) :
    (tableOf f rows cols).mapM (fun k : ℕ => pyGet l (k : Int)) = .ok (tableOf t rows cols) := by
  rw [table_pairs f, table_pairs t, List.mapM_map]
  exact mapM_values _ _ _ fun p hp => pyGet_nat _ _ _ (h _ _ (mem_table hp).1 (mem_table hp).2)

private theorem once_table (s : ℕ → ℕ → A) (n : ℕ) :
    rotateOnce n (tableOf s n n) = .ok (tableOf (fun i j => s j (n - 1 - i)) n n) := by
  unfold rotateOnce
  rw [if_neg (by rw [table_length]; simp)]
  exact table_pick _ (fun i j => j * n + (n - 1 - i)) _ n n fun i j hi hj => table_get s n n j _ hj (by omega)

private theorem thrice_table (s : ℕ → ℕ → A) (n : ℕ) :
    rotateThrice n (tableOf s n n) = .ok (tableOf (fun i j => s (n - 1 - j) i) n n) := by
  unfold rotateThrice
  rw [if_neg (by rw [table_length]; simp)]
  exact table_pick _ (fun i j => (n - 1 - j) * n + i) _ n n fun i j hi hj => table_get s n n _ i (by omega) hi

private theorem table_first (s : ℕ → ℕ → A) (rows cols : ℕ) (hr : 0 < rows) (hc : 0 < cols) :
    pyGet (tableOf s rows cols) 0 = .ok (s 0 0) := by
  have := table_get s cols rows 0 0 hr hc
  exact pyGet_nat _ 0 _ (by simpa using this)

private theorem table_last (s : ℕ → ℕ → A) (rows cols : ℕ) (hr : 0 < rows) (hc : 0 < cols) :
    pyGet (tableOf s rows cols) (-1) = .ok (s (rows - 1) (cols - 1)) := by
  have hl := table_length s rows cols
  have hp : 0 < rows * cols := Nat.mul_pos hr hc
  have := table_get s cols rows (rows - 1) (cols - 1) (by omega) (by omega)
  have e : (rows - 1) * cols + (cols - 1) = rows * cols - 1 := by
    obtain ⟨a, rfl⟩ : ∃ a, rows = a + 1 := ⟨rows - 1, by omega⟩
    rw [Nat.add_sub_cancel, Nat.add_mul, Nat.one_mul]
    omega
  rw [e] at this
  unfold pyGet
  dsimp only
  rw [if_pos (by decide : (-1 : Int) < 0), hl, if_neg (by omega),
    show ((-1 : Int) + ((rows * cols : ℕ) : Int)).toNat = rows * cols - 1 by omega, this]

end lists

section
variable {K : Type} [Field K] [LinearOrder K] [IsStrictOrderedRing K]

/-- C225: however the detector numbers the corners of a board that is seen upright, they end up numbered from the first
corner, row by row. -/
theorem C225_numbered_partial (s : BoardView K) (rows cols : ℕ) (hr : 0 < rows) (hc : 0 < cols) (hu : Upright s rows cols) (l : List (K × K))
    (hl : Detects s rows cols l) : orderCorners rows cols l = .ok (s.listed rows cols) := by
  obtain ⟨hy, hsq⟩ := hu
  change _ = Except.ok (tableOf s rows cols)
  unfold Above LeftOf at *
  cases hl with
  | same =>
    change orderCorners rows cols (tableOf s rows cols) = _
    unfold orderCorners
    rw [table_first s rows cols hr hc, table_last s rows cols hr hc]
    simp only [bind, Except.bind]
    by_cases h : rows = cols
    · obtain ⟨hx, -, -⟩ := hsq h
      rw [if_neg (by simpa using h), decide_eq_true (by linarith), decide_eq_true (by linarith)]
      rfl
    · rw [if_pos h, if_neg (not_lt.2 hy.le)]
  | opposite =>
    change orderCorners rows cols (tableOf (fun i j => s (rows - 1 - i) (cols - 1 - j)) rows cols) = _
    unfold orderCorners
    rw [table_first _ rows cols hr hc, table_last _ rows cols hr hc]
    have hrev : (tableOf (fun i j => s (rows - 1 - i) (cols - 1 - j)) rows cols).reverse = tableOf s rows cols := by
      rw [← table_reverse, List.reverse_reverse]
    simp only [bind, Except.bind, Nat.sub_zero, Nat.sub_self]
    by_cases h : rows = cols
    · obtain ⟨hx, -, -⟩ := hsq h
      rw [if_neg (by simpa using h), decide_eq_false (by linarith), decide_eq_false (by linarith), hrev]
      rfl
    · rw [if_pos h, if_pos hy, hrev]
  | next h =>
    subst h
    obtain ⟨-, hy2, hx2⟩ := hsq rfl
    change orderCorners rows rows (tableOf (fun i j => s j (rows - 1 - i)) rows rows) = _
    unfold orderCorners
    rw [table_first _ rows rows hr hc, table_last _ rows rows hr hc, thrice_table]
    simp only [bind, Except.bind, Nat.sub_zero, Nat.sub_self]
    rw [if_neg (by simp), decide_eq_false (by linarith), decide_eq_true (by linarith)]
    simp only [Bool.false_and, Bool.false_or, Bool.not_true, Bool.false_eq_true, if_false]
    exact congrArg _ (table_ext _ _ _ _ fun i j hi hj => by rw [show rows - 1 - (rows - 1 - j) = j by omega])
  | previous h =>
    subst h
    obtain ⟨-, hy2, hx2⟩ := hsq rfl
    change orderCorners rows rows (tableOf (fun i j => s (rows - 1 - j) (rows - 1 - (rows - 1 - i))) rows rows) = _
    unfold orderCorners
    rw [table_first _ rows rows hr hc, table_last _ rows rows hr hc, once_table]
    simp only [bind, Except.bind, Nat.sub_zero, Nat.sub_self]
    rw [if_neg (by simp), decide_eq_true (by linarith), decide_eq_false (by linarith)]
    simp only [Bool.and_false, Bool.true_or, Bool.not_true, Bool.false_eq_true, if_false, if_true]
    exact congrArg _ (table_ext _ _ _ _ fun i j hi hj => by
      rw [show rows - 1 - (rows - 1 - i) = i by omega, show rows - 1 - (rows - 1 - j) = j by omega])

variable [FloorRing K]

omit [Field K] [LinearOrder K] [IsStrictOrderedRing K] [FloorRing K] in
private theorem corners_get (f : K × K → K × K) (s : BoardView K) (rows cols i j : ℕ) (hi : i < rows) (hj : j < cols) :
    ((s.listed rows cols).map f)[i * cols + j]? = some (f (s i j)) := by
  rw [List.getElem?_map]
  change ((tableOf s rows cols)[i * cols + j]?).map f = _
  rw [table_get s cols rows i j hi hj]
  rfl

/-- C225: the corners of an upright view that are kept are those of the board, in order, each moved by the refinement only. -/
theorem C225_view_partial (dist : K × K → K × K → K) (snap : ℤ → K × K → K × K) (w h : K) (s : BoardView K) (rows cols : ℕ) (hr : 0 < rows)
    (hc : 0 < cols) (hu : Upright s rows cols) (l c : List (K × K)) (hl : Detects s rows cols l)
    (hb : boardCorners dist snap w h rows cols (some l) = .ok (some c)) :
    c.length = rows * cols ∧ ∃ r, refineRadius dist rows cols (s.listed rows cols) = .ok r ∧
      ∀ i j, i < rows → j < cols → c[i * cols + j]? = some (snap r (s i j)) := by
  unfold boardCorners at hb
  dsimp only at hb
  rw [C225_numbered_partial s rows cols hr hc hu l hl] at hb
  simp only [bind, Except.bind] at hb
  split_ifs at hb
  · cases he : refineRadius dist rows cols (s.listed rows cols) with
    | error e => rw [he] at hb; cases hb
    | ok r =>
      rw [he] at hb
      obtain rfl : (s.listed rows cols).map (snap r) = c := Option.some.inj (Except.ok.inj hb)
      refine ⟨?_, r, rfl, fun i j hi hj => corners_get _ s rows cols i j hi hj⟩
      rw [List.length_map]
      exact table_length s rows cols
  · cases hb

/-- C225: in a pair of upright views of one board, equal numbers stand for the same corner of the board: in the left view,
in the right view and among the points of the board that the solver gets. The two detectors may start at different corners. -/
theorem C225_stereo_partial (dist : K × K → K × K → K) (snapL snapR : ℤ → K × K → K × K) (w h w' h' : K) (s s' : BoardView K) (b : Board K)
    (hr : 0 < b.rows) (hc : 0 < b.cols) (hu : Upright s b.rows b.cols) (hu' : Upright s' b.rows b.cols) (l l' : List (K × K))
    (hl : Detects s b.rows b.cols l) (hl' : Detects s' b.rows b.cols l') (vL vR : List (K × K) × Board K)
    (hL : firstBoard dist snapL w h (fun _ _ => some l) [b] = .ok (some vL))
    (hR : firstBoard dist snapR w' h' (fun _ _ => some l') [b] = .ok (some vR)) :
    ∃ r r', ∀ i j, i < b.rows → j < b.cols →
      (stereoView vL vR).left[i * b.cols + j]? = some (snapL r (s i j)) ∧ (stereoView vL vR).right[i * b.cols + j]? = some (snapR r' (s' i j)) ∧
      (stereoView vL vR).board[i * b.cols + j]? = some ((j : K) * b.dim, (i : K) * b.dim) := by
  have key : ∀ (snap : ℤ → K × K → K × K) (w h : K) (s : BoardView K) (l : List (K × K)) (v : List (K × K) × Board K), Upright s b.rows b.cols →
      Detects s b.rows b.cols l → firstBoard dist snap w h (fun _ _ => some l) [b] = .ok (some v) →
      v.2 = b ∧ ∃ r, ∀ i j, i < b.rows → j < b.cols → v.1[i * b.cols + j]? = some (snap r (s i j)) := by
    intro snap w h s l v hu hl hv
    unfold firstBoard at hv
    simp only [bind, Except.bind] at hv
    cases he : boardCorners dist snap w h b.rows b.cols (some l) with
    | error e => rw [he] at hv; cases hv
    | ok o =>
      rw [he] at hv
      cases o with
      | none => simp [firstBoard] at hv
      | some c =>
        obtain rfl : (c, b) = v := Option.some.inj (Except.ok.inj hv)
        obtain ⟨-, r, -, hg⟩ := C225_view_partial dist snap w h s b.rows b.cols hr hc hu l c hl he
        exact ⟨rfl, r, hg⟩
  obtain ⟨eL, r, gL⟩ := key snapL w h s l vL hu hl hL
  obtain ⟨-, r', gR⟩ := key snapR w' h' s' l' vR hu' hl' hR
  refine ⟨r, r', fun i j hi hj => ⟨gL i j hi hj, gR i j hi hj, ?_⟩⟩
  have := (C102_points .chessboard b).2 i j hi hj
  rw [if_neg (by decide)] at this
  unfold stereoView
  rw [eL]
  exact this

end

private theorem of_option {A : Type} {x : Res A} {a : A} (h : x.toOption = some a) : x = .ok a := by
  cases x with
  | error e => cases h
  | ok b => exact congrArg _ (Option.some.inj h)

/-- C225 in full: the numbering of the corners of a view does not depend on where the detector starts. -/
def NumberingFixed : Prop :=
  ∀ (s : BoardView ℚ) (n : ℕ) (l l' : List (ℚ × ℚ)), 2 ≤ n → Detects s n n l → Detects s n n l' → orderCorners n n l = orderCorners n n l'

/-- A square board standing on one of its corners. -/
private def standing : BoardView ℚ := fun i j => (100 + 20 * (j : ℚ) - 20 * (i : ℚ), 100 + 20 * (i : ℚ) + 20 * (j : ℚ))

/-- C225 in full is false: a square board that stands on a corner is numbered from the upper or the left corner, depending on the
detector. -/
theorem C225_standing_false : ¬ NumberingFixed := by
  intro h
  have := h standing 2 _ _ (le_refl _) .same .opposite
  have e1 : orderCorners 2 2 (standing.listed 2 2) = .ok [(100, 100), (120, 120), (80, 120), (100, 140)] := of_option (by decide +kernel)
  have e2 : orderCorners 2 2 ((standing.fromOpposite 2 2).listed 2 2) = .ok [(80, 120), (100, 100), (100, 140), (120, 120)] := of_option (by decide +kernel)
  rw [e1, e2] at this
  have h2 := Except.ok.inj this
  norm_num at h2

/-- C225 for stereo views in full: if two cameras see a board at the same heights, equal numbers stand for the same corner. -/
def StereoNumberedAlike : Prop :=
  ∀ (s s' : BoardView ℚ) (n : ℕ) (l l' o o' : List (ℚ × ℚ)), 2 ≤ n → (∀ i j, (s i j).2 = (s' i j).2) → Detects s n n l → Detects s' n n l' →
    orderCorners n n l = .ok o → orderCorners n n l' = .ok o' → ∀ (k : ℕ) i j, i < n → j < n → o[k]? = some (s i j) → o'[k]? = some (s' i j)

/-- The views of a board that is turned by about 45 degrees, the second one a little more. -/
private def leaning (e : ℚ) : BoardView ℚ := fun i j => (100 + 20 * (j : ℚ) - (20 + e) * (i : ℚ), 100 + 20 * (i : ℚ) + (20 - 2) * (j : ℚ))

/-- C225 for stereo views in full is false: if a square board is turned by about 45 degrees, the two views may be numbered
from different corners of the board. -/
theorem C225_leaning_false : ¬ StereoNumberedAlike := by
  intro h
  have e1 : orderCorners 2 2 ((leaning (-1)).listed 2 2) = .ok [(100, 100), (120, 118), (81, 120), (101, 138)] := of_option (by decide +kernel)
  have e2 : orderCorners 2 2 ((leaning 1).listed 2 2) = .ok [(79, 120), (100, 100), (99, 138), (120, 118)] := of_option (by decide +kernel)
  have := h (leaning (-1)) (leaning 1) 2 _ _ _ _ (le_refl _) (fun i j => rfl) .same .same e1 e2 0 0 0 (by decide) (by decide)
    (by norm_num [leaning])
  norm_num [leaning] at this

/-- The assumptions are met by a board of three by four corners that is seen turned by a few degrees, listed from the
opposite corner. -/
example : orderCorners (K := ℚ) 3 4 (BoardView.listed (BoardView.fromOpposite (fun i j => (20 * j - 3 * i, 20 * i + 3 * j)) 3 4) 3 4) =
    .ok (BoardView.listed (fun i j => (20 * j - 3 * i, 20 * i + 3 * j)) 3 4) :=
  C225_numbered_partial _ 3 4 (by decide) (by decide) ⟨by norm_num [Above], fun h => absurd h (by decide)⟩ _ .opposite

/-- … and by a square board, listed from the next corner. -/
example : orderCorners (K := ℚ) 3 3 (BoardView.listed (BoardView.fromNext (fun i j => (20 * j - 3 * i, 20 * i + 3 * j)) 3) 3 3) =
    .ok (BoardView.listed (fun i j => (20 * j - 3 * i, 20 * i + 3 * j)) 3 3) :=
  C225_numbered_partial _ 3 3 (by decide) (by decide) ⟨by norm_num [Above], fun _ => by norm_num [Above, LeftOf]⟩ _ (.next rfl)

end Oplab.Props
