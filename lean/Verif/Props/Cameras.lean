import Verif.Model.Cameras
import Verif.Props.LaserPlane

/-! # C119-C125: camera models -/

namespace Oplab.Props
open Oplab.Spec

private theorem valid_some (m : MonoCam) (p q : ℝ × ℝ) (h : returnValid m p = some q) :
    q = p ∧ 0 < p.1 ∧ p.1 < m.width ∧ 0 < p.2 ∧ p.2 < m.height := by
  unfold returnValid at h
  split_ifs at h with hv
  obtain rfl := Option.some.inj h
  exact ⟨rfl, hv.1.1, hv.1.2, hv.2.1, hv.2.2⟩

private theorem valid_of (m : MonoCam) (p : ℝ × ℝ) (h : 0 < p.1 ∧ p.1 < m.width ∧ 0 < p.2 ∧ p.2 < m.height) :
    returnValid m p = some p := if_pos ⟨⟨h.1, h.2.1⟩, h.2.2.1, h.2.2.2⟩

/-- A pixel inside the image. -/
def InImage (m : MonoCam) (p : ℝ × ℝ) : Prop := 0 < p.1 ∧ p.1 < m.width ∧ 0 < p.2 ∧ p.2 < m.height

/-! ## C119 and C120: projection and triangulation -/

/-- C119: a camera gives a pixel for a point exactly if it sees the point at a pixel in the image, and then that pixel. -/
theorem C119_pixel (l r : MonoCam) (X : V3 ℝ) (hl : l.P.mulVec ![X.x, X.y, X.z, 1] 2 ≠ 0) (p : ℝ × ℝ) :
    (projectPoint l r X).1 = some p ↔ InImage l p ∧ Sees l.P ![X.x, X.y, X.z, 1] (p.2, p.1) := by
  unfold projectPoint
  simp only
  constructor
  · intro h
    obtain ⟨rfl, hi⟩ := valid_some _ _ _ h
    refine ⟨hi, ?_⟩
    unfold Sees projectTo
    simp only
    constructor <;> field_simp
  · rintro ⟨hi, h1, h2⟩
    have e : projectTo l.P X = p := by
      unfold projectTo
      simp only
      rw [h1, h2]
      refine Prod.ext ?_ ?_ <;> simp only <;> field_simp
    rw [e]
    exact valid_of l p hi

/-- C119: the same for the right camera. -/
theorem C119_pixel_right (l r : MonoCam) (X : V3 ℝ) : (projectPoint l r X).2 = (projectPoint r l X).1 := rfl

/-- C119 in full: points with a pixel are in front of the camera. -/
def OnlyInFront : Prop := ∀ (l r : MonoCam) (X : V3 ℝ) (p : ℝ × ℝ), (projectPoint l r X).1 = some p → 0 < l.P.mulVec ![X.x, X.y, X.z, 1] 2

/-- A camera of 100 by 100 pixels looking along the third axis. -/
private noncomputable def plainCam : MonoCam := ⟨1, 1, 50, 50, 1, !![1, 0, 50, 0; 0, 1, 50, 0; 0, 0, 1, 0], 100, 100⟩

private theorem plain_mulVec (X : V3 ℝ) : plainCam.P.mulVec ![X.x, X.y, X.z, 1] = ![X.x + 50 * X.z, X.y + 50 * X.z, X.z] := by
  funext i; fin_cases i <;> simp [plainCam, Matrix.mulVec, dotProduct, Fin.sum_univ_four]

private theorem plain_project (X : V3 ℝ) : projectTo plainCam.P X = ((X.x + 50 * X.z) / X.z, (X.y + 50 * X.z) / X.z) := by
  unfold projectTo
  rw [plain_mulVec]
  simp

/-- A point one metre behind the camera is seen in the middle of the image. -/
theorem C119_behind_false : ¬ OnlyInFront := by
  intro h
  have := h plainCam plainCam ⟨0, 0, -1⟩ (50, 50) (by
    unfold projectPoint
    simp only
    rw [plain_project]
    norm_num
    exact valid_of _ _ ⟨by norm_num, by norm_num [plainCam], by norm_num, by norm_num [plainCam]⟩)
  rw [plain_mulVec] at this
  simp at this
  norm_num at this

example : InImage plainCam (60, 50) ∧ Sees plainCam.P ![1, 0, 1 / 10, 1] (50, 60) ∧ plainCam.P.mulVec ![1, 0, 1 / 10, 1] 2 ≠ 0 := by
  have e := plain_mulVec ⟨1, 0, 1 / 10⟩
  simp only at e
  refine ⟨⟨by norm_num, by norm_num [plainCam], by norm_num, by norm_num [plainCam]⟩, ?_, ?_⟩
  · unfold Sees
    rw [e]
    constructor <;> simp <;> norm_num
  · rw [e]; simp

/-- C120: a point that both cameras see, and that its pixels determine, is returned by the triangulation of its pixels. -/
theorem C120_round_trip (svd : Matrix (Fin 6) (Fin 6) ℝ → Fin 6 → ℝ) (hsvd : ∀ M, LastSingular M (svd M)) (l r : MonoCam) (X : V3 ℝ)
    (p q : ℝ × ℝ) (h : projectPoint l r X = (some p, some q))
    (hu : ∀ w, Sees l.P w (p.2, p.1) → Sees r.P w (q.2, q.1) → ∃ c : ℝ, w = c • ![X.x, X.y, X.z, 1]) :
    triangulatePoint svd l r p q = X := by
  have h1 : (projectPoint l r X).1 = some p := by rw [h]
  have h2 : (projectPoint r l X).1 = some q := by rw [← C119_pixel_right, h]
  have nz : ∀ (m m' : MonoCam) (p : ℝ × ℝ), (projectPoint m m' X).1 = some p → m.P.mulVec ![X.x, X.y, X.z, 1] 2 ≠ 0 := by
    intro m m' p hp h0
    obtain ⟨_, hi, _⟩ := valid_some _ _ _ hp
    unfold projectTo at hi
    simp only [h0, div_zero, lt_irrefl] at hi
  exact C94_least_squares svd _ _ _ _ X (hsvd _) ((C119_pixel l r X (nz _ _ _ h1) p).1 h1).2
    ((C119_pixel r l X (nz _ _ _ h2) q).1 h2).2 hu

/-- C120 for rectified cameras with a baseline along the rows: every point that both cameras see is returned. -/
theorem C120_rectified (svd : Matrix (Fin 6) (Fin 6) ℝ → Fin 6 → ℝ) (hsvd : ∀ M, LastSingular M (svd M)) (l r : MonoCam)
    (f cx cy cx' tx : ℝ) (hf : f ≠ 0) (ht : tx ≠ 0) (hl : l.P = !![f, 0, cx, 0; 0, f, cy, 0; 0, 0, 1, 0])
    (hr : r.P = !![f, 0, cx', tx; 0, f, cy, 0; 0, 0, 1, 0]) (X : V3 ℝ) (p q : ℝ × ℝ) (h : projectPoint l r X = (some p, some q)) :
    triangulatePoint svd l r p q = X := by
  have e1 : projectTo l.P X = ((f * X.x + cx * X.z) / X.z, (f * X.y + cy * X.z) / X.z) := by
    rw [hl]; unfold projectTo
    simp [Matrix.mulVec, dotProduct, Fin.sum_univ_four]
  have e2 : projectTo r.P X = ((f * X.x + cx' * X.z + tx) / X.z, (f * X.y + cy * X.z + 0) / X.z) := by
    rw [hr]; unfold projectTo
    simp [Matrix.mulVec, dotProduct, Fin.sum_univ_four]
  have h1 : returnValid l (projectTo l.P X) = some p := congrArg Prod.fst h
  have h2 : returnValid r (projectTo r.P X) = some q := congrArg Prod.snd h
  obtain ⟨rfl, hi, -⟩ := valid_some _ _ _ h1
  obtain ⟨rfl, -⟩ := valid_some _ _ _ h2
  have hz : X.z ≠ 0 := by
    intro h0
    rw [e1, h0] at hi
    simp at hi
  obtain ⟨svd4, hsvd4⟩ : ∃ svd4 : Matrix (Fin 4) (Fin 4) ℝ → Fin 4 → ℝ, ∀ M, LastSingular M (svd4 M) := by
    choose s4 h4 using fun M : Matrix (Fin 4) (Fin 4) ℝ => exists_last M
    exact ⟨s4, h4⟩
  have := (C94_rectified svd svd4 hsvd hsvd4 f cx cy cx' cy tx 0 hf (Or.inl ht) X hz).1
  unfold triangulatePoint
  rw [e1, e2, hl, hr]
  exact this

example : ∃ (r : MonoCam) (p q : ℝ × ℝ), plainCam.P = !![1, 0, 50, 0; 0, 1, 50, 0; 0, 0, 1, 0] ∧
    r.P = !![1, 0, 50, -10; 0, 1, 50, 0; 0, 0, 1, 0] ∧ projectPoint plainCam r ⟨0, 0, 1⟩ = (some p, some q) := by
  refine ⟨{ plainCam with P := !![1, 0, 50, -10; 0, 1, 50, 0; 0, 0, 1, 0] }, (50, 50), (40, 50), rfl, rfl, ?_⟩
  unfold projectPoint
  refine Prod.ext ?_ ?_
  · simp only
    rw [plain_project]
    norm_num
    exact valid_of _ _ ⟨by norm_num, by norm_num [plainCam], by norm_num, by norm_num [plainCam]⟩
  · have e : projectTo !![1, 0, 50, -10; 0, 1, 50, 0; 0, 0, 1, 0] ⟨0, 0, 1⟩ = (40, 50) := by
      unfold projectTo
      simp [Matrix.mulVec, dotProduct, Fin.sum_univ_four]
      norm_num
    simp only
    rw [e]
    exact valid_of _ _ ⟨by norm_num, by norm_num [plainCam], by norm_num, by norm_num [plainCam]⟩

/-! ## C121 and C122: distortion and rectification -/

/-- C121: distorting an undistorted pixel gives the pixel back, if OpenCV's functions are inverse to each other. -/
theorem C121_distort_undistort (project undistort : ℝ × ℝ → ℝ × ℝ) (m : MonoCam) (hx : m.fx ≠ 0) (hy : m.fy ≠ 0) (p q : ℝ × ℝ)
    (hinv : project (undistort p) = p) (hp : InImage m p) (h : undistortPoint undistort m p = some q) :
    distortPoint project m q = some p := by
  unfold undistortPoint at h
  obtain ⟨rfl, -⟩ := valid_some _ _ _ h
  unfold distortPoint
  simp only [add_sub_cancel_right, mul_div_cancel_right₀ _ hx, mul_div_cancel_right₀ _ hy, hinv]
  exact valid_of m p hp

/-- C121: and the other way round. -/
theorem C121_undistort_distort (project undistort : ℝ × ℝ → ℝ × ℝ) (m : MonoCam) (hx : m.fx ≠ 0) (hy : m.fy ≠ 0) (p q : ℝ × ℝ)
    (hinv : ∀ n, undistort (project n) = n) (hp : InImage m p) (h : distortPoint project m p = some q) :
    undistortPoint undistort m q = some p := by
  unfold distortPoint at h
  obtain ⟨rfl, -⟩ := valid_some _ _ _ h
  unfold undistortPoint
  rw [hinv]
  simp only [div_mul_cancel₀ _ hx, div_mul_cancel₀ _ hy, sub_add_cancel]
  exact valid_of m p hp

/-- C121: without distortion (OpenCV then applies the camera matrix) pixels in the image stay where they are. -/
theorem C121_no_distortion (m : MonoCam) (hx : m.fx ≠ 0) (hy : m.fy ≠ 0) (p : ℝ × ℝ) (hp : InImage m p) :
    distortPoint (fun n => (n.1 * m.fx + m.cx, n.2 * m.fy + m.cy)) m p = some p ∧
    undistortPoint (fun p => ((p.1 - m.cx) / m.fx, (p.2 - m.cy) / m.fy)) m p = some p := by
  unfold distortPoint undistortPoint
  simp only [div_mul_cancel₀ _ hx, div_mul_cancel₀ _ hy, sub_add_cancel]
  exact ⟨valid_of m p hp, valid_of m p hp⟩

example : InImage plainCam (60, 50) ∧ plainCam.fx ≠ 0 :=
  ⟨⟨by norm_num, by norm_num [plainCam], by norm_num, by norm_num [plainCam]⟩, by norm_num [plainCam]⟩

/-- C122, if the rectification turns about the optical axis only: unrectifying and distorting the rectified pixel gives the
pixel back. -/
theorem C122_round_trip_partial (project undistort : ℝ × ℝ → ℝ × ℝ) (m : MonoCam) (hx : m.fx ≠ 0) (hy : m.fy ≠ 0) (p q : ℝ × ℝ)
    (hR : m.R.transpose * m.R = 1) (h20 : m.R 2 0 = 0) (h21 : m.R 2 1 = 0) (h22 : m.R 2 2 = 1)
    (hinv : project (undistort p) = p) (hp : InImage m p) (h : undistortRectify undistort m p = some q) :
    unrectifyDistort project m q = some p := by
  unfold undistortRectify at h
  obtain ⟨u, hu, hv⟩ := Option.bind_eq_some_iff.1 h
  obtain ⟨rfl, -⟩ := valid_some _ _ _ hv
  unfold unrectifyDistort
  have e : turnPixel m.R.transpose (turnPixel m.R u) = u := by
    have h3 : m.R.mulVec ![u.1, u.2, 1] 2 = 1 := by
      simp [Matrix.mulVec, dotProduct, Fin.sum_univ_three, h20, h21, h22]
    have hv3 : ![(m.R.mulVec ![u.1, u.2, 1]) 0, (m.R.mulVec ![u.1, u.2, 1]) 1, 1] = m.R.mulVec ![u.1, u.2, 1] := by
      funext i; fin_cases i
      · rfl
      · rfl
      · exact h3.symm
    unfold turnPixel
    simp only [hv3, Matrix.mulVec_mulVec, hR, Matrix.one_mulVec]
    simp
  rw [e]
  exact C121_distort_undistort project undistort m hx hy p u hinv hp hu

example : plainCam.R.transpose * plainCam.R = 1 ∧ plainCam.R 2 0 = 0 ∧ plainCam.R 2 1 = 0 ∧ plainCam.R 2 2 = 1 := by
  simp [plainCam]

/-- C122 in full: for any rectification. -/
def UnrectifyInverse : Prop :=
  ∀ (project undistort : ℝ × ℝ → ℝ × ℝ) (m : MonoCam) (p q : ℝ × ℝ), m.fx ≠ 0 → m.fy ≠ 0 → m.R.transpose * m.R = 1 →
    (∀ p, project (undistort p) = p) → InImage m p → undistortRectify undistort m p = some q → unrectifyDistort project m q = some p

/-- The same camera with a rectification about the first axis. -/
private noncomputable def tiltedCam : MonoCam := { plainCam with R := !![1, 0, 0; 0, 4 / 5, -(3 / 5); 0, 3 / 5, 4 / 5] }

/-- The rectification is applied to pixels instead of directions, and the third component is lost. -/
theorem C122_tilted_false : ¬ UnrectifyInverse := by
  intro h
  have ht : ∀ p, turnPixel tiltedCam.R p = (p.1, 4 / 5 * p.2 - 3 / 5) := by
    intro p
    unfold turnPixel
    simp [tiltedCam, Matrix.mulVec, dotProduct, Fin.sum_univ_three]; ring
  have ht' : ∀ p, turnPixel tiltedCam.R.transpose p = (p.1, 4 / 5 * p.2 + 3 / 5) := by
    intro p
    unfold turnPixel
    simp [tiltedCam, Matrix.mulVec, dotProduct, Fin.sum_univ_three]
  have hin : ∀ y : ℝ, 0 < y → y < 100 → InImage tiltedCam (50, y) := by
    intro y h0 h1
    exact ⟨by norm_num, by norm_num [tiltedCam, plainCam], h0, by norm_num [tiltedCam, plainCam]; exact h1⟩
  have := h (fun n => (n.1 + 50, n.2 + 50)) (fun p => (p.1 - 50, p.2 - 50)) tiltedCam (50, 50) (50, 4 / 5 * 50 - 3 / 5)
    (by norm_num [tiltedCam, plainCam]) (by norm_num [tiltedCam, plainCam])
    (by
      ext i j
      fin_cases i <;> fin_cases j <;> simp [tiltedCam, Matrix.mul_apply, Fin.sum_univ_three] <;> norm_num)
    (fun p => by simp) (hin 50 (by norm_num) (by norm_num))
    (by
      unfold undistortRectify undistortPoint
      have e : ((50 - 50 : ℝ) * tiltedCam.fx + tiltedCam.cx, (50 - 50 : ℝ) * tiltedCam.fy + tiltedCam.cy) = (50, 50) := by
        simp [tiltedCam, plainCam]
      simp only [e]
      rw [valid_of _ _ (hin 50 (by norm_num) (by norm_num)), Option.bind_some, ht]
      exact valid_of _ _ (hin _ (by norm_num) (by norm_num)))
  unfold unrectifyDistort at this
  rw [ht'] at this
  unfold distortPoint at this
  obtain ⟨e, -⟩ := valid_some _ _ _ this
  have := congrArg Prod.snd e
  norm_num [tiltedCam, plainCam] at this

/-! ## C123: projecting into distorted images -/

/-- C123: if the right camera sees the point, or the left does not, the result is pixels of both images or none. -/
theorem C123_total_partial (pl pr : ℝ × ℝ → ℝ × ℝ) (l r : MonoCam) (X : V3 ℝ)
    (h : (projectPoint l r X).1 = none ∨ (projectPoint l r X).2 ≠ none) :
    ∃ a b, projectUndistorted pl pr l r X = .ok (a, b) ∧ (∀ p, a = some p → InImage l p) ∧ ∀ p, b = some p → InImage r p := by
  unfold projectUndistorted
  have key : ∀ (f : ℝ × ℝ → ℝ × ℝ) (m : MonoCam) (x p : ℝ × ℝ), unrectifyDistort f m x = some p → InImage m p := by
    intro f m x p hp
    unfold unrectifyDistort distortPoint at hp
    obtain ⟨rfl, hi⟩ := valid_some _ _ _ hp
    exact hi
  cases hx : projectPoint l r X with
  | mk a b =>
    cases a with
    | none => exact ⟨none, none, rfl, by simp, by simp⟩
    | some p =>
      cases b with
      | none => rw [hx] at h; simp at h
      | some q => exact ⟨_, _, rfl, fun x hx => key _ _ _ _ hx, fun x hx => key _ _ _ _ hx⟩

example : (projectPoint plainCam plainCam ⟨0, 0, 1⟩).2 ≠ none := by
  unfold projectPoint
  simp only
  rw [plain_project, valid_of _ _ ⟨by norm_num, by norm_num [plainCam], by norm_num, by norm_num [plainCam]⟩]
  simp

/-- C123 in full. -/
def ProjectsEveryPoint : Prop :=
  ∀ (pl pr : ℝ × ℝ → ℝ × ℝ) (l r : MonoCam) (X : V3 ℝ), ∃ a b, projectUndistorted pl pr l r X = .ok (a, b)

/-- The program fails for points that only the left camera sees. -/
theorem C123_left_only_false : ¬ ProjectsEveryPoint := by
  intro h
  obtain ⟨a, b, hab⟩ := h id id plainCam { plainCam with P := !![1, 0, 500, 0; 0, 1, 50, 0; 0, 0, 1, 0] } ⟨0, 0, 1⟩
  have e : projectPoint plainCam { plainCam with P := !![1, 0, 500, 0; 0, 1, 50, 0; 0, 0, 1, 0] } ⟨0, 0, 1⟩ = (some (50, 50), none) := by
    unfold projectPoint
    refine Prod.ext ?_ ?_
    · simp only
      rw [plain_project]
      norm_num
      exact valid_of _ _ ⟨by norm_num, by norm_num [plainCam], by norm_num, by norm_num [plainCam]⟩
    · simp only
      unfold returnValid projectTo
      rw [if_neg]
      simp [Matrix.mulVec, dotProduct, Fin.sum_univ_four, plainCam]
      norm_num
  unfold projectUndistorted at hab
  rw [e] at hab
  cases hab

/-! ## C124: downsized cameras -/

/-- C124 (intrinsics): the undistorted pixel of a direction is scaled by the ratio, and the image size rounded down. -/
theorem C124_intrinsics_partial (ratio : ℝ) (hr : 0 < ratio) (m : MonoCam) :
    (∀ n : ℝ × ℝ, (n.1 * (downsizeCamera ratio m).fx + (downsizeCamera ratio m).cx, n.2 * (downsizeCamera ratio m).fy + (downsizeCamera ratio m).cy) =
      (ratio * (n.1 * m.fx + m.cx), ratio * (n.2 * m.fy + m.cy))) ∧
    ((downsizeCamera ratio m).width : ℝ) ≤ ratio * m.width ∧ ratio * m.width < (downsizeCamera ratio m).width + 1 ∧
    ((downsizeCamera ratio m).height : ℝ) ≤ ratio * m.height ∧ ratio * m.height < (downsizeCamera ratio m).height + 1 := by
  have hw : (0 : ℝ) ≤ (m.width : ℝ) * ratio := by positivity
  have hh : (0 : ℝ) ≤ (m.height : ℝ) * ratio := by positivity
  refine ⟨fun n => ?_, ?_, ?_, ?_, ?_⟩
  · refine Prod.ext ?_ ?_ <;> simp only [downsizeCamera] <;> ring
  · rw [mul_comm]; exact Nat.floor_le hw
  · rw [mul_comm]; exact Nat.lt_floor_add_one _
  · rw [mul_comm]; exact Nat.floor_le hh
  · rw [mul_comm]; exact Nat.lt_floor_add_one _

/-- C124 in full for projections: a downsized camera sees a point at the scaled pixel. -/
def DownsizedProjection : Prop :=
  ∀ (ratio : ℝ) (m : MonoCam) (X : V3 ℝ), 0 < ratio → projectTo (downsizeCamera ratio m).P X = (ratio * (projectTo m.P X).1, ratio * (projectTo m.P X).2)

/-- The whole projection matrix is scaled, which leaves all pixels as they are. -/
theorem C124_projection_false : ¬ DownsizedProjection := by
  intro h
  have e : ∀ X, projectTo (downsizeCamera (1 / 2) plainCam).P X = projectTo plainCam.P X := by
    intro X
    unfold projectTo downsizeCamera
    simp only [Matrix.smul_mulVec, Pi.smul_apply, smul_eq_mul]
    rw [mul_div_mul_left _ _ (by norm_num), mul_div_mul_left _ _ (by norm_num)]
  have := h (1 / 2) plainCam ⟨0, 0, 1⟩ (by norm_num)
  rw [e, plain_project] at this
  norm_num at this

/-- C124 in full for stereo cameras: however they are read, the ratio is applied to both cameras. -/
def DownsizesStereo : Prop :=
  ∀ (ratio : ℝ) (l r : MonoCam), stereoFromFile (some ratio) l r = (downsizeCamera ratio l, downsizeCamera ratio r) ∧
    stereoFromMono (some ratio) l r = (downsizeCamera ratio l, downsizeCamera ratio r)

/-- The ratio is ignored for stereo files. -/
theorem C124_stereo_file_false : ¬ DownsizesStereo := by
  intro h
  have := congrArg (fun p => p.1.fx) (h (1 / 2) plainCam plainCam).1
  norm_num [stereoFromFile, downsizeCamera, plainCam] at this

/-! ## C125: calibration files -/

section
variable {K : Type} [Field K] [LinearOrder K] [IsStrictOrderedRing K] [FloorRing K]

/-- C125: numbers are written with an error of at most half a millionth, and writing a number that was read does not change
it any more. -/
theorem C125_precision (x : K) : |x - sixDecimals x| ≤ 5 / 10 ^ 7 ∧ sixDecimals (sixDecimals x) = sixDecimals x := by
  constructor
  · unfold sixDecimals
    have := abs_sub_round (x * 10 ^ 6)
    have e : x - (round (x * 10 ^ 6) : K) / 10 ^ 6 = (x * 10 ^ 6 - round (x * 10 ^ 6)) / 10 ^ 6 := by field_simp
    rw [e, abs_div, abs_of_pos (by norm_num : (0 : K) < 10 ^ 6), div_le_iff₀ (by norm_num)]
    norm_num at this ⊢
    exact this
  · unfold sixDecimals
    rw [div_mul_cancel₀ _ (by norm_num), round_intCast]

omit [IsStrictOrderedRing K] in
/-- C125 for coefficients in one column of five, as a new camera has: they are read as they were written. -/
theorem C125_coefficients_partial (a b c d e : K) :
    writtenCoefficients [[a], [b], [c], [d], [e]] = .ok [sixDecimals a, sixDecimals b, sixDecimals c, sixDecimals d, sixDecimals e] ∧
    readCoefficients [sixDecimals a, sixDecimals b, sixDecimals c, sixDecimals d, sixDecimals e] =
      .ok [[sixDecimals a, sixDecimals b, sixDecimals c, sixDecimals d, sixDecimals e]] := ⟨rfl, rfl⟩

end

/-- C125 in full: a camera that was read can be written and read again. -/
def RewritesCamera : Prop :=
  ∀ (data : List ℚ) (d : List (List ℚ)), readCoefficients data = .ok d → ∃ data' d', writtenCoefficients d = .ok data' ∧ readCoefficients data' = .ok d'

/-- Only the first coefficient of a camera that was read is written, and the file cannot be read. -/
theorem C125_rewrite_false : ¬ RewritesCamera := by
  intro h
  obtain ⟨data', d', h1, h2⟩ := h [1, 2, 3, 4, 5] [[1, 2, 3, 4, 5]] rfl
  have e : (writtenCoefficients [[(1 : ℚ), 2, 3, 4, 5]]).toOption.map List.length = some 1 := by decide +kernel
  rw [h1] at e
  simp only [Except.toOption, Option.map_some, Option.some.injEq] at e
  unfold readCoefficients at h2
  rw [e, if_neg (by omega)] at h2
  cases h2

end Oplab.Props
