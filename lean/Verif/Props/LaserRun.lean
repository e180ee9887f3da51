import Verif.Spec.LaserRun
import Verif.Props.Laser
import Verif.Props.LaserPlane
import Verif.Props.LaserUncert
import Mathlib.Tactic.NormNum
import Mathlib.Tactic.IntervalCases

/-! # C220: a sheet of laser light seen without noise is found -/

namespace Oplab.Props
open Oplab Oplab.Spec

/-- The optimiser finds coefficients whose residuals are all zero if there are any. -/
def FindsExact (optimise : List (V3 ℝ) → V3 ℝ × ℝ) : Prop :=
  ∀ pts, (∃ n d, n ≠ ⟨0, 0, 0⟩ ∧ ∀ q ∈ pts, (planeOfCoeffs n d).distance q = 0) →
    (optimise pts).1 ≠ ⟨0, 0, 0⟩ ∧ ∀ q ∈ pts, (planeOfCoeffs (optimise pts).1 (optimise pts).2).distance q = 0

private theorem norm3_pos (n : V3 ℝ) (hn : n ≠ ⟨0, 0, 0⟩) : 0 < norm3 n := by
  apply Real.sqrt_pos.mpr
  unfold dot3
  by_contra h
  apply hn
  have h1 := mul_self_nonneg n.x
  have h2 := mul_self_nonneg n.y
  have h3 := mul_self_nonneg n.z
  have e1 : n.x * n.x = 0 := by linarith
  have e2 : n.y * n.y = 0 := by linarith
  have e3 : n.z * n.z = 0 := by linarith
  cases n
  simp only [mul_self_eq_zero] at e1 e2 e3
  simp [e1, e2, e3]

/-- Zero residuals: the stored plane passes through the points. -/
private theorem exact_iff (n : V3 ℝ) (d : ℝ) (q : V3 ℝ) : (planeOfCoeffs n d).distance q = 0 ↔
    OnPlane (planeOfCoeffs n d).normal (planeOfCoeffs n d).offset q := by
  unfold PlaneObj.distance
  rw [abs_eq_zero]; rfl

/-- For every plane there are coefficients with zero residuals on it. -/
private theorem exact_exists (n : V3 ℝ) (d : ℝ) (hn : n ≠ ⟨0, 0, 0⟩) : ∃ m e, m ≠ ⟨0, 0, 0⟩ ∧
    ∀ q, OnPlane n d q → (planeOfCoeffs m e).distance q = 0 := by
  have hp := norm3_pos n hn
  have hs : norm3 n * norm3 n = n.x * n.x + n.y * n.y + n.z * n.z := by
    unfold norm3 dot3; exact Real.mul_self_sqrt (by nlinarith [mul_self_nonneg n.x, mul_self_nonneg n.y, mul_self_nonneg n.z])
  set s := norm3 n with hsd
  refine ⟨⟨n.x / s, n.y / s, n.z / s⟩, d / s, ?_, fun q hq => ?_⟩
  · intro h
    apply hn
    simp only [V3.mk.injEq, div_eq_zero_iff, hp.ne', or_false] at h
    cases n; simp_all
  · rw [exact_iff]
    have h1 : norm3 ⟨n.x / s, n.y / s, n.z / s⟩ = 1 := by
      unfold norm3 dot3
      rw [Real.sqrt_eq_one]
      field_simp
      nlinarith
    unfold planeOfCoeffs OnPlane
    simp only [h1, div_one]
    unfold OnPlane at hq
    field_simp
    linarith

private theorem rectified_tri (svd : Matrix (Fin 6) (Fin 6) ℝ → Fin 6 → ℝ) (hsvd : ∀ M, LastSingular M (svd M))
    (f cx cy cy' ty : ℝ) (hf : f ≠ 0) (ht : ty ≠ 0) (X : V3 ℝ) (hz : X.z ≠ 0) (p q : ℝ × ℝ)
    (hp : SeenAt (camA f cx cy) X p) (hq : SeenAt (camB f cx cy' ty) X q) :
    triangulateLst svd p q (camA f cx cy) (camB f cx cy' ty) = X := by
  choose s4 h4 using fun M : Matrix (Fin 4) (Fin 4) ℝ => exists_last M
  have h := (C94_rectified svd s4 hsvd h4 f cx cy cx cy' 0 ty hf (Or.inr ht) X hz).1
  have ep : p = ((f * X.y + cy * X.z) / X.z, (f * X.x + cx * X.z) / X.z) := by
    obtain ⟨a, b⟩ := hp
    simp [camA, Matrix.mulVec, dotProduct, Fin.sum_univ_four] at a b
    apply Prod.ext
    · simp only; rw [eq_div_iff hz]; linarith
    · simp only; rw [eq_div_iff hz]; linarith
  have eq : q = ((f * X.y + cy' * X.z + ty) / X.z, (f * X.x + cx * X.z + 0) / X.z) := by
    obtain ⟨a, b⟩ := hq
    simp [camB, Matrix.mulVec, dotProduct, Fin.sum_univ_four] at a b
    apply Prod.ext
    · simp only; rw [eq_div_iff hz]; linarith
    · simp only; rw [eq_div_iff hz]; linarith
  rw [ep, eq]
  exact h

private theorem unrectify_eq (R : Matrix (Fin 3) (Fin 3) ℝ) (hR : IsRotation R) (X c : V3 ℝ)
    (h : R.mulVec ![c.x, c.y, c.z] = ![X.x, X.y, X.z]) : unrectify true R X = c := by
  have h1 : R.transpose * R = 1 := mul_eq_one_comm.mp hR.1
  have h2 : R.transpose.mulVec ![X.x, X.y, X.z] = ![c.x, c.y, c.z] := by
    rw [← h, Matrix.mulVec_mulVec, h1, Matrix.one_mulVec]
  have e0 := congrFun h2 0
  have e1 := congrFun h2 1
  have e2 := congrFun h2 2
  simp [Matrix.mulVec, dotProduct, Fin.sum_univ_three, Matrix.transpose_apply] at e0 e1 e2
  cases c
  simp only [unrectify, if_true, V3.mk.injEq] at *
  exact ⟨e0, e1, e2⟩

/-- C220: every point of the cloud is on the sheet. -/
theorem C220_cloud (svd : Matrix (Fin 6) (Fin 6) ℝ → Fin 6 → ℝ) (hsvd : ∀ M, LastSingular M (svd M))
    (f cx cy cy' ty : ℝ) (hf : f ≠ 0) (ht : ty ≠ 0) (R : Matrix (Fin 3) (Fin 3) ℝ) (hR : IsRotation R) (n : V3 ℝ) (d : ℝ)
    (frames : List (List (ℝ × ℝ) × List (ℝ × ℝ)))
    (hc : ∀ fr ∈ frames, CleanFrame (camA f cx cy) (camB f cx cy' ty) R n d fr) :
    ∀ q ∈ laserCloud svd (camA f cx cy) (camB f cx cy' ty) R true frames, OnPlane n d q := by
  intro q hq
  unfold laserCloud at hq
  obtain ⟨c, hc1, rfl⟩ := List.mem_map.mp hq
  obtain ⟨fr, hfr, hm⟩ := List.mem_flatMap.mp hc1
  obtain ⟨⟨h1, i1⟩, ⟨h2, i2⟩, hpair⟩ := hc fr hfr
  rw [C89_cloud _ _ fr.1 fr.2 h1 h2 (by
    intro p hp
    rcases List.mem_append.mp hp with h | h
    · exact i1 p h
    · exact i2 p h)] at hm
  obtain ⟨⟨p, q⟩, hx, rfl⟩ := List.mem_map.mp hm
  obtain ⟨hx, -⟩ := List.mem_filter.mp hx
  obtain ⟨p', hp', hx⟩ := List.mem_filterMap.mp hx
  rw [Option.map_eq_some_iff] at hx
  obtain ⟨q', hq', e⟩ := hx
  obtain ⟨rfl, rfl⟩ := Prod.mk.inj e
  have hqm := List.mem_of_find?_eq_some hq'
  have hqe : q'.2 = p'.2 := by simpa using List.find?_some hq'
  obtain ⟨X, c, hz, s1, s2, hr, ho⟩ := hpair p' hp' q' hqm hqe
  rw [rectified_tri svd hsvd f cx cy cy' ty hf ht X hz.ne' p' q' s1 s2, unrectify_eq R hR X c hr]
  exact ho

/-- C220: no detected point in front of the cameras is lost. -/
theorem C220_all_points (svd : Matrix (Fin 6) (Fin 6) ℝ → Fin 6 → ℝ) (hsvd : ∀ M, LastSingular M (svd M))
    (f cx cy cy' ty : ℝ) (hf : f ≠ 0) (ht : ty ≠ 0) (R : Matrix (Fin 3) (Fin 3) ℝ) (hR : IsRotation R)
    (frames : List (List (ℝ × ℝ) × List (ℝ × ℝ))) (fr : List (ℝ × ℝ) × List (ℝ × ℝ)) (hfr : fr ∈ frames)
    (h1 : Columns fr.1) (h2 : Columns fr.2) (X c : V3 ℝ) (hz : 0 < X.z) (hrc : R.mulVec ![c.x, c.y, c.z] = ![X.x, X.y, X.z])
    (p q : ℝ × ℝ) (hp : p ∈ fr.1) (hq : q ∈ fr.2) (s1 : SeenAt (camA f cx cy) X p) (s2 : SeenAt (camB f cx cy' ty) X q) :
    ⟨-c.y, c.x, c.z⟩ ∈ laserCloud svd (camA f cx cy) (camB f cx cy' ty) R true frames := by
  unfold laserCloud
  refine List.mem_map.mpr ⟨c, List.mem_flatMap.mpr ⟨fr, hfr, ?_⟩, rfl⟩
  have hcol : q.2 = p.2 := by
    obtain ⟨a, -⟩ := s1
    obtain ⟨b, -⟩ := s2
    simp [camA, camB, Matrix.mulVec, dotProduct, Fin.sum_univ_four] at a b
    exact mul_right_cancel₀ hz.ne' (b.symm.trans a)
  rw [C89_cloud _ _ fr.1 fr.2 h1.1 h2.1 (by
    intro p hp
    rcases List.mem_append.mp hp with h | h
    · exact h1.2 p h
    · exact h2.2 p h)]
  have htri := rectified_tri svd hsvd f cx cy cy' ty hf ht X hz.ne' p q s1 s2
  refine List.mem_map.mpr ⟨(p, q), List.mem_filter.mpr ⟨List.mem_filterMap.mpr ⟨p, hp, ?_⟩, ?_⟩, ?_⟩
  · rw [Option.map_eq_some_iff]
    refine ⟨q, ?_, rfl⟩
    rw [← hcol]
    clear s2 hcol htri s1 hp
    obtain ⟨hs, -⟩ := h2
    generalize fr.2 = l at hs hq
    induction l with
    | nil => cases hq
    | cons a l ih =>
      rcases List.mem_cons.mp hq with rfl | hq
      · simp
      · have := List.rel_of_pairwise_cons hs hq
        rw [List.find?_cons_of_neg (by simpa using this.ne)]
        exact ih hs.of_cons hq
  · simp only [htri]
    exact decide_eq_true hz.le
  · simp only [htri]
    exact unrectify_eq R hR X c hrc

private theorem cross_of_accepted (d : ℝ) (a b c : V3 ℝ) (h : tripleAccepted d a b c = true) :
    (cross3 (diff3 b a) (diff3 c a)).x ≠ 0 := by
  intro hz
  unfold tripleAccepted at h
  simp only at h
  split_ifs at h with h1 h2
  apply h2
  simp only [cross3] at hz
  rw [hz]
  norm_num

/-- Three points of a plane that are not on one line seen along the first axis give back the plane. -/
private theorem through_sheet (n : V3 ℝ) (d : ℝ) (hn : n ≠ ⟨0, 0, 0⟩) (a b c : V3 ℝ) (ha : OnPlane n d a) (hb : OnPlane n d b)
    (hc : OnPlane n d c) (hx : (cross3 (diff3 b a) (diff3 c a)).x ≠ 0) : n.x ≠ 0 ∧ planeThrough a b c = sheet n d := by
  unfold OnPlane at ha hb hc
  have e : planeThrough a b c = _ := if_pos hx
  have k1 : n.x * (cross3 (diff3 b a) (diff3 c a)).y = n.y * (cross3 (diff3 b a) (diff3 c a)).x := by
    simp only [cross3, diff3]
    linear_combination (b.z - a.z) * (hc - ha) - (c.z - a.z) * (hb - ha)
  have k2 : n.x * (cross3 (diff3 b a) (diff3 c a)).z = n.z * (cross3 (diff3 b a) (diff3 c a)).x := by
    simp only [cross3, diff3]
    linear_combination (c.y - a.y) * (hb - ha) - (b.y - a.y) * (hc - ha)
  have hnx : n.x ≠ 0 := by
    intro h0
    rw [h0, zero_mul] at k1 k2
    have y0 := (mul_eq_zero.mp k1.symm).resolve_right hx
    have z0 := (mul_eq_zero.mp k2.symm).resolve_right hx
    apply hn
    have en : n = ⟨n.x, n.y, n.z⟩ := rfl
    rw [en, h0, y0, z0]
  refine ⟨hnx, ?_⟩
  rw [e]
  set C := cross3 (diff3 b a) (diff3 c a)
  unfold sheet
  refine Prod.ext ?_ ?_
  · simp only [V3.mk.injEq]
    refine ⟨div_self hx, ?_, ?_⟩
    · rw [div_eq_div_iff hx hnx]; linarith
    · rw [div_eq_div_iff hx hnx]; linarith
  · simp only [dot3]
    rw [div_eq_div_iff hx hnx]
    linear_combination (-C.x) * ha - a.y * k1 - a.z * k2

private theorem loop_planes (num : ℕ) (d : ℝ) : ∀ (draws : List (V3 ℝ × V3 ℝ × V3 ℝ)) (acc r : List (V3 ℝ × ℝ)), acc.length ≤ num →
    uncertLoop num d draws acc = some r → r.length = num ∧ ∀ pl ∈ r, pl ∈ acc ∨
      ∃ t ∈ draws, tripleAccepted d t.1 t.2.1 t.2.2 = true ∧ pl = planeThrough t.1 t.2.1 t.2.2
  | [], acc, r, hl, h => by
    rw [uncertLoop] at h
    split_ifs at h with h1
    obtain rfl := Option.some.inj h
    exact ⟨by omega, fun pl hp => Or.inl hp⟩
  | t :: ts, acc, r, hl, h => by
    rw [uncertLoop] at h
    split_ifs at h with h1 h2
    · obtain ⟨a, b⟩ := loop_planes num d ts _ r (by rw [List.length_append]; simp; omega) h
      refine ⟨a, fun pl hp => ?_⟩
      rcases b pl hp with hp | ⟨t', ht', e⟩
      · rcases List.mem_append.mp hp with hp | hp
        · exact Or.inl hp
        · exact Or.inr ⟨t, by simp, h2, by simpa using hp⟩
      · exact Or.inr ⟨t', List.mem_cons_of_mem _ ht', e⟩
    · obtain ⟨a, b⟩ := loop_planes num d ts _ r hl h
      refine ⟨a, fun pl hp => ?_⟩
      rcases b pl hp with hp | ⟨t', ht', e⟩
      · exact Or.inl hp
      · exact Or.inr ⟨t', List.mem_cons_of_mem _ ht', e⟩
    · obtain rfl := Option.some.inj h
      exact ⟨by omega, fun pl hp => Or.inl hp⟩

private theorem stratLoop_sub (z : V3 ℝ → ℝ) (lo hi size : ℝ) (m : ℕ) : ∀ (l : List (V3 ℝ)) (cs : List ℕ) (r : List (V3 ℝ)),
    stratLoop z lo hi size m l cs = .ok r → ∀ q ∈ r, q ∈ l
  | [], cs, r, h => by obtain rfl := Except.ok.inj h; simp
  | p :: ps, cs, r, h => by
    rw [stratLoop] at h
    split_ifs at h with h1
    · split at h
      · cases h
      · split_ifs at h
        · cases e : stratLoop z lo hi size m ps (cs.set ⌊(z p - lo) / size⌋.toNat (_ + 1)) with
          | error x => rw [e] at h; cases h
          | ok r' =>
            rw [e] at h
            obtain rfl := Except.ok.inj h
            intro q hq
            rcases List.mem_cons.mp hq with rfl | hq
            · simp
            · exact List.mem_cons_of_mem _ (stratLoop_sub z lo hi size m ps _ r' e q hq)
        · exact fun q hq => List.mem_cons_of_mem _ (stratLoop_sub z lo hi size m ps _ r h q hq)
    · exact fun q hq => List.mem_cons_of_mem _ (stratLoop_sub z lo hi size m ps _ r h q hq)

private theorem sum_plane (n : V3 ℝ) (d : ℝ) : ∀ l : List (V3 ℝ), (∀ q ∈ l, OnPlane n d q) →
    n.x * (l.map V3.x).sum + n.y * (l.map V3.y).sum + n.z * (l.map V3.z).sum + d * l.length = 0
  | [], _ => by simp
  | q :: l, h => by
    have ih := sum_plane n d l fun x hx => h x (List.mem_cons_of_mem _ hx)
    have h0 := h q (by simp)
    unfold OnPlane at h0
    simp only [List.map_cons, List.sum_cons, List.length_cons, Nat.cast_add, Nat.cast_one]
    linear_combination ih + h0

/-- C220: if at least one uncertainty plane is asked for, the plane that is reported and all uncertainty planes are the sheet, and
the mean point is on it. -/
theorem C220_found_partial (svd : Matrix (Fin 6) (Fin 6) ℝ → Fin 6 → ℝ) (hsvd : ∀ M, LastSingular M (svd M))
    (f cx cy cy' ty : ℝ) (hf : f ≠ 0) (ht : ty ≠ 0) (R : Matrix (Fin 3) (Fin 3) ℝ) (hR : IsRotation R) (n : V3 ℝ) (d : ℝ)
    (hn : n ≠ ⟨0, 0, 0⟩) (frames : List (List (ℝ × ℝ) × List (ℝ × ℝ)))
    (hc : ∀ fr ∈ frames, CleanFrame (camA f cx cy) (camB f cx cy' ty) R n d fr)
    (cfg : LaserSettings) (hrm : cfg.remap = true) (hnum : 0 < cfg.planes)
    (shuffle : List (V3 ℝ) → List (V3 ℝ)) (hsh : ∀ l, (shuffle l).Perm l)
    (optimise : List (V3 ℝ) → V3 ℝ × ℝ) (hopt : FindsExact optimise)
    (draw : List (V3 ℝ) → List (V3 ℝ × V3 ℝ × V3 ℝ)) (hdraw : ∀ l, ∀ t ∈ draw l, DrawnFrom l t) (r : LaserFit)
    (h : calSheet svd (camA f cx cy) (camB f cx cy' ty) R cfg shuffle optimise draw frames = .ok (some r)) :
    n.x ≠ 0 ∧ r.meanPlane = sheet n d ∧ r.planes = List.replicate cfg.planes (sheet n d) ∧ OnPlane n d r.meanXyz := by
  unfold calSheet at h
  rw [hrm] at h
  cases ef : zStratified V3.z cfg.lo cfg.hi cfg.bins cfg.maxPts
      (shuffle (laserCloud svd (camA f cx cy) (camB f cx cy' ty) R true frames)) with
  | error e => rw [ef] at h; cases h
  | ok filt =>
    rw [ef] at h
    simp only [bind, Except.bind] at h
    have hon : ∀ q ∈ filt, OnPlane n d q := by
      intro q hq
      apply C220_cloud svd hsvd f cx cy cy' ty hf ht R hR n d frames hc
      apply (hsh _).subset
      unfold zStratified at ef
      split_ifs at ef
      exact stratLoop_sub _ _ _ _ _ _ _ _ ef q hq
    obtain ⟨m, e, hm, hme⟩ := exact_exists n d hn
    obtain ⟨hx, hz⟩ := hopt filt ⟨m, e, hm, fun q hq => hme q (hon q hq)⟩
    have hps := norm3_pos _ hx
    set p := planeOfCoeffs (optimise filt).1 (optimise filt).2 with hp
    have hpn : p.normal ≠ ⟨0, 0, 0⟩ := by
      intro h0
      apply hx
      rw [hp] at h0
      simp only [planeOfCoeffs, V3.mk.injEq, div_eq_zero_iff, hps.ne', or_false] at h0
      cases hv : (optimise filt).1
      rw [hv] at h0
      simp_all
    have hzp : ∀ q ∈ filt, OnPlane p.normal p.offset q := fun q hq => (exact_iff _ _ _).mp (hz q hq)
    have hin : ∀ q ∈ planeInliers p cfg.threshold filt, q ∈ filt := fun q hq => (List.mem_filter.mp hq).1
    have hpl : uncertLoop cfg.planes (minDistOf (planeInliers p cfg.threshold filt)) (draw (planeInliers p cfg.threshold filt)) [] = some r.planes := by
      unfold fitAndSave at h
      simp only at h
      split_ifs at h
      have h' := Except.ok.inj h
      rw [Option.map_eq_some_iff] at h'
      obtain ⟨pl, hpl, rfl⟩ := h'
      exact hpl
    obtain ⟨hlen, hall⟩ := loop_planes _ _ _ _ _ (by simp) hpl
    have key : ∀ pl ∈ r.planes, n.x ≠ 0 ∧ p.normal.x ≠ 0 ∧ pl = sheet n d ∧ pl = sheet p.normal p.offset := by
      intro pl hm
      rcases hall pl hm with h0 | ⟨t, htm, hacc, rfl⟩
      · cases h0
      · have hx := cross_of_accepted _ _ _ _ hacc
        have hs := (hdraw _ t htm).subset
        have f1 := hin _ (hs (by simp : t.1 ∈ [t.1, t.2.1, t.2.2]))
        have f2 := hin _ (hs (by simp : t.2.1 ∈ [t.1, t.2.1, t.2.2]))
        have f3 := hin _ (hs (by simp : t.2.2 ∈ [t.1, t.2.1, t.2.2]))
        obtain ⟨a1, a2⟩ := through_sheet n d hn _ _ _ (hon _ f1) (hon _ f2) (hon _ f3) hx
        obtain ⟨b1, b2⟩ := through_sheet p.normal p.offset hpn _ _ _ (hzp _ f1) (hzp _ f2) (hzp _ f3) hx
        exact ⟨a1, b1, a2, b2⟩
    obtain ⟨pl0, hpl0⟩ : ∃ pl0, pl0 ∈ r.planes := by
      cases e : r.planes with
      | nil => rw [e] at hlen; simp at hlen; omega
      | cons a l => exact ⟨a, by simp⟩
    obtain ⟨k1, k2, k3, k4⟩ := key pl0 hpl0
    have hmean : r.meanPlane = sheet p.normal p.offset := by
      unfold fitAndSave at h
      simp only at h
      split_ifs at h
      have h' := Except.ok.inj h
      rw [Option.map_eq_some_iff] at h'
      obtain ⟨pl, -, rfl⟩ := h'
      unfold sheet
      refine Prod.ext ?_ ?_
      · simp only [V3.mk.injEq]
        exact ⟨by rw [mul_one_div, div_self k2], by rw [mul_one_div], by rw [mul_one_div]⟩
      · simp only [mul_one_div]
    refine ⟨k1, by rw [hmean, ← k4, k3], List.eq_replicate_iff.mpr ⟨hlen, fun b hb => (key b hb).2.2.1⟩, ?_⟩
    obtain ⟨inl, hsub, -, hne, ⟨m1, m2, m3⟩, -⟩ := C212_fit p cfg.threshold filt cfg.planes _ r k2 h
    have hs := sum_plane n d inl fun q hq => hon q (hsub.subset hq)
    have hl : (inl.length : ℝ) ≠ 0 := by
      have := List.length_pos_iff.mpr hne
      exact_mod_cast this.ne'
    rw [← m1, ← m2, ← m3] at hs
    unfold OnPlane
    apply mul_right_cancel₀ hl
    linear_combination hs

private theorem stratLoop_all (z : V3 ℝ → ℝ) (lo hi : ℝ) (n m : ℕ) (hn : 0 < n) (hlt : lo < hi) : ∀ (l : List (V3 ℝ)) (cs : List ℕ),
    cs.length = n → (∀ c ∈ cs, c + l.length ≤ m) → (∀ p ∈ l, lo ≤ z p ∧ z p < hi) →
    stratLoop z lo hi ((hi - lo) / (n : ℝ)) m l cs = .ok l
  | [], cs, _, _, _ => rfl
  | p :: ps, cs, hl, hc, hz => by
    have hp := hz p (by simp)
    have hnp : (0 : ℝ) < n := by exact_mod_cast hn
    have hs : 0 < (hi - lo) / (n : ℝ) := div_pos (by linarith) hnp
    have hlt' : ⌊(z p - lo) / ((hi - lo) / (n : ℝ))⌋.toNat < cs.length := by
      rw [hl, Int.toNat_lt' (by omega), Int.floor_lt, div_lt_iff₀ hs]
      have : ((n : ℤ) : ℝ) * ((hi - lo) / (n : ℝ)) = hi - lo := by push_cast; field_simp
      rw [this]; linarith [hp.2]
    rw [stratLoop, if_pos hp, List.getElem?_eq_getElem hlt']
    have hm := hc _ (List.getElem_mem hlt')
    rw [List.length_cons] at hm
    simp only
    rw [if_pos (Or.inr (by omega)), stratLoop_all z lo hi n m hn hlt ps _ (by rw [List.length_set, hl]) ?_
      (fun q hq => hz q (List.mem_cons_of_mem _ hq))]
    · rfl
    · intro c hcm
      rcases List.mem_or_eq_of_mem_set hcm with h | rfl
      · have := hc c h
        rw [List.length_cons] at this
        omega
      · omega

/-- C220: there is a report if the depths are within the limits, no bin overflows and enough good triples are drawn. -/
theorem C220_reported (svd : Matrix (Fin 6) (Fin 6) ℝ → Fin 6 → ℝ) (hsvd : ∀ M, LastSingular M (svd M))
    (f cx cy cy' ty : ℝ) (hf : f ≠ 0) (ht : ty ≠ 0) (R : Matrix (Fin 3) (Fin 3) ℝ) (hR : IsRotation R) (n : V3 ℝ) (d : ℝ)
    (hn : n ≠ ⟨0, 0, 0⟩) (frames : List (List (ℝ × ℝ) × List (ℝ × ℝ)))
    (hc : ∀ fr ∈ frames, CleanFrame (camA f cx cy) (camB f cx cy' ty) R n d fr)
    (cfg : LaserSettings) (hrm : cfg.remap = true) (hb : 0 < cfg.bins) (hlh : cfg.lo < cfg.hi) (hthr : 0 < cfg.threshold)
    (shuffle : List (V3 ℝ) → List (V3 ℝ)) (optimise : List (V3 ℝ) → V3 ℝ × ℝ) (hopt : FindsExact optimise)
    (draw : List (V3 ℝ) → List (V3 ℝ × V3 ℝ × V3 ℝ)) (cloud : List (V3 ℝ))
    (hcl : shuffle (laserCloud svd (camA f cx cy) (camB f cx cy' ty) R true frames) = cloud)
    (hsh : ∀ l, (shuffle l).Perm l) (hdepth : ∀ q ∈ cloud, cfg.lo ≤ q.z ∧ q.z < cfg.hi) (hmax : cloud.length ≤ cfg.maxPts)
    (h3 : 3 ≤ cloud.length) (hd : 0 < minDistOf cloud)
    (good : List (V3 ℝ × V3 ℝ × V3 ℝ)) (hgs : good.Sublist (draw cloud)) (hgl : good.length = cfg.planes)
    (hgg : ∀ t ∈ good, GoodTriple (minDistOf cloud) t) :
    ∃ r, calSheet svd (camA f cx cy) (camB f cx cy' ty) R cfg shuffle optimise draw frames = .ok (some r) := by
  unfold calSheet
  rw [hrm, hcl, zStratified, if_neg (by omega),
    stratLoop_all V3.z cfg.lo cfg.hi cfg.bins cfg.maxPts hb hlh cloud _ (by simp) (by
      intro c hc'; rw [List.eq_of_mem_replicate hc']; omega) hdepth]
  simp only [bind, Except.bind]
  have hon : ∀ q ∈ cloud, OnPlane n d q := by
    intro q hq
    apply C220_cloud svd hsvd f cx cy cy' ty hf ht R hR n d frames hc
    rw [← hcl] at hq
    exact (hsh _).subset hq
  obtain ⟨m, e, hm, hme⟩ := exact_exists n d hn
  obtain ⟨-, hz⟩ := hopt cloud ⟨m, e, hm, fun q hq => hme q (hon q hq)⟩
  have hin : planeInliers (planeOfCoeffs (optimise cloud).1 (optimise cloud).2) cfg.threshold cloud = cloud := by
    unfold planeInliers
    rw [List.filter_eq_self]
    intro q hq
    rw [hz q hq]
    exact decide_eq_true hthr
  obtain ⟨r, hr⟩ := (C212_ends cfg.planes (minDistOf cloud) hd (draw cloud)).mpr ⟨good, hgs, hgl, hgg⟩
  unfold fitAndSave
  simp only [hin]
  rw [if_neg (by omega), if_neg (by omega), hr]
  exact ⟨_, rfl⟩

/-! ## A scene that meets the hypotheses -/

private def sceneFrames : List (List (ℝ × ℝ) × List (ℝ × ℝ)) :=
  [([(-110, 0)], [(-220, 0)]), ([(-110, 220)], [(-220, 220)]), ([(-66, 0)], [(-132, 0)])] ++
    List.replicate 3 ([(-90, 60)], [(-180, 60)])

private noncomputable def sceneCloud : List (V3 ℝ) := [⟨1, 0, 3⟩, ⟨1, 2, 3⟩, ⟨1, 0, 5⟩] ++ List.replicate 3 ⟨1, 2 / 3, 11 / 3⟩

private theorem scene_frame (X : V3 ℝ) (hz : 0 < X.z) (hy : X.y = -1) (p q : ℝ × ℝ) (hu : ∃ u : ℤ, p.2 = (u : ℝ))
    (h1 : SeenAt (camA 330 0 0) X p) (h2 : SeenAt (camB 330 0 0 (-330)) X q) :
    CleanFrame (camA 330 0 0) (camB 330 0 0 (-330)) 1 ⟨1, 0, 0⟩ (-1) ([p], [q]) := by
  have hcol : q.2 = p.2 := by
    obtain ⟨a, -⟩ := h1
    obtain ⟨b, -⟩ := h2
    simp [camA, camB, Matrix.mulVec, dotProduct, Fin.sum_univ_four] at a b
    exact mul_right_cancel₀ hz.ne' (b.symm.trans a)
  refine ⟨⟨by simp, by simpa using hu⟩, ⟨by simp, by simpa [hcol] using hu⟩, ?_⟩
  intro p' hp' q' hq' _
  obtain rfl := List.mem_singleton.mp hp'
  obtain rfl := List.mem_singleton.mp hq'
  exact ⟨X, X, hz, h1, h2, by rw [Matrix.one_mulVec], by simp [OnPlane, hy]⟩

private theorem scene_sees (X : V3 ℝ) (u v w : ℝ) (h1 : 330 * X.x = u * X.z) (h2 : 330 * X.y = v * X.z) (h3 : 330 * X.y - 330 = w * X.z) :
    SeenAt (camA 330 0 0) X (v, u) ∧ SeenAt (camB 330 0 0 (-330)) X (w, u) := by
  constructor <;> constructor <;> simp [camA, camB, Matrix.mulVec, dotProduct, Fin.sum_univ_four] <;> linarith

/-- Six pairs of images of a sheet in front of the cameras: the hypotheses of C220_found_partial are met by a run that ends. -/
example : ∃ (svd : Matrix (Fin 6) (Fin 6) ℝ → Fin 6 → ℝ) (cfg : LaserSettings) (optimise : List (V3 ℝ) → V3 ℝ × ℝ)
    (draw : List (V3 ℝ) → List (V3 ℝ × V3 ℝ × V3 ℝ)) (r : LaserFit), (∀ M, LastSingular M (svd M)) ∧ FindsExact optimise ∧
    (∀ l, ∀ t ∈ draw l, DrawnFrom l t) ∧ cfg.planes = 2 ∧ cfg.remap = true ∧
    (∀ fr ∈ sceneFrames, CleanFrame (camA 330 0 0) (camB 330 0 0 (-330)) 1 ⟨1, 0, 0⟩ (-1) fr) ∧
    calSheet svd (camA 330 0 0) (camB 330 0 0 (-330)) 1 cfg id optimise draw sceneFrames = .ok (some r) ∧
    r.meanPlane = (⟨1, 0, 0⟩, -1) := by
  classical
  choose svd hsvd using fun M : Matrix (Fin 6) (Fin 6) ℝ => exists_last M
  have hex : ∀ pts : List (V3 ℝ), ∃ x : V3 ℝ × ℝ, (∃ n d, n ≠ (⟨0, 0, 0⟩ : V3 ℝ) ∧ ∀ q ∈ pts, (planeOfCoeffs n d).distance q = 0) →
      x.1 ≠ ⟨0, 0, 0⟩ ∧ ∀ q ∈ pts, (planeOfCoeffs x.1 x.2).distance q = 0 := by
    intro pts
    by_cases h : ∃ n d, n ≠ (⟨0, 0, 0⟩ : V3 ℝ) ∧ ∀ q ∈ pts, (planeOfCoeffs n d).distance q = 0
    · obtain ⟨n, d, h⟩ := h
      exact ⟨(n, d), fun _ => h⟩
    · exact ⟨(⟨0, 0, 0⟩, 0), fun h' => absurd h' h⟩
  choose optimise hopt using hex
  have s1 := scene_sees ⟨0, -1, 3⟩ 0 (-110) (-220) (by norm_num) (by norm_num) (by norm_num)
  have s2 := scene_sees ⟨2, -1, 3⟩ 220 (-110) (-220) (by norm_num) (by norm_num) (by norm_num)
  have s3 := scene_sees ⟨0, -1, 5⟩ 0 (-66) (-132) (by norm_num) (by norm_num) (by norm_num)
  have s4 := scene_sees ⟨2 / 3, -1, 11 / 3⟩ 60 (-90) (-180) (by norm_num) (by norm_num) (by norm_num)
  have hclean : ∀ fr ∈ sceneFrames, CleanFrame (camA 330 0 0) (camB 330 0 0 (-330)) 1 ⟨1, 0, 0⟩ (-1) fr := by
    intro fr hfr
    simp only [sceneFrames, List.mem_append, List.mem_cons, List.not_mem_nil, or_false, List.mem_replicate] at hfr
    rcases hfr with (rfl | rfl | rfl) | ⟨-, rfl⟩
    · exact scene_frame _ (by norm_num) rfl _ _ ⟨0, by norm_num⟩ s1.1 s1.2
    · exact scene_frame _ (by norm_num) rfl _ _ ⟨220, by norm_num⟩ s2.1 s2.2
    · exact scene_frame _ (by norm_num) rfl _ _ ⟨0, by norm_num⟩ s3.1 s3.2
    · exact scene_frame _ (by norm_num) rfl _ _ ⟨60, by norm_num⟩ s4.1 s4.2
  have hI : IsRotation 1 := ⟨by simp, by simp⟩
  have t1 := rectified_tri svd hsvd 330 0 0 0 (-330) (by norm_num) (by norm_num) ⟨0, -1, 3⟩ (by norm_num) _ _ s1.1 s1.2
  have t2 := rectified_tri svd hsvd 330 0 0 0 (-330) (by norm_num) (by norm_num) ⟨2, -1, 3⟩ (by norm_num) _ _ s2.1 s2.2
  have t3 := rectified_tri svd hsvd 330 0 0 0 (-330) (by norm_num) (by norm_num) ⟨0, -1, 5⟩ (by norm_num) _ _ s3.1 s3.2
  have t4 := rectified_tri svd hsvd 330 0 0 0 (-330) (by norm_num) (by norm_num) ⟨2 / 3, -1, 11 / 3⟩ (by norm_num) _ _ s4.1 s4.2
  have hone : ∀ X : V3 ℝ, unrectify true 1 X = X := fun X => by simp [unrectify]
  have hcl : laserCloud svd (camA 330 0 0) (camB 330 0 0 (-330)) 1 true sceneFrames = sceneCloud := by
    simp [laserCloud, sceneFrames, sceneCloud, List.replicate, pointCloud, seekPeak, t1, t2, t3, t4, hone]
    norm_num [opencvToNed]
  have hmd : minDistOf sceneCloud ^ 2 = 4 * (16 / 3 / 6) := by
    rw [(C212_min_dist sceneCloud).2]
    norm_num [sceneCloud, spreadAbout, List.replicate]
  have hmp : 0 < minDistOf sceneCloud := by
    rcases lt_or_eq_of_le (C212_min_dist sceneCloud).1 with h | h
    · exact h
    · rw [← h] at hmd; norm_num at hmd
  have hm2 : minDistOf sceneCloud ≤ 2 := by nlinarith
  let t : V3 ℝ × V3 ℝ × V3 ℝ := (⟨1, 0, 3⟩, ⟨1, 2, 3⟩, ⟨1, 0, 5⟩)
  have e1 : distYZ ⟨1, 0, 3⟩ ⟨1, 2, 3⟩ = 2 := by
    unfold distYZ
    rw [show ((0 : ℝ) - 2) ^ 2 + (3 - 3) ^ 2 = 2 ^ 2 by norm_num]
    exact Real.sqrt_sq (by norm_num)
  have e2 : distYZ ⟨1, 0, 3⟩ ⟨1, 0, 5⟩ = 2 := by
    unfold distYZ
    rw [show ((0 : ℝ) - 0) ^ 2 + (3 - 5) ^ 2 = 2 ^ 2 by norm_num]
    exact Real.sqrt_sq (by norm_num)
  have e3 : 2 ≤ distYZ ⟨1, 2, 3⟩ ⟨1, 0, 5⟩ := Real.le_sqrt_of_sq_le (by norm_num)
  have hg : GoodTriple (minDistOf sceneCloud) t := by
    refine ⟨by rw [e1]; exact hm2, by rw [e2]; exact hm2, hm2.trans e3, ?_⟩
    simp only [t]
    rw [e1, e2]
    norm_num
  let draw : List (V3 ℝ) → List (V3 ℝ × V3 ℝ × V3 ℝ) := fun l => if DrawnFrom l t then [t, t] else []
  have hdt : DrawnFrom sceneCloud t := by
    refine ⟨_, List.Perm.refl _, ?_⟩
    simp [sceneCloud, t]
  have hdraw : ∀ l, ∀ x ∈ draw l, DrawnFrom l x := by
    intro l x hx
    by_cases h : DrawnFrom l t
    · simp only [draw, if_pos h, List.mem_cons, List.not_mem_nil, or_false, or_self] at hx
      rw [hx]; exact h
    · simp [draw, if_neg h] at hx
  let cfg : LaserSettings := ⟨true, 1, 20, 5, 300, 2 / 1000, 2⟩
  obtain ⟨r, hr⟩ := C220_reported svd hsvd 330 0 0 0 (-330) (by norm_num) (by norm_num) 1 hI ⟨1, 0, 0⟩ (-1) (by simp) sceneFrames hclean
    cfg rfl (by simp [cfg]) (by norm_num [cfg]) (by simp [cfg]) id optimise hopt draw sceneCloud hcl (fun l => List.Perm.refl _)
    (by
      intro q hq
      simp only [sceneCloud, List.mem_append, List.mem_cons, List.not_mem_nil, or_false, List.mem_replicate] at hq
      rcases hq with (rfl | rfl | rfl) | ⟨-, rfl⟩ <;> norm_num [cfg])
    (by simp [sceneCloud, cfg]) (by simp [sceneCloud]) hmp [t, t] (by simp [draw, if_pos hdt]) rfl
    (by intro x hx; simp at hx; rw [hx]; exact hg)
  refine ⟨svd, cfg, optimise, draw, r, hsvd, hopt, hdraw, rfl, rfl, hclean, hr, ?_⟩
  have := (C220_found_partial svd hsvd 330 0 0 0 (-330) (by norm_num) (by norm_num) 1 hI ⟨1, 0, 0⟩ (-1) (by simp) sceneFrames hclean
    cfg rfl (by simp [cfg]) id (fun l => List.Perm.refl _) optimise hopt draw hdraw r hr).2.1
  rw [this]
  simp [sheet]

/-- Full property: every sheet seen without noise at points that are not on one line is reported, for some triples drawn. -/
def SheetFound : Prop :=
  ∀ (svd : Matrix (Fin 6) (Fin 6) ℝ → Fin 6 → ℝ), (∀ M, LastSingular M (svd M)) → ∀ (f cx cy cy' ty : ℝ), f ≠ 0 → ty ≠ 0 →
    ∀ (n : V3 ℝ) (d : ℝ), n ≠ ⟨0, 0, 0⟩ → ∀ frames : List (List (ℝ × ℝ) × List (ℝ × ℝ)),
    (∀ fr ∈ frames, CleanFrame (camA f cx cy) (camB f cx cy' ty) 1 n d fr) →
    ∀ cfg : LaserSettings, cfg.remap = true → 0 < cfg.bins → cfg.lo < cfg.hi → 0 < cfg.threshold →
    (∀ q ∈ laserCloud svd (camA f cx cy) (camB f cx cy' ty) 1 true frames, cfg.lo ≤ q.z ∧ q.z < cfg.hi) →
    (laserCloud svd (camA f cx cy) (camB f cx cy' ty) 1 true frames).length ≤ cfg.maxPts →
    NotAligned (laserCloud svd (camA f cx cy) (camB f cx cy' ty) 1 true frames) →
    ∀ optimise, FindsExact optimise → ∃ draw : List (V3 ℝ) → List (V3 ℝ × V3 ℝ × V3 ℝ), (∀ l, ∀ t ∈ draw l, DrawnFrom l t) ∧
      ∃ r, calSheet svd (camA f cx cy) (camB f cx cy' ty) 1 cfg id optimise draw frames = .ok (some r)

private def threeFrames : List (List (ℝ × ℝ) × List (ℝ × ℝ)) :=
  [([(-110, 0)], [(-220, 0)]), ([(-110, 220)], [(-220, 220)]), ([(-66, 0)], [(-132, 0)])]

private def threeCloud : List (V3 ℝ) := [⟨1, 0, 3⟩, ⟨1, 2, 3⟩, ⟨1, 0, 5⟩]

/-- C220 is false of three points: the search for triples never ends. -/
theorem C220_three_points_false : ¬ SheetFound := by
  intro hall
  choose svd hsvd using fun M : Matrix (Fin 6) (Fin 6) ℝ => exists_last M
  have hex : ∀ pts : List (V3 ℝ), ∃ x : V3 ℝ × ℝ, (∃ n d, n ≠ (⟨0, 0, 0⟩ : V3 ℝ) ∧ ∀ q ∈ pts, (planeOfCoeffs n d).distance q = 0) →
      x.1 ≠ ⟨0, 0, 0⟩ ∧ ∀ q ∈ pts, (planeOfCoeffs x.1 x.2).distance q = 0 := by
    intro pts
    by_cases h : ∃ n d, n ≠ (⟨0, 0, 0⟩ : V3 ℝ) ∧ ∀ q ∈ pts, (planeOfCoeffs n d).distance q = 0
    · obtain ⟨n, d, h⟩ := h
      exact ⟨(n, d), fun _ => h⟩
    · exact ⟨(⟨0, 0, 0⟩, 0), fun h' => absurd h' h⟩
  choose optimise hopt using hex
  have s1 := scene_sees ⟨0, -1, 3⟩ 0 (-110) (-220) (by norm_num) (by norm_num) (by norm_num)
  have s2 := scene_sees ⟨2, -1, 3⟩ 220 (-110) (-220) (by norm_num) (by norm_num) (by norm_num)
  have s3 := scene_sees ⟨0, -1, 5⟩ 0 (-66) (-132) (by norm_num) (by norm_num) (by norm_num)
  have hclean : ∀ fr ∈ threeFrames, CleanFrame (camA 330 0 0) (camB 330 0 0 (-330)) 1 ⟨1, 0, 0⟩ (-1) fr := by
    intro fr hfr
    simp only [threeFrames, List.mem_cons, List.not_mem_nil, or_false] at hfr
    rcases hfr with rfl | rfl | rfl
    · exact scene_frame _ (by norm_num) rfl _ _ ⟨0, by norm_num⟩ s1.1 s1.2
    · exact scene_frame _ (by norm_num) rfl _ _ ⟨220, by norm_num⟩ s2.1 s2.2
    · exact scene_frame _ (by norm_num) rfl _ _ ⟨0, by norm_num⟩ s3.1 s3.2
  have t1 := rectified_tri svd hsvd 330 0 0 0 (-330) (by norm_num) (by norm_num) ⟨0, -1, 3⟩ (by norm_num) _ _ s1.1 s1.2
  have t2 := rectified_tri svd hsvd 330 0 0 0 (-330) (by norm_num) (by norm_num) ⟨2, -1, 3⟩ (by norm_num) _ _ s2.1 s2.2
  have t3 := rectified_tri svd hsvd 330 0 0 0 (-330) (by norm_num) (by norm_num) ⟨0, -1, 5⟩ (by norm_num) _ _ s3.1 s3.2
  have hone : ∀ X : V3 ℝ, unrectify true 1 X = X := fun X => by simp [unrectify]
  have hcl : laserCloud svd (camA 330 0 0) (camB 330 0 0 (-330)) 1 true threeFrames = threeCloud := by
    simp [laserCloud, threeFrames, threeCloud, pointCloud, seekPeak, t1, t2, t3, hone]
    norm_num [opencvToNed]
  let cfg : LaserSettings := ⟨true, 1, 20, 5, 300, 2 / 1000, 2⟩
  have hdepth : ∀ q ∈ threeCloud, cfg.lo ≤ q.z ∧ q.z < cfg.hi := by
    intro q hq
    simp only [threeCloud, List.mem_cons, List.not_mem_nil, or_false] at hq
    rcases hq with rfl | rfl | rfl <;> norm_num [cfg]
  obtain ⟨draw, hdraw, r, hr⟩ := hall svd hsvd 330 0 0 0 (-330) (by norm_num) (by norm_num) ⟨1, 0, 0⟩ (-1) (by simp) threeFrames hclean
    cfg rfl (by simp [cfg]) (by norm_num [cfg]) (by norm_num [cfg]) (by rw [hcl]; exact hdepth) (by rw [hcl]; simp [threeCloud, cfg])
    (by
      rw [hcl]
      exact ⟨⟨1, 0, 3⟩, by simp [threeCloud], ⟨1, 2, 3⟩, by simp [threeCloud], ⟨1, 0, 5⟩, by simp [threeCloud], by norm_num⟩)
    optimise hopt
  unfold calSheet at hr
  rw [show cfg.remap = true from rfl, hcl, id, zStratified, if_neg (by simp [cfg]),
    stratLoop_all V3.z cfg.lo cfg.hi cfg.bins cfg.maxPts (by simp [cfg]) (by norm_num [cfg]) threeCloud _ (by simp) (by
      intro c hc'; rw [List.eq_of_mem_replicate hc']; simp [threeCloud, cfg]) hdepth] at hr
  simp only [bind, Except.bind] at hr
  obtain ⟨m, e, hm, hme⟩ := exact_exists ⟨1, 0, 0⟩ (-1) (by simp)
  have hon : ∀ q ∈ threeCloud, OnPlane ⟨1, 0, 0⟩ (-1) q := by
    intro q hq
    simp only [threeCloud, List.mem_cons, List.not_mem_nil, or_false] at hq
    rcases hq with rfl | rfl | rfl <;> norm_num [OnPlane]
  obtain ⟨-, hz⟩ := hopt threeCloud ⟨m, e, hm, fun q hq => hme q (hon q hq)⟩
  have hin : planeInliers (planeOfCoeffs (optimise threeCloud).1 (optimise threeCloud).2) cfg.threshold threeCloud = threeCloud := by
    unfold planeInliers
    rw [List.filter_eq_self]
    intro q hq
    rw [hz q hq]
    exact decide_eq_true (by norm_num [cfg])
  unfold fitAndSave at hr
  simp only [hin] at hr
  rw [if_neg (by simp [threeCloud]), if_neg (by simp [threeCloud])] at hr
  have h' := Except.ok.inj hr
  rw [Option.map_eq_some_iff] at h'
  obtain ⟨pl, hpl, -⟩ := h'
  have hmd : minDistOf threeCloud ^ 2 = 4 * (16 / 3 / 3) := by
    rw [(C212_min_dist threeCloud).2]
    norm_num [threeCloud, spreadAbout]
  have hmp : 0 < minDistOf threeCloud := by
    rcases lt_or_eq_of_le (C212_min_dist threeCloud).1 with h | h
    · exact h
    · rw [← h] at hmd; norm_num at hmd
  have := C212_three_endless threeCloud (by simp [threeCloud]) hmp cfg.planes (by simp [cfg]) (draw threeCloud) (hdraw threeCloud)
  rw [this] at hpl
  cases hpl

end Oplab.Props
