import Verif.Spec.MovedParticles
import Verif.Spec.ParticleRun
import Mathlib.Tactic.Ring
import Mathlib.Tactic.Linarith
import Mathlib.Tactic.NormNum
import Mathlib.Tactic.FieldSimp
import Mathlib.Analysis.SpecialFunctions.Trigonometric.Basic

/-! C278: the particle filter on a moved dive. -/

namespace Oplab.Props
open Oplab Oplab.Spec Real

section Generic
variable {K : Type} [Field K] [LinearOrder K] [IsStrictOrderedRing K] {α μ ω : Type} (D : K) (f : α → α)

private def mvX (x : K × α) : K × α := (x.1 + D, f x.2)

private def mvP (p : Particle K α) : Particle K α := ⟨p.weight, p.time + D, f p.state, p.traj.map (mvX D f)⟩

omit [LinearOrder K] [IsStrictOrderedRing K] in
private theorem overwrite_mv (tr : List (K × α)) (w : α) : overwriteLast (tr.map (mvX D f)) (f w) = (overwriteLast tr w).map (mvX D f) := by
  simp only [overwriteLast, List.getLast?_map]
  cases tr.getLast? <;> simp [mvX, List.map_dropLast]

omit [LinearOrder K] [IsStrictOrderedRing K] in
private theorem propagate_mv (wr wr' : Nat → α → α) (adv adv' : α → α) (dt : K) (ps : List (Particle K α))
    (hw : ∀ i a, wr' i (f a) = f (wr i a)) (ha : ∀ a, adv' (f a) = f (adv a)) :
    propagateAll wr' adv' dt (ps.map (mvP D f)) = (propagateAll wr adv dt ps).map (mvP D f) := by
  simp only [propagateAll]
  apply List.ext_getElem (by simp)
  intro i h1 h2
  simp only [List.getElem_mapIdx, List.getElem_map, mvP, hw, ha, overwrite_mv, List.map_append, List.map_cons, List.map_nil, mvX]
  simp [add_right_comm]

omit [IsStrictOrderedRing K] in
private theorem measure_mv (like like' : α → K) (ps : List (Particle K α)) (hl : ∀ a, like' (f a) = like a) :
    pfMeasure like' (ps.map (mvP D f)) = (pfMeasure like ps).map (mvP D f) := by
  have hr : reweigh like' (ps.map (mvP D f)) = (reweigh like ps).map (mvP D f) := by
    rw [reweigh, reweigh, List.map_mergeSort (s := fun a b => decide (b.weight ≤ a.weight)) (by intro a _ b _; rfl)]
    congr 1
    simp [mvP, hl]
  simp only [pfMeasure, normalizeWeights, hr, List.map_map]
  have : ((fun x : Particle K α => x.weight) ∘ mvP D f) = (·.weight) := rfl
  rw [this]
  rfl

omit [IsStrictOrderedRing K] in
private theorem should_mv (ps : List (Particle K α)) : shouldResample (ps.map (mvP D f)) = shouldResample ps := by
  simp only [shouldResample, List.map_map, List.length_map]
  rfl

omit [IsStrictOrderedRing K] in
private theorem resample_mv (ps : List (Particle K α)) (u : K) :
    resample (ps.map (mvP D f)) u = (resample ps u).map (List.map (mvP D f)) := by
  simp only [resample, List.map_map]
  have : ((fun x : Particle K α => x.weight) ∘ mvP D f) = (·.weight) := rfl
  rw [this]
  cases resampleIndices (ps.map (·.weight)) u with
  | error e => rfl
  | ok idx =>
    simp only [bind, Except.bind, pure, Except.pure, Except.map, List.map_filterMap, List.getElem?_map]

variable (mm : μ → μ) (gg : ω → ω)

private def mvD (d : K × μ) : K × μ := (d.1 + D, mm d.2)

private def mvS (s : Pf K α μ ω) : Pf K α μ ω :=
  ⟨s.ps.map (mvP D f), mm s.move, s.lastT + D, s.k, s.resampled.map (mvX D gg)⟩

variable (env : PfEnv K α μ ω) (hw : ∀ k m i a, env.wr k (mm m) i (f a) = f (env.wr k m i a)) (ha : ∀ t a, env.adv t (f a) = f (env.adv t a))
  (hl : ∀ o a, env.like (gg o) (f a) = env.like o a) (hb : ∀ o, env.bad (gg o) = env.bad o)

include hw ha in
omit [LinearOrder K] [IsStrictOrderedRing K] in
private theorem dr_mv (s s' : Pf K α μ ω) (d : K × μ) (hs : { s' with move := mm s.move } = mvS D f mm gg s) :
    pfDr env s' (mvD D mm d) = mvS D f mm gg (pfDr env s d) := by
  obtain ⟨ps, mv, lt, k, re⟩ := s'
  simp only [mvS, Pf.mk.injEq] at hs
  obtain ⟨rfl, -, rfl, rfl, rfl⟩ := hs
  simp only [pfDr, mvD, mvS, add_sub_add_right_eq_sub, Pf.mk.injEq, and_true]
  exact propagate_mv D f _ _ _ _ _ _ (fun i a => hw _ _ i a) (ha _)

include hw ha hl hb in
omit [IsStrictOrderedRing K] in
private theorem usbl_mv (s : Pf K α μ ω) (o : K × ω) :
    pfUsbl env (mvS D f mm gg s) (mvX D gg o) = (pfUsbl env s o).map (mvS D f mm gg) := by
  have e : pfMeasure (env.like (gg o.2)) (propagateAll (env.wr s.k (mm s.move)) (env.adv (o.1 + D - (s.lastT + D))) (o.1 + D - (s.lastT + D))
      (s.ps.map (mvP D f))) = (pfMeasure (env.like o.2) (propagateAll (env.wr s.k s.move) (env.adv (o.1 - s.lastT)) (o.1 - s.lastT) s.ps)).map (mvP D f) := by
    rw [add_sub_add_right_eq_sub, propagate_mv D f _ _ _ _ _ _ (fun i a => hw _ _ i a) (ha _), measure_mv D f _ _ _ (hl _)]
  simp only [pfUsbl, mvX, mvS, hb, e, should_mv, resample_mv]
  by_cases h1 : env.bad o.2 = true
  · rw [if_pos h1, if_pos h1]; rfl
  rw [if_neg h1, if_neg h1]
  split_ifs with h2
  · cases resample (pfMeasure (env.like o.2) (propagateAll (env.wr s.k s.move) (env.adv (o.1 - s.lastT)) (o.1 - s.lastT) s.ps)) (env.u s.k) with
    | error e => rfl
    | ok ps => simp [bind, Except.bind, pure, Except.pure, Except.map, mvS, mvX]
  · rfl

include hw ha hl hb in
private theorem loop_mv (ds : List (K × μ)) (os : List (K × ω)) (s : Pf K α μ ω) :
    pfLoop env (ds.map (mvD D mm)) (os.map (mvX D gg)) (mvS D f mm gg s) = (pfLoop env ds os s).map (mvS D f mm gg) := by
  induction ds, os, s using pfLoop.induct env with
  | case1 os s => rw [List.map_nil, pfLoop.eq_def, pfLoop.eq_def]; rfl
  | case2 d ds s ih =>
    rw [pfLoop.eq_def env (d :: ds), List.map_cons, List.map_nil, pfLoop.eq_def]
    simp only
    rw [dr_mv D f mm gg env hw ha s _ d rfl]
    exact ih
  | case3 d ds o os s h ih =>
    rw [pfLoop.eq_def env (d :: ds), List.map_cons, List.map_cons, pfLoop.eq_def]
    simp only
    rw [if_pos h, if_pos (by simpa [mvD, mvX] using h), dr_mv D f mm gg env hw ha s _ d rfl]
    exact ih
  | case4 d ds o os s h ih =>
    rw [pfLoop.eq_def env (d :: ds), List.map_cons, List.map_cons, pfLoop.eq_def]
    simp only
    rw [if_neg h, if_neg (by simpa [mvD, mvX] using h), usbl_mv D f mm gg env hw ha hl hb]
    cases pfUsbl env s o with
    | error e => rfl
    | ok s' => exact ih s'

include hw ha hl hb in
/-- The movement before the first step only matters if a fix comes first. -/
private theorem start_mv (d : K × μ) (ds : List (K × μ)) (os : List (K × ω)) (s : Pf K α μ ω)
    (h : mm s.move = s.move ∨ ∀ o ∈ os, d.1 < o.1) :
    pfLoop env ((d :: ds).map (mvD D mm)) (os.map (mvX D gg)) { mvS D f mm gg s with move := s.move } =
      (pfLoop env (d :: ds) os s).map (mvS D f mm gg) := by
  rcases h with h | h
  · rw [← loop_mv D f mm gg env hw ha hl hb]
    congr 1
    simp [mvS, h]
  · cases os with
    | nil =>
      rw [pfLoop.eq_def env (d :: ds), List.map_cons, List.map_nil, pfLoop.eq_def]
      simp only
      rw [dr_mv D f mm gg env hw ha s _ d rfl]
      exact loop_mv D f mm gg env hw ha hl hb ds [] _
    | cons o os =>
      have h1 := h o (by simp)
      rw [pfLoop.eq_def env (d :: ds), List.map_cons, List.map_cons, pfLoop.eq_def]
      simp only
      rw [if_pos h1, if_pos (by simpa [mvD, mvX] using h1), dr_mv D f mm gg env hw ha s _ d rfl]
      exact loop_mv D f mm gg env hw ha hl hb ds (o :: os) _

private theorem skip_mv (us ds : List K) : ∀ (n : Nat) (i : Nat) (ut dt : K), us.length - i = n →
    skipUsbl (us.map (· + D)) (ds.map (· + D)) (ut + D) (dt + D) i = skipUsbl us ds ut dt i := by
  intro n
  induction n with
  | zero =>
    intro i ut dt h
    rw [skipUsbl.eq_def, skipUsbl.eq_def, dif_neg (by simp; omega), dif_neg (by omega)]
  | succ n ih =>
    intro i ut dt h
    rw [skipUsbl.eq_def, skipUsbl.eq_def]
    have hi : i < us.length := by omega
    by_cases h1 : ut < dt
    · rw [dif_pos ⟨by simpa using hi, by simpa using h1⟩, dif_pos ⟨hi, h1⟩]
      simp only [List.getElem?_map, List.getElem_map]
      cases ds[i]? with
      | none => rfl
      | some d => exact ih (i + 1) _ _ (by omega)
    · rw [dif_neg (by simp [h1]), dif_neg (by simp [h1])]

private theorem prior_mv (us ds : List K) : priorSkip (us.map (· + D)) (ds.map (· + D)) = priorSkip us ds := by
  cases us with
  | nil => rfl
  | cons u us =>
    cases ds with
    | nil => rfl
    | cons d ds => exact skip_mv D (u :: us) (d :: ds) _ 0 u d rfl

include hw ha hl hb in
private theorem run_mv (n : Nat) (m0 : μ) (prior : α) (ds : List (K × μ)) (os : List (K × ω))
    (h : mm m0 = m0 ∨ ∀ d ∈ ds.head?, ∀ o ∈ os, d.1 < o.1) :
    runPf env n m0 (f prior) (ds.map (mvD D mm)) (os.map (mvX D gg)) =
      (runPf env n m0 prior ds os).map fun r => (r.1.map (mvX D f), r.2.map (mvX D gg)) := by
  have e1 : (os.map (mvX D gg)).map (·.1) = (os.map (·.1)).map (· + D) := by simp [mvX, Function.comp_def]
  have e2 : (ds.map (mvD D mm)).map (·.1) = (ds.map (·.1)).map (· + D) := by simp [mvD, Function.comp_def]
  simp only [runPf, e1, e2, prior_mv]
  cases priorSkip (os.map (·.1)) (ds.map (·.1)) with
  | error e => rfl
  | ok skip =>
    simp only [bind, Except.bind]
    match ds, h with
    | [], _ => rfl
    | [_], _ => rfl
    | d :: d' :: ds, h =>
      simp only [List.map_cons]
      have hs := start_mv D f mm gg env hw ha hl hb d (d' :: ds) (os.drop skip)
        { ps := setPrior n ⟨0, d.1, prior, []⟩, move := m0, lastT := d.1, k := 0, resampled := [] }
        (h.imp id fun h o ho => h d rfl o (List.mem_of_mem_drop ho))
      have e3 : ({ ps := setPrior n ⟨0, (mvD D mm d).1, f prior, []⟩, move := m0, lastT := (mvD D mm d).1, k := 0, resampled := [] } : Pf K α μ ω) =
          { mvS D f mm gg { ps := setPrior n ⟨0, d.1, prior, []⟩, move := m0, lastT := d.1, k := 0, resampled := [] } with move := m0 } := by
        simp [mvS, setPrior, mvD, mvP]
      rw [e3, ← List.map_drop]
      simp only [List.map_cons] at hs
      rw [hs]
      cases pfLoop env (d :: d' :: ds) (os.drop skip)
        { ps := setPrior n ⟨0, d.1, prior, []⟩, move := m0, lastT := d.1, k := 0, resampled := [] } with
      | error e => rfl
      | ok s =>
        simp only [Except.map, mvS]
        cases s.ps <;> rfl

end Generic

/-- The state of a particle in the moved dive. -/
private noncomputable def mvState (m : Elsewhere) (p : PState) : PState :=
  ⟨⟨m.northOf p.pos.x p.pos.y, m.eastOf p.pos.x p.pos.y, p.pos.z + m.down⟩, ⟨p.rpy.x, p.rpy.y, p.rpy.z + m.turn * π / 180⟩, p.vel, p.alt⟩

private noncomputable def mvMove (m : Elsewhere) (p : PMove) : PMove :=
  ⟨p.depth + m.down, ⟨p.rpy.x, p.rpy.y, p.rpy.z + m.turn * π / 180⟩, p.vel, p.alt⟩

private theorem write_mv (m : Elsewhere) (s : PfStd) (g : PfGains) (hz : m.down = 0 ∨ s.z.1 = 0) (ho : m.turn = 0 ∨ s.ori.1 = 0) (d : PfDraws)
    (v : PMove) (p : PState) : noisyWrite s g d (mvMove m v) (mvState m p) = mvState m (noisyWrite s g d v p) := by
  have e1 : noiseTerm (v.depth + m.down) s.z 1 d.z = noiseTerm v.depth s.z 1 d.z := by
    rcases hz with h | h <;> simp [noiseTerm, h]
  have e2 : noiseTerm (v.rpy.z + m.turn * π / 180) s.ori g.imu d.rpy.z = noiseTerm v.rpy.z s.ori g.imu d.rpy.z := by
    rcases ho with h | h <;> simp [noiseTerm, h]
  simp only [noisyWrite, writeState, mvMove, mvState, e1, e2, PState.mk.injEq, V3.mk.injEq, true_and, and_true]
  constructor <;> ring

private theorem advance_mv (m : Elsewhere) (t : ℝ) (p : PState) : advanceState t (mvState m p) = mvState m (advanceState t p) := by
  simp only [advanceState, mvState, cos_add, sin_add, Elsewhere.northOf, Elsewhere.eastOf, PState.mk.injEq, V3.mk.injEq, and_true]
  refine ⟨?_, ?_, ?_⟩ <;> ring

private theorem like_mv (m : Elsewhere) (g : PfGains) (o : PfFix) (p : PState) : fixLike g (m.fix o) (mvState m p) = fixLike g o p := by
  have h := sin_sq_add_cos_sq (m.turn * π / 180)
  simp only [fixLike, Elsewhere.fix, mvState, Elsewhere.northOf, Elsewhere.eastOf, fixStd]
  congr 2
  generalize sin (m.turn * π / 180) = s at *
  generalize cos (m.turn * π / 180) = c at *
  linear_combination ((o.north - p.pos.x) ^ 2 + (o.east - p.pos.y) ^ 2) * h

private theorem std_of (sec : PfSections) (s : PfStd) (h : pfStd sec = .ok s) :
    sec.z.lookup "factor" = some s.z.1 ∧ sec.orientation.lookup "factor" = some s.ori.1 := by
  have ok : ∀ (l : StdSection) (k : String) (v : ℝ), stdReq l k = .ok v → l.lookup k = some v := by
    intro l k v hv
    rw [stdReq] at hv
    cases hl : l.lookup k with
    | none => rw [hl] at hv; cases hv
    | some x => rw [hl] at hv; cases hv; rfl
  simp only [pfStd, bind, Except.bind, pure, Except.pure] at h
  repeat' split at h
  all_goals first
    | (cases h; done)
    | (cases h; exact ⟨ok _ _ _ ‹stdReq sec.z "factor" = _›, ok _ _ _ ‹stdReq sec.orientation "factor" = _›⟩)

/-- C278: with the same random draws, the solution of the particle filter for a dive that is made later and at another
place is the solution moved by the same time and distance.  This also holds for another depth if the deviation of depths
has no factor, and for another heading if the deviation of angles has none, if no fix is used before the first entry of
dead reckoning. -/
theorem C278_moved_partial (m : Elsewhere) (sec : PfSections) (g : PfGains) (draws : Nat → Nat → PfDraws) (u : Nat → ℝ) (n : Nat)
    (dr : List PfReading) (fixes : List PfFix) (h : NoiseAlike m sec dr fixes) :
    filterRun sec g draws u n (dr.map m.reading) (fixes.map m.fix) = (filterRun sec g draws u n dr fixes).map m.solution := by
  obtain ⟨hz, ho, hf⟩ := h
  simp only [filterRun]
  cases pfPrinted sec with
  | error e => rfl
  | ok _ =>
  simp only [bind, Except.bind]
  cases hs : pfStd sec with
  | error e => rfl
  | ok s =>
  simp only
  obtain ⟨h1, h2⟩ := std_of sec s hs
  have hz : m.down = 0 ∨ s.z.1 = 0 := hz.imp id fun h => by rw [h1] at h; exact Option.some.inj h
  have ho : m.turn = 0 ∨ s.ori.1 = 0 := ho.imp id fun h => by rw [h2] at h; exact Option.some.inj h
  cases dr with
  | nil => rfl
  | cons d dr =>
  have e1 : ((d :: dr).map m.reading).map (fun d => (d.t, setMovement d)) = ((d :: dr).map fun d => (d.t, setMovement d)).map (mvD m.delay (mvMove m)) := by
    simp only [List.map_map]
    congr 1
    funext x
    simp [mvD, mvMove, setMovement, Elsewhere.reading]
    ring
  have e2 : (fixes.map m.fix).map (fun f => (f.t, f)) = (fixes.map fun f => (f.t, f)).map (mvX m.delay m.fix) := by
    simp [mvX, Elsewhere.fix]
  have e3 : priorState (m.reading d) = mvState m (priorState d) := by
    simp [priorState, mvState, Elsewhere.reading]
    ring
  have hr := run_mv m.delay (mvState m) (mvMove m) m.fix (pfEnv s g draws u) (fun k v i a => write_mv m s g hz ho _ v a) (advance_mv m)
    (like_mv m g) (fun o => by simp [pfEnv, fixStd, Elsewhere.fix]) n ⟨0, ⟨0, 0, 0⟩, ⟨0, 0, 0⟩, 0⟩ (priorState d)
    ((d :: dr).map fun d => (d.t, setMovement d)) (fixes.map fun f => (f.t, f)) (by
      rcases hf with ⟨a, b⟩ | hf
      · left; simp [mvMove, a, b]
      · right
        intro x hx o ho
        simp only [List.map_cons, List.head?_cons, Option.mem_some_iff] at hx
        obtain ⟨y, hy, rfl⟩ := List.mem_map.mp ho
        subst hx
        exact hf d rfl y hy)
  rw [e1, e2]
  simp only [List.map_cons, e3] at hr ⊢
  rw [hr]
  cases runPf (pfEnv s g draws u) n ⟨0, ⟨0, 0, 0⟩, ⟨0, 0, 0⟩, 0⟩ (priorState d)
      ((d.t, setMovement d) :: dr.map fun d => (d.t, setMovement d)) (fixes.map fun f => (f.t, f)) with
  | error e => rfl
  | ok r =>
    have hp : π ≠ 0 := pi_ne_zero
    simp only [Except.map, pure, Except.pure, Elsewhere.solution, List.map_map, Except.ok.injEq, Prod.mk.injEq]
    refine ⟨?_, ?_⟩
    · congr 1
      funext x
      simp only [Function.comp, mvX, pfPoint, Elsewhere.point, mvState, PfPoint.mk.injEq, V3.mk.injEq, true_and, and_true]
      field_simp
    · congr 1

private theorem rest_depths (d e : PfReading) (f : PfFix) (u : Nat → ℝ) (hd : d.vel = ⟨0, 0, 0⟩) (he : e.vel = ⟨0, 0, 0⟩) (h1 : d.t < f.t) (h2 : e.t < f.t) :
    (filterRun (plainSections (1, 0) (0, 0) (0, 0) (0, 0)) ⟨1, 1, 1⟩ (fun _ _ => ⟨1, ⟨0, 0, 0⟩, ⟨0, 0, 0⟩⟩) u 1 [d, e] [f]).map
      (fun r => r.1.map (·.depth)) = .ok [2 * e.depth, 2 * e.depth] := by
  have p1 : pfPrinted (plainSections (1, 0) (0, 0) (0, 0) (0, 0)) = .ok () := by
    simp [pfPrinted, plainSections, stdReq, bind, Except.bind, List.lookup]
  have p2 : pfStd (plainSections (1, 0) (0, 0) (0, 0) (0, 0)) = .ok ⟨(1, 0), ⟨(0, 0), (0, 0), (0, 0)⟩, (0, 0)⟩ := by
    simp [pfStd, plainSections, stdReq, bind, Except.bind, List.lookup, pure, Except.pure]
  have hk : priorSkip [f.t] [d.t, e.t] = .ok 0 := by
    simp only [priorSkip]
    rw [skipUsbl, dif_neg (by rintro ⟨_, h⟩; exact absurd h (not_lt.mpr h1.le))]
  simp only [filterRun, p1, p2, bind, Except.bind, runPf, List.map_cons, List.map_nil, hk, List.drop_zero]
  rw [pfLoop, if_pos (by exact h1), pfLoop, if_pos (by exact h2), pfLoop]
  simp [pfDr, propagateAll, setPrior, pfEnv, noisyWrite, writeState, advanceState, setMovement, noiseTerm, overwriteLast, pfPoint, hd, he, Except.map,
    pure, Except.pure]
  ring

/-- C278: it is not so at another depth if the deviation of depths has a factor: depths are drawn from a wider range. -/
theorem C278_depth_false : ¬ MovesWithDive := by
  intro h
  have h1 := h ⟨0, 0, 0, 0, 1⟩ (plainSections (1, 0) (0, 0) (0, 0) (0, 0)) ⟨1, 1, 1⟩ (fun _ _ => ⟨1, ⟨0, 0, 0⟩, ⟨0, 0, 0⟩⟩) (fun _ => 0) 1
    [⟨0, 0, 0, 5, ⟨0, 0, 0⟩, ⟨0, 0, 0⟩, 3⟩, ⟨1, 0, 0, 5, ⟨0, 0, 0⟩, ⟨0, 0, 0⟩, 3⟩] [⟨2, 0, 0, 5, ⟨1, 1, 1⟩⟩]
  have h2 := rest_depths ⟨0, 0, 0, 5, ⟨0, 0, 0⟩, ⟨0, 0, 0⟩, 3⟩ ⟨1, 0, 0, 5, ⟨0, 0, 0⟩, ⟨0, 0, 0⟩, 3⟩ ⟨2, 0, 0, 5, ⟨1, 1, 1⟩⟩ (fun _ => 0) rfl rfl
    (by norm_num) (by norm_num)
  have h3 := rest_depths ((⟨0, 0, 0, 0, 1⟩ : Elsewhere).reading ⟨0, 0, 0, 5, ⟨0, 0, 0⟩, ⟨0, 0, 0⟩, 3⟩)
    ((⟨0, 0, 0, 0, 1⟩ : Elsewhere).reading ⟨1, 0, 0, 5, ⟨0, 0, 0⟩, ⟨0, 0, 0⟩, 3⟩) ((⟨0, 0, 0, 0, 1⟩ : Elsewhere).fix ⟨2, 0, 0, 5, ⟨1, 1, 1⟩⟩) (fun _ => 0) rfl rfl
    (by norm_num [Elsewhere.reading, Elsewhere.fix]) (by norm_num [Elsewhere.reading, Elsewhere.fix])
  simp only [List.map_cons, List.map_nil] at h1
  rw [h1] at h3
  cases hr : filterRun (plainSections (1, 0) (0, 0) (0, 0) (0, 0)) ⟨1, 1, 1⟩ (fun _ _ => ⟨1, ⟨0, 0, 0⟩, ⟨0, 0, 0⟩⟩) (fun _ => 0) 1
    [⟨0, 0, 0, 5, ⟨0, 0, 0⟩, ⟨0, 0, 0⟩, 3⟩, ⟨1, 0, 0, 5, ⟨0, 0, 0⟩, ⟨0, 0, 0⟩, 3⟩] [⟨2, 0, 0, 5, ⟨1, 1, 1⟩⟩] with
  | error e => rw [hr] at h2; cases h2
  | ok r =>
    rw [hr] at h2 h3
    simp only [Except.map, Except.ok.injEq, Elsewhere.solution, List.map_map] at h2 h3
    have h4 : r.1.map ((·.depth) ∘ (⟨0, 0, 0, 0, 1⟩ : Elsewhere).point) = (r.1.map (·.depth)).map (· + 1) := by
      simp [Elsewhere.point, Function.comp_def]
    rw [h4, h2] at h3
    norm_num [Elsewhere.reading] at h3

/-- Non-vacuity of `C278_moved_partial`: a dive a day later, somewhere else with another heading, with a fix on the way. -/
example : NoiseAlike ⟨86400, 30, 1000, -200, 5⟩ (plainSections (0, 1) (1, 1) (0, 1) (0, 1))
    [⟨0, 1, 2, 5, ⟨0, 0, 0⟩, ⟨1, 0, 0⟩, 3⟩, ⟨2, 3, 2, 5, ⟨0, 0, 0⟩, ⟨1, 0, 0⟩, 3⟩] [⟨1, 7, 7, 5, ⟨1, 1, 1⟩⟩] :=
  ⟨Or.inr (by simp [plainSections]), Or.inr (by simp [plainSections]), Or.inr (by simp)⟩

end Oplab.Props
