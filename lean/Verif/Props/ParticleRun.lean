import Verif.Props.Particle
import Verif.Props.Rotation
import Verif.Spec.ParticleRun

/-! C227, C228 and C229: what a run of the particle filter reports. -/

namespace Oplab.Props
open Oplab Oplab.Spec Real

section Induction
variable {K : Type} [Field K] [LinearOrder K] [IsStrictOrderedRing K] {α μ ω : Type}

/-- What is left of a particle without its weight. -/
private def core (p : Particle K α) : K × α × List (K × α) := (p.time, p.state, p.traj)

/-- One step of one particle. -/
private def coreStep (env : PfEnv K α μ ω) (k : Nat) (m : μ) (i : Nat) (dt : K) (c : K × α × List (K × α)) :
    K × α × List (K × α) :=
  (c.1 + dt, env.adv dt (env.wr k m i c.2.1),
    overwriteLast c.2.2 (env.wr k m i c.2.1) ++ [(c.1 + dt, env.adv dt (env.wr k m i c.2.1))])

omit [LinearOrder K] [IsStrictOrderedRing K] in
private theorem core_propagate (env : PfEnv K α μ ω) (k : Nat) (m : μ) (dt : K) (ps : List (Particle K α))
    (p : Particle K α) (hp : p ∈ propagateAll (env.wr k m) (env.adv dt) dt ps) :
    ∃ q ∈ ps, ∃ i, core p = coreStep env k m i dt (core q) := by
  rw [propagateAll, List.mem_mapIdx] at hp
  obtain ⟨i, hi, rfl⟩ := hp
  exact ⟨ps[i], List.getElem_mem hi, i, rfl⟩

omit [IsStrictOrderedRing K] in
private theorem core_measure (like : α → K) (ps : List (Particle K α)) (p : Particle K α) (hp : p ∈ pfMeasure like ps) :
    ∃ q ∈ ps, core p = core q := by
  simp only [pfMeasure, normalizeWeights, List.mem_map] at hp
  obtain ⟨q, hq, rfl⟩ := hp
  simp only [reweigh, List.mem_mergeSort, List.mem_map] at hq
  obtain ⟨r, hr, rfl⟩ := hq
  exact ⟨r, hr, rfl⟩

omit [IsStrictOrderedRing K] in
private theorem core_resample (ps r : List (Particle K α)) (u : K) (h : resample ps u = .ok r) (p : Particle K α)
    (hp : p ∈ r) : p ∈ ps := by
  simp only [resample] at h
  cases h1 : resampleIndices (ps.map (·.weight)) u with
  | error e => rw [h1] at h; cases h
  | ok idx =>
    rw [h1] at h
    cases h
    obtain ⟨i, _, hi⟩ := List.mem_filterMap.mp hp
    exact List.mem_of_getElem? hi

omit [IsStrictOrderedRing K] in
/-- What holds of every particle before the first step and is kept by every step holds of every particle at the end. -/
private theorem particle_induct (env : PfEnv K α μ ω)
    (Inv : List (K × μ) → List (K × ω) → μ → K → K × α × List (K × α) → Prop)
    (hdr : ∀ d ds os m T k i c, (∀ o ∈ os.head?, d.1 < o.1) → Inv (d :: ds) os m T c →
      Inv ds os d.2 d.1 (coreStep env k d.2 i (d.1 - T) c))
    (hfix : ∀ d ds o os m T k i c, ¬ d.1 < o.1 → Inv (d :: ds) (o :: os) m T c →
      Inv (d :: ds) os m o.1 (coreStep env k m i (o.1 - T) c)) :
    ∀ (ds : List (K × μ)) (os : List (K × ω)) (s s' : Pf K α μ ω), pfLoop env ds os s = .ok s' →
      (∀ p ∈ s.ps, Inv ds os s.move s.lastT (core p)) → ∃ os', ∀ p ∈ s'.ps, Inv [] os' s'.move s'.lastT (core p) := by
  intro ds os s
  fun_induction pfLoop env ds os s with
  | case1 os s => intro s' h hi; cases h; exact ⟨os, hi⟩
  | case2 d ds s ih =>
    intro s' h hi
    refine ih s' h fun p hp => ?_
    obtain ⟨q, hq, i, e⟩ := core_propagate env _ _ _ _ p hp
    rw [e]
    exact hdr d ds [] s.move s.lastT s.k i _ (by simp) (hi q hq)
  | case3 d ds o os s hlt ih =>
    intro s' h hi
    refine ih s' h fun p hp => ?_
    obtain ⟨q, hq, i, e⟩ := core_propagate env _ _ _ _ p hp
    rw [e]
    exact hdr d ds (o :: os) s.move s.lastT s.k i _ (by simpa using hlt) (hi q hq)
  | case4 d ds o os s hlt ih =>
    intro s' h hi
    cases h1 : pfUsbl env s o with
    | error e => rw [h1] at h; cases h
    | ok s1 =>
      rw [h1] at h
      refine ih s1 s' h ?_
      have hm : s1.move = s.move ∧ s1.lastT = o.1 ∧ ∀ p ∈ s1.ps, ∃ q ∈ s.ps, ∃ i,
          core p = coreStep env s.k s.move i (o.1 - s.lastT) (core q) := by
        unfold pfUsbl at h1
        by_cases hb : env.bad o.2 = true
        · rw [if_pos hb] at h1; cases h1
        rw [if_neg hb] at h1
        dsimp only at h1
        by_cases hr : shouldResample (pfMeasure (env.like o.2)
            (propagateAll (env.wr s.k s.move) (env.adv (o.1 - s.lastT)) (o.1 - s.lastT) s.ps)) = true
        · rw [if_pos hr] at h1
          cases h2 : resample (pfMeasure (env.like o.2)
            (propagateAll (env.wr s.k s.move) (env.adv (o.1 - s.lastT)) (o.1 - s.lastT) s.ps)) (env.u s.k) with
          | error e => rw [h2] at h1; cases h1
          | ok r =>
            rw [h2] at h1
            cases h1
            refine ⟨rfl, rfl, fun p hp => ?_⟩
            obtain ⟨q, hq, e⟩ := core_measure _ _ p (core_resample _ _ _ h2 p hp)
            obtain ⟨q', hq', i, e'⟩ := core_propagate env _ _ _ _ q hq
            exact ⟨q', hq', i, e.trans e'⟩
        · rw [if_neg hr] at h1
          cases h1
          refine ⟨rfl, rfl, fun p hp => ?_⟩
          obtain ⟨q, hq, e⟩ := core_measure _ _ p hp
          obtain ⟨q', hq', i, e'⟩ := core_propagate env _ _ _ _ q hq
          exact ⟨q', hq', i, e.trans e'⟩
      intro p hp
      obtain ⟨q, hq, i, e⟩ := hm.2.2 p hp
      rw [hm.1, hm.2.1, e]
      exact hfix d ds o os s.move s.lastT s.k i _ hlt (hi q hq)

end Induction


/-! ### C227 -/

private theorem rad_deg (x : ℝ) : rad (x * 180 / π) = x := by
  have := pi_ne_zero
  simp only [rad]; field_simp

private theorem chain_step (R : PfPoint → PfPoint → Prop)
    (hR : ∀ x y y', y.t = y'.t → y.north = y'.north → y.east = y'.east → R x y → R x y')
    (tr : List (ℝ × PState)) (T : ℝ) (st w : PState) (new : ℝ × PState) (hlast : tr ≠ [] → tr.getLast? = some (T, st))
    (hx : w.pos.x = st.pos.x) (hy : w.pos.y = st.pos.y) (hc : (tr.map pfPoint).IsChain R)
    (hn : tr ≠ [] → R (pfPoint (T, w)) (pfPoint new)) :
    ((overwriteLast tr w ++ [new]).map pfPoint).IsChain R ∧ (overwriteLast tr w ++ [new]).getLast? = some new := by
  refine ⟨?_, by simp⟩
  rcases List.eq_nil_or_concat tr with rfl | ⟨l, x, rfl⟩
  · simp [overwriteLast]
  · rw [List.concat_eq_append] at hlast hc hn ⊢
    have hxl : x = (T, st) := by simpa using hlast (by simp)
    subst hxl
    have e : overwriteLast (l ++ [(T, st)]) w ++ [new] = l ++ [(T, w), new] := by simp [overwriteLast]
    rw [e]
    rw [List.map_append, List.isChain_append] at hc ⊢
    refine ⟨hc.1, by simpa using hn (by simp), fun a ha b hb => ?_⟩
    simp only [List.map_cons, List.head?_cons, Option.mem_def, Option.some.injEq] at hb
    subst hb
    exact hR a (pfPoint (T, st)) _ (by rfl) (by simp [pfPoint, hx]) (by simp [pfPoint, hy]) (hc.2.2 a ha _ (by simp))

private theorem moves_congr (x y y' : PfPoint) (h1 : y.t = y'.t) (h2 : y.north = y'.north) (h3 : y.east = y'.east)
    (h : MovesTo x y) : MovesTo x y' := by
  unfold MovesTo at *
  rw [← h1, ← h2, ← h3]; exact h

private theorem advance_moves (T dt : ℝ) (w : PState) : MovesTo (pfPoint (T, w)) (pfPoint (T + dt, advanceState dt w)) := by
  constructor <;>
  · simp only [pfPoint, advanceState, northEastDown, rotX, rotY, rotZ, rad_deg]
    ring

/-- A run of the filter seen through its parts. -/
private theorem filterRun_parts (sec : PfSections) (g : PfGains) (draws : Nat → Nat → PfDraws) (u : Nat → ℝ) (n : Nat)
    (dr : List PfReading) (fixes : List PfFix) (points : List PfPoint) (re : List ℝ)
    (h : filterRun sec g draws u n dr fixes = .ok (points, re)) :
    ∃ s d rest skip sf best ps, pfStd sec = .ok s ∧ dr = d :: rest ∧
      priorSkip (fixes.map (·.t)) (dr.map (·.t)) = .ok skip ∧
      pfLoop (pfEnv s g draws u) (dr.map fun d => (d.t, setMovement d)) ((fixes.map fun f => (f.t, f)).drop skip)
        ⟨setPrior n ⟨0, d.t, priorState d, []⟩, ⟨0, ⟨0, 0, 0⟩, ⟨0, 0, 0⟩, 0⟩, d.t, 0, []⟩ = .ok sf ∧
      sf.ps = best :: ps ∧ points = best.traj.map pfPoint := by
  unfold filterRun at h
  cases h1 : pfPrinted sec with
  | error e => rw [h1] at h; cases h
  | ok _ =>
  cases h2 : pfStd sec with
  | error e => rw [h1, h2] at h; cases h
  | ok s =>
  rw [h1, h2] at h
  simp only [bind, Except.bind] at h
  cases dr with
  | nil => cases h
  | cons d rest =>
    dsimp only at h
    cases h3 : runPf (pfEnv s g draws u) n ⟨0, ⟨0, 0, 0⟩, ⟨0, 0, 0⟩, 0⟩ (priorState d)
        ((d :: rest).map fun d => (d.t, setMovement d)) (fixes.map fun f => (f.t, f)) with
    | error e => rw [h3] at h; cases h
    | ok r =>
    rw [h3] at h
    dsimp only [pure, Except.pure] at h
    have hpts : points = r.1.map pfPoint := by
      have := congrArg (fun x : Res (List PfPoint × List ℝ) => x.toOption.map Prod.fst) h
      simpa [Except.toOption] using this.symm
    unfold runPf at h3
    have e1 : (fixes.map fun f => (f.t, f)).map (·.1) = fixes.map (·.t) := by simp
    have e2 : ((d :: rest).map fun d => (d.t, setMovement d)).map (·.1) = (d :: rest).map (·.t) := by simp
    rw [e1, e2] at h3
    cases h4 : priorSkip (fixes.map (·.t)) ((d :: rest).map (·.t)) with
    | error e => rw [h4] at h3; cases h3
    | ok skip =>
    rw [h4] at h3
    simp only [bind, Except.bind] at h3
    cases rest with
    | nil => cases h3
    | cons d' rest =>
      simp only [List.map_cons] at h3 ⊢
      cases h5 : pfLoop (pfEnv s g draws u) ((d.t, setMovement d) :: (d'.t, setMovement d') ::
          rest.map fun d => (d.t, setMovement d)) ((fixes.map fun f => (f.t, f)).drop skip)
          ⟨setPrior n ⟨0, d.t, priorState d, []⟩, ⟨0, ⟨0, 0, 0⟩, ⟨0, 0, 0⟩, 0⟩, d.t, 0, []⟩ with
      | error e => rw [h5] at h3; cases h3
      | ok sf =>
      rw [h5] at h3
      cases h6 : sf.ps with
      | nil => simp only [h6] at h3; cases h3
      | cons best ps =>
        simp only [h6] at h3
        cases h3
        exact ⟨s, d, d' :: rest, skip, sf, best, ps, rfl, rfl, rfl, h5, h6, hpts⟩

/-- C227: in the reported solution the vehicle moves from each point to the next with the velocity and in the direction
reported for the first of them; whatever the noise, the fixes, and the particles drawn. -/
theorem C227_moves (sec : PfSections) (g : PfGains) (draws : Nat → Nat → PfDraws) (u : Nat → ℝ) (n : Nat)
    (dr : List PfReading) (fixes : List PfFix) (points : List PfPoint) (re : List ℝ)
    (h : filterRun sec g draws u n dr fixes = .ok (points, re)) : points.IsChain MovesTo := by
  obtain ⟨s, d, rest, skip, sf, best, ps, _, _, _, h5, h6, rfl⟩ := filterRun_parts sec g draws u n dr fixes points re h
  obtain ⟨os', hi⟩ := particle_induct (pfEnv s g draws u)
    (fun _ _ _ T c => c.1 = T ∧ (c.2.2 ≠ [] → c.2.2.getLast? = some (T, c.2.1)) ∧ (c.2.2.map pfPoint).IsChain MovesTo)
    (fun d ds os m T k i c _ ⟨a1, a2, a3⟩ => by
      obtain ⟨b1, b2⟩ := chain_step MovesTo moves_congr c.2.2 T c.2.1 (noisyWrite s g (draws k i) d.2 c.2.1)
        (T + (d.1 - T), advanceState (d.1 - T) (noisyWrite s g (draws k i) d.2 c.2.1)) a2 rfl rfl a3
        (fun _ => advance_moves T _ _)
      have e : T + (d.1 - T) = d.1 := by ring
      subst a1
      refine ⟨by simp [coreStep], fun _ => ?_, b1⟩
      simp only [coreStep, pfEnv] at b2 ⊢
      rw [b2, e])
    (fun d ds o os m T k i c _ ⟨a1, a2, a3⟩ => by
      obtain ⟨b1, b2⟩ := chain_step MovesTo moves_congr c.2.2 T c.2.1 (noisyWrite s g (draws k i) m c.2.1)
        (T + (o.1 - T), advanceState (o.1 - T) (noisyWrite s g (draws k i) m c.2.1)) a2 rfl rfl a3
        (fun _ => advance_moves T _ _)
      have e : T + (o.1 - T) = o.1 := by ring
      subst a1
      refine ⟨by simp [coreStep], fun _ => ?_, b1⟩
      simp only [coreStep, pfEnv] at b2 ⊢
      rw [b2, e])
    _ _ _ _ h5 (by
      intro p hp
      have := List.eq_of_mem_replicate hp
      subst this
      exact ⟨rfl, fun hne => absurd rfl hne, List.isChain_nil⟩)
  exact (hi best (by rw [h6]; simp)).2.2

private theorem plain_std (z v o xy : ℝ × ℝ) : pfPrinted (plainSections z v o xy) = .ok () ∧
    pfStd (plainSections z v o xy) = .ok ⟨z, ⟨v, v, v⟩, o⟩ := by
  have e1 : ("offset" == "factor") = false := by decide
  have e2 : ("factor_x" == "factor") = false := by decide
  have e3 : ("factor_x" == "offset") = false := by decide
  constructor
  · simp only [pfPrinted, plainSections, stdReq, List.lookup, beq_self_eq_true, e1]
    rfl
  · simp only [pfStd, plainSections, stdReq, List.lookup, beq_self_eq_true, e1, e2, e3]
    rfl

private theorem no_skip (g : PfGains) (n : Nat) (dr : List PfReading) (fixes : List PfFix) (h : FilterData g n dr fixes) :
    priorSkip (fixes.map (·.t)) (dr.map (·.t)) = .ok 0 := by
  obtain ⟨f, fs, rfl⟩ := List.exists_cons_of_ne_nil h.some
  obtain ⟨d, ds, rfl⟩ : ∃ d ds, dr = d :: ds := by
    apply List.exists_cons_of_ne_nil
    rintro rfl
    simpa using h.two
  have hle := h.after f (by simp) d (by simp)
  simp only [List.map_cons, priorSkip]
  rw [skipUsbl, dif_neg (by rintro ⟨_, h⟩; exact absurd h (not_lt.mpr hle.le))]

/-- C227: a run with plain settings succeeds and has a point for every entry of dead reckoning and for every fix taken
before the last of them, in order of time. -/
theorem C227_runs (z v o xy : ℝ × ℝ) (g : PfGains) (draws : Nat → Nat → PfDraws) (u : Nat → ℝ) (n : Nat)
    (dr : List PfReading) (fixes : List PfFix) (h : FilterData g n dr fixes) :
    ∃ points re, filterRun (plainSections z v o xy) g draws u n dr fixes = .ok (points, re) ∧
      Interleaved (dr.map (·.t)) (fixes.map (·.t)) (points.map (·.t)) := by
  obtain ⟨p1, p2⟩ := plain_std z v o xy
  obtain ⟨d, d', ds, rfl⟩ : ∃ d d' ds, dr = d :: d' :: ds := by
    match dr, h.two with
    | d :: d' :: ds, _ => exact ⟨d, d', ds, rfl⟩
  have hpos : ∀ f ∈ fixes, fixStd g f ≠ 0 := by
    intro f hf
    refine mul_ne_zero h.gain (Real.sqrt_ne_zero'.mpr ?_)
    rcases h.uncertain f hf with h1 | h1 | h1 <;> positivity
  obtain ⟨tr, re, hr, hi⟩ := C69_stamps_partial (pfEnv ⟨z, ⟨v, v, v⟩, o⟩ g draws u)
    (fun f p => by
      simp only [pfEnv, fixLike, gaussianPdf]
      positivity) n h.particles ⟨0, ⟨0, 0, 0⟩, ⟨0, 0, 0⟩, 0⟩ (priorState d)
    ((d :: d' :: ds).map fun d => (d.t, setMovement d)) (fixes.map fun f => (f.t, f))
    (by
      rw [List.map_map, List.pairwise_map]
      exact h.sorted.imp fun hab => le_of_lt hab)
    (by
      rw [List.map_map, List.pairwise_map]
      exact h.ordered)
    (by simp) (by simpa using h.some)
    (by
      intro f hf
      obtain ⟨f', hf', rfl⟩ := List.mem_map.mp hf
      simpa [pfEnv] using hpos f' hf')
    (by
      intro f hf e he
      obtain ⟨f', hf', rfl⟩ := List.mem_map.mp (List.mem_of_mem_head? hf)
      simp only [List.map_cons, List.head?_cons, Option.mem_def, Option.some.injEq] at he
      subst he
      exact (h.after f' hf' d (by simp)).le)
  refine ⟨tr.map pfPoint, re.map Prod.fst, ?_, ?_⟩
  · simp only [filterRun, p1, p2, bind, Except.bind, hr]
    rfl
  · have e1 : ((d :: d' :: ds).map fun d => (d.t, setMovement d)).map (·.1) = (d :: d' :: ds).map (·.t) := by simp
    have e2 : (fixes.map fun f => (f.t, f)).map (·.1) = fixes.map (·.t) := by simp
    have e3 : (tr.map pfPoint).map (·.t) = tr.map (·.1) := by simp [pfPoint]
    rw [e1, e2] at hi
    rw [e3]
    exact hi

/-- C69 is false: a fix without uncertainty, taken during dead reckoning, makes the filter fail. -/
theorem C69_exact_fix_false (z v o xy : ℝ × ℝ) (g : PfGains) (draws : Nat → Nat → PfDraws) (u : Nat → ℝ) (n : Nat)
    (d e : PfReading) (f : PfFix) (h1 : d.t < f.t) (h2 : f.t < e.t) (hs : f.std = ⟨0, 0, 0⟩) :
    filterRun (plainSections z v o xy) g draws u n [d, e] [f] = .error .zeroDivision := by
  obtain ⟨p1, p2⟩ := plain_std z v o xy
  have hk : priorSkip [f.t] [d.t, e.t] = .ok 0 := by
    simp only [priorSkip]
    rw [skipUsbl, dif_neg (by rintro ⟨_, h⟩; exact absurd h (not_lt.mpr h1.le))]
  have hb : (pfEnv ⟨z, ⟨v, v, v⟩, o⟩ g draws u).bad f = true := by
    simp [pfEnv, fixStd, hs]
  simp only [filterRun, p1, p2, bind, Except.bind, runPf, List.map_cons, List.map_nil, hk, List.drop_zero]
  rw [pfLoop, if_pos (by exact h1), pfLoop, if_neg (by exact not_lt.mpr h2.le), pfUsbl, if_pos hb]
  rfl

/-- How far a particle is from a fix, squared. -/
def fixGap (f : PfFix) (p : PState) : ℝ := (f.north - p.pos.x) ^ 2 + (f.east - p.pos.y) ^ 2 + (f.depth - p.pos.z) ^ 2

/-- C69: a fix gives a particle that is nearer to it the larger weight: the weight is the normal density of the distance, for the
deviation of the fix (of the three axes together) times its gain. -/
theorem C69_weight (g : PfGains) (f : PfFix) (p q : PState) (hg : 0 < g.usbl) (hs : 0 < f.std.x ^ 2 + f.std.y ^ 2 + f.std.z ^ 2) :
    let var := g.usbl ^ 2 * (f.std.x ^ 2 + f.std.y ^ 2 + f.std.z ^ 2)
    fixLike g f p = exp (-(fixGap f p / (2 * var))) / √(2 * π * var) ∧ 0 < fixLike g f p ∧
      (fixLike g f q < fixLike g f p ↔ fixGap f p < fixGap f q) := by
  intro var
  have hv : 0 < var := by positivity
  have e1 : fixStd g f ^ 2 = var := by
    rw [fixStd, mul_pow, Real.sq_sqrt hs.le]
  have e : ∀ p, fixLike g f p = exp (-(fixGap f p / (2 * var))) / √(2 * π * var) := by
    intro p
    have h0 : 0 ≤ fixGap f p := by rw [fixGap]; positivity
    have e2 : (0 - √(fixGap f p)) ^ 2 = fixGap f p := by rw [zero_sub, neg_sq, Real.sq_sqrt h0]
    rw [fixLike, gaussianPdf, e1, show (f.north - p.pos.x) ^ 2 + (f.east - p.pos.y) ^ 2 + (f.depth - p.pos.z) ^ 2 = fixGap f p from rfl, e2]
    congr 2
    field_simp
  have hr : 0 < √(2 * π * var) := Real.sqrt_pos.2 (by have := Real.pi_pos; positivity)
  refine ⟨e p, by rw [e p]; positivity, ?_⟩
  rw [e p, e q, div_lt_div_iff_of_pos_right hr, Real.exp_lt_exp, neg_lt_neg_iff, div_lt_div_iff_of_pos_right (by positivity)]

example : (0 : ℝ) < (⟨1, 1, 2⟩ : PfGains).usbl ∧ fixGap ⟨0, 0, 0, 0, ⟨1, 1, 1⟩⟩ ⟨⟨1, 0, 0⟩, ⟨0, 0, 0⟩, ⟨0, 0, 0⟩, 0⟩ <
    fixGap ⟨0, 0, 0, 0, ⟨1, 1, 1⟩⟩ ⟨⟨0, 0, 2⟩, ⟨0, 0, 0⟩, ⟨0, 0, 0⟩, 0⟩ := by
  norm_num [fixGap]

/-! ### C228 -/

private theorem quiet_write (sec : PfSections) (s : PfStd) (hs : pfStd sec = .ok s) (g : PfGains)
    (draws : Nat → Nat → PfDraws) (h : NoNoise sec draws) (k i : Nat) (m : PMove) (p : PState) :
    noisyWrite s g (draws k i) m p = ⟨⟨p.pos.x, p.pos.y, m.depth⟩, m.rpy, m.vel, p.alt⟩ := by
  rcases h with h | ⟨xy, rfl⟩
  · rw [h]
    simp [noisyWrite, noiseTerm, writeState]
  · rw [(plain_std _ _ _ _).2] at hs
    cases hs
    simp [noisyWrite, noiseTerm, writeState]

/-- What is known of a particle in a run without noise. -/
private structure QuietInv (dr : List PfReading) (alt : ℝ) (ds : List (ℝ × PMove)) (os : List (ℝ × PfFix)) (m : PMove)
    (T : ℝ) (c : ℝ × PState × List (ℝ × PState)) : Prop where
  time : c.1 = T
  last : c.2.2 ≠ [] → c.2.2.getLast? = some (T, c.2.1)
  chain : (c.2.2.map pfPoint).IsChain
    (fun a b => ∃ d, LatestAt dr b.t d ∧ Reports a d ∧ a.depth = d.depth)
  alts : c.2.1.alt = alt ∧ ∀ x ∈ c.2.2, x.2.alt = alt
  start : c.2.2 ≠ [] → ∃ x, c.2.2.head? = some x ∧ ∀ d ∈ dr.head?, x.1 = d.t ∧ x.2.pos.x = d.north ∧ x.2.pos.y = d.east
  prior : c.2.2 = [] → ∀ d ∈ dr.head?, T = d.t ∧ c.2.1.pos.x = d.north ∧ c.2.1.pos.y = d.east
  split : ∃ done rem, dr = done ++ rem ∧ ds = rem.map (fun d => (d.t, setMovement d)) ∧
    (c.2.2 = [] ∧ done = [] ∨ c.2.2 ≠ [] ∧ ∃ d, done.getLast? = some d ∧ m = setMovement d ∧ d.t ≤ T ∧
      (∀ r ∈ rem, T < r.t) ∧ c.2.1.rpy = m.rpy ∧ c.2.1.vel = m.vel)
  ordered : os.Pairwise fun a b => a.1 ≤ b.1
  later : ∀ o ∈ os, T ≤ o.1
  apart : ∀ o ∈ os, ∀ d ∈ dr, d.t ≠ o.1
  after : ∀ o ∈ os, ∀ d ∈ dr.head?, d.t < o.1

private theorem reports_written (T : ℝ) (r : PfReading) (p : PState) (x y z a : ℝ)
    (hp : p = ⟨⟨x, y, z⟩, (setMovement r).rpy, (setMovement r).vel, a⟩) : Reports (pfPoint (T, p)) r := by
  subst hp
  have := pi_ne_zero
  constructor
  · simp only [pfPoint, setMovement]
    obtain ⟨_, _, _, _, ⟨a, b, c⟩, _, _⟩ := r
    simp only [V3.mk.injEq]
    refine ⟨?_, ?_, ?_⟩ <;> field_simp
  · rfl

private theorem overwrite_mem (tr : List (ℝ × PState)) (w : PState) (x : ℝ × PState) (hx : x ∈ overwriteLast tr w) :
    x ∈ tr ∨ x.2 = w := by
  rcases List.eq_nil_or_concat tr with rfl | ⟨l, y, rfl⟩
  · simp [overwriteLast] at hx
  · rw [List.concat_eq_append] at hx ⊢
    simp only [overwriteLast, List.getLast?_concat, List.dropLast_concat, List.mem_append, List.mem_singleton] at hx ⊢
    rcases hx with h | rfl
    · exact Or.inl (Or.inl h)
    · exact Or.inr rfl

private theorem overwrite_head (tr : List (ℝ × PState)) (T : ℝ) (st w : PState)
    (hlast : tr ≠ [] → tr.getLast? = some (T, st)) (hne : tr ≠ []) (x : ℝ × PState) (hx : tr.head? = some x)
    (h1 : w.pos.x = st.pos.x) (h2 : w.pos.y = st.pos.y) :
    ∃ y, (overwriteLast tr w).head? = some y ∧ y.1 = x.1 ∧ y.2.pos.x = x.2.pos.x ∧ y.2.pos.y = x.2.pos.y := by
  rcases List.eq_nil_or_concat tr with rfl | ⟨l, z, rfl⟩
  · exact absurd rfl hne
  · rw [List.concat_eq_append] at hlast hx ⊢
    have hz : z = (T, st) := by simpa using hlast (by simp)
    subst hz
    have e : overwriteLast (l ++ [(T, st)]) w = l ++ [(T, w)] := by simp [overwriteLast]
    rw [e]
    cases l with
    | nil =>
      simp only [List.nil_append, List.head?_cons, Option.some.injEq] at hx ⊢
      subst hx
      exact ⟨_, rfl, rfl, h1, h2⟩
    | cons a l =>
      simp only [List.cons_append, List.head?_cons, Option.some.injEq] at hx ⊢
      subst hx
      exact ⟨_, rfl, rfl, rfl, rfl⟩

/-- A step at time `T'` with the entry `r`. -/
private theorem quiet_step (dr : List PfReading) (alt : ℝ) (ds : List (ℝ × PMove)) (os : List (ℝ × PfFix)) (m : PMove)
    (T T' : ℝ) (c c' : ℝ × PState × List (ℝ × PState)) (h : QuietInv dr alt ds os m T c) (r : PfReading)
    (hl : LatestAt dr T' r) (h0 : c.2.2 = [] → T' = T)
    (hc' : c' = (c.1 + (T' - T),
      advanceState (T' - T) ⟨⟨c.2.1.pos.x, c.2.1.pos.y, (setMovement r).depth⟩, (setMovement r).rpy, (setMovement r).vel, c.2.1.alt⟩,
      overwriteLast c.2.2 ⟨⟨c.2.1.pos.x, c.2.1.pos.y, (setMovement r).depth⟩, (setMovement r).rpy, (setMovement r).vel, c.2.1.alt⟩ ++
        [(c.1 + (T' - T), advanceState (T' - T) ⟨⟨c.2.1.pos.x, c.2.1.pos.y, (setMovement r).depth⟩, (setMovement r).rpy,
          (setMovement r).vel, c.2.1.alt⟩)])) :
    c'.1 = T' ∧ c'.2.2 ≠ [] ∧ c'.2.2.getLast? = some (T', c'.2.1) ∧
    (c'.2.2.map pfPoint).IsChain (fun a b => ∃ d, LatestAt dr b.t d ∧ Reports a d ∧ a.depth = d.depth) ∧
    (c'.2.1.alt = alt ∧ ∀ x ∈ c'.2.2, x.2.alt = alt) ∧
    (∃ x, c'.2.2.head? = some x ∧ ∀ d ∈ dr.head?, x.1 = d.t ∧ x.2.pos.x = d.north ∧ x.2.pos.y = d.east) ∧
    c'.2.1.rpy = (setMovement r).rpy ∧ c'.2.1.vel = (setMovement r).vel := by
  have ht : c.1 + (T' - T) = T' := by rw [h.time]; ring
  rw [ht] at hc'
  generalize hw : (⟨⟨c.2.1.pos.x, c.2.1.pos.y, (setMovement r).depth⟩, (setMovement r).rpy, (setMovement r).vel, c.2.1.alt⟩ :
    PState) = w at hc'
  have hwx : w.pos.x = c.2.1.pos.x := by rw [← hw]
  have hwy : w.pos.y = c.2.1.pos.y := by rw [← hw]
  have hwa : w.alt = alt := by rw [← hw]; exact h.alts.1
  obtain ⟨b1, b2⟩ := chain_step (fun a b => ∃ d, LatestAt dr b.t d ∧ Reports a d ∧ a.depth = d.depth)
    (fun x y y' h1 _ _ hxy => by
      show ∃ d, LatestAt dr y'.t d ∧ Reports x d ∧ x.depth = d.depth
      rw [← h1]; exact hxy) c.2.2 T c.2.1 w (T', advanceState (T' - T) w) h.last hwx hwy h.chain
    (fun _ => ⟨r, hl, reports_written T r w _ _ _ _ hw.symm, by rw [← hw]; rfl⟩)
  subst hc'
  refine ⟨rfl, by simp, b2, b1, ⟨hwa, fun x hx => ?_⟩, ?_, by rw [← hw]; rfl, by rw [← hw]; rfl⟩
  · rcases List.mem_append.mp hx with hx | hx
    · rcases overwrite_mem _ _ _ hx with h1 | h1
      · exact h.alts.2 x h1
      · rw [h1]; exact hwa
    · rw [List.mem_singleton.mp hx]; exact hwa
  · by_cases hne : c.2.2 = []
    · have e : T' - T = 0 := by rw [h0 hne]; ring
      refine ⟨(T', advanceState (T' - T) w), by rw [hne]; rfl, fun d hd => ?_⟩
      obtain ⟨g1, g2, g3⟩ := h.prior hne d hd
      refine ⟨by rw [h0 hne, g1], ?_, ?_⟩
      · simp only [advanceState, e, hwx, g2]; ring
      · simp only [advanceState, e, hwy, g3]; ring
    · obtain ⟨x, hx, hxd⟩ := h.start hne
      obtain ⟨y, hy, y1, y2, y3⟩ := overwrite_head c.2.2 T c.2.1 w h.last hne x hx hwx hwy
      refine ⟨y, ?_, fun d hd => ?_⟩
      · rw [List.head?_append, hy]; rfl
      · rw [y1, y2, y3]; exact hxd d hd

private theorem quiet_dr (dr : List PfReading) (hsort : dr.Pairwise fun a b => a.t < b.t) (alt : ℝ) (d : ℝ × PMove)
    (ds : List (ℝ × PMove)) (os : List (ℝ × PfFix)) (m : PMove) (T : ℝ) (c c' : ℝ × PState × List (ℝ × PState))
    (hlt : ∀ o ∈ os.head?, d.1 < o.1) (h : QuietInv dr alt (d :: ds) os m T c)
    (hc' : ∀ w, w = (⟨⟨c.2.1.pos.x, c.2.1.pos.y, d.2.depth⟩, d.2.rpy, d.2.vel, c.2.1.alt⟩ : PState) →
      c' = (c.1 + (d.1 - T), advanceState (d.1 - T) w,
        overwriteLast c.2.2 w ++ [(c.1 + (d.1 - T), advanceState (d.1 - T) w)])) :
    QuietInv dr alt ds os d.2 d.1 c' := by
  obtain ⟨done, rem, e1, e2, e3⟩ := h.split
  obtain ⟨r, rem, rfl⟩ : ∃ r rem', rem = r :: rem' := by
    cases rem with
    | nil => simp at e2
    | cons r rem => exact ⟨r, rem, rfl⟩
  simp only [List.map_cons, List.cons.injEq] at e2
  obtain ⟨rfl, rfl⟩ := e2
  have hs := hsort
  rw [e1, List.pairwise_append, List.pairwise_cons] at hs
  obtain ⟨_, ⟨hrem, _⟩, hdone⟩ := hs
  have hlat : LatestAt dr r.t r := by
    refine ⟨by rw [e1]; simp, le_refl _, fun e _ he => he⟩
  have h0 : c.2.2 = [] → r.t = T := by
    intro hne
    rcases e3 with ⟨_, rfl⟩ | ⟨g, _⟩
    · exact ((h.prior hne r (by rw [e1]; simp)).1).symm
    · exact absurd hne g
  obtain ⟨q1, q2, q3, q4, q5, q6, q7, q8⟩ := quiet_step dr alt _ os m T r.t c c' h r hlat h0 (hc' _ rfl)
  refine ⟨q1, fun _ => q3, q4, q5, fun _ => q6, fun hne => absurd hne q2, ?_, h.ordered, ?_, h.apart, h.after⟩
  · refine ⟨done ++ [r], rem, by rw [e1]; simp, rfl, Or.inr ⟨q2, r, by simp, rfl, le_refl _, hrem, q7, q8⟩⟩
  · intro o ho
    cases os with
    | nil => simp at ho
    | cons o1 os =>
      have h1 := hlt o1 (by simp)
      rcases List.mem_cons.mp ho with rfl | ho
      · exact h1.le
      · exact h1.le.trans ((List.pairwise_cons.mp h.ordered).1 o ho)

private theorem quiet_fix (dr : List PfReading) (hsort : dr.Pairwise fun a b => a.t < b.t) (alt : ℝ) (d : ℝ × PMove)
    (ds : List (ℝ × PMove)) (o : ℝ × PfFix) (os : List (ℝ × PfFix)) (m : PMove) (T : ℝ)
    (c c' : ℝ × PState × List (ℝ × PState))
    (hlt : ¬ d.1 < o.1) (h : QuietInv dr alt (d :: ds) (o :: os) m T c)
    (hc' : ∀ w, w = (⟨⟨c.2.1.pos.x, c.2.1.pos.y, m.depth⟩, m.rpy, m.vel, c.2.1.alt⟩ : PState) →
      c' = (c.1 + (o.1 - T), advanceState (o.1 - T) w,
        overwriteLast c.2.2 w ++ [(c.1 + (o.1 - T), advanceState (o.1 - T) w)])) :
    QuietInv dr alt (d :: ds) os m o.1 c' := by
  obtain ⟨done, rem, e1, e2, e3⟩ := h.split
  obtain ⟨r, rem, rfl⟩ : ∃ r rem', rem = r :: rem' := by
    cases rem with
    | nil => simp at e2
    | cons r rem => exact ⟨r, rem, rfl⟩
  simp only [List.map_cons, List.cons.injEq] at e2
  obtain ⟨rfl, rfl⟩ := e2
  dsimp only at hlt
  have hs := hsort
  rw [e1, List.pairwise_append, List.pairwise_cons] at hs
  obtain ⟨hd1, ⟨hrem, _⟩, hdone⟩ := hs
  have hor : o.1 < r.t := by
    rcases lt_or_eq_of_le (not_lt.mp hlt) with g | g
    · exact g
    · exact absurd g.symm (h.apart o (by simp) r (by rw [e1]; simp))
  rcases e3 with ⟨g1, rfl⟩ | ⟨g1, x, x1, rfl, x3, x4, x5, x6⟩
  · exact absurd (h.after o (by simp) r (by rw [e1]; simp)) hlt
  have hxd : x ∈ done := List.mem_of_getLast? x1
  have hTo := h.later o (by simp)
  have hlat : LatestAt dr o.1 x := by
    refine ⟨by rw [e1]; simp [hxd], x3.trans hTo, fun e he heo => ?_⟩
    rw [e1] at he
    rcases List.mem_append.mp he with he | he
    · obtain ⟨l, rfl⟩ : ∃ l, done = l ++ [x] := by
        obtain ⟨l, hl⟩ := List.getLast?_eq_some_iff.mp x1
        exact ⟨l, hl⟩
      rcases List.mem_append.mp he with he | he
      · exact ((List.pairwise_append.mp hd1).2.2 e he x (by simp)).le
      · rw [List.mem_singleton.mp he]
    · exfalso
      rcases List.mem_cons.mp he with rfl | he
      · linarith
      · have := hrem e he
        linarith
  obtain ⟨q1, q2, q3, q4, q5, q6, q7, q8⟩ := quiet_step dr alt _ _ _ T o.1 c c' h x hlat (fun hne => absurd hne g1) (hc' _ rfl)
  refine ⟨q1, fun _ => q3, q4, q5, fun _ => q6, fun hne => absurd hne q2, ?_, (List.pairwise_cons.mp h.ordered).2, ?_,
    fun o' ho' => h.apart o' (by simp [ho']), fun o' ho' => h.after o' (by simp [ho'])⟩
  · refine ⟨done, r :: rem, e1, rfl, Or.inr ⟨q2, x, x1, rfl, x3.trans hTo, ?_, q7, q8⟩⟩
    intro e he
    rcases List.mem_cons.mp he with rfl | he
    · exact hor
    · exact hor.trans (hrem e he)
  · intro o' ho'
    exact (List.pairwise_cons.mp h.ordered).1 o' ho'

private theorem quiet_run (sec : PfSections) (g : PfGains) (draws : Nat → Nat → PfDraws) (u : Nat → ℝ) (n : Nat)
    (dr : List PfReading) (fixes : List PfFix) (points : List PfPoint) (re : List ℝ) (hq : NoNoise sec draws)
    (hf : FilterData g n dr fixes) (h : filterRun sec g draws u n dr fixes = .ok (points, re)) :
    ∃ d rest tr st T m os', dr = d :: rest ∧ points = tr.map pfPoint ∧ QuietInv dr d.alt [] os' m T (T, st, tr) := by
  obtain ⟨s, d, rest, skip, sf, best, ps, h2, rfl, h4, h5, h6, rfl⟩ := filterRun_parts sec g draws u n dr fixes points re h
  rw [no_skip g n _ fixes hf] at h4
  cases h4
  rw [List.drop_zero] at h5
  obtain ⟨os', hi⟩ := particle_induct (pfEnv s g draws u) (QuietInv (d :: rest) d.alt)
    (fun e es os m T k i c hlt hinv => quiet_dr _ hf.sorted _ e es os m T c _ hlt hinv (fun w hw => by
      rw [hw, ← quiet_write sec s h2 g draws hq k i e.2 c.2.1]; rfl))
    (fun e es o os m T k i c hlt hinv => quiet_fix _ hf.sorted _ e es o os m T c _ hlt hinv (fun w hw => by
      rw [hw, ← quiet_write sec s h2 g draws hq k i m c.2.1]; rfl))
    _ _ _ _ h5 (by
      intro p hp
      have := List.eq_of_mem_replicate hp
      subst this
      refine ⟨rfl, fun hne => absurd rfl hne, List.isChain_nil, ⟨rfl, by simp [core]⟩, fun hne => absurd rfl hne, ?_, ?_, ?_, ?_, ?_, ?_⟩
      · intro _ e he
        simp only [List.head?_cons, Option.mem_def, Option.some.injEq] at he
        subst he
        exact ⟨rfl, rfl, rfl⟩
      · exact ⟨[], d :: rest, rfl, rfl, Or.inl ⟨rfl, rfl⟩⟩
      · rw [List.pairwise_map]; exact hf.ordered
      · intro o ho
        obtain ⟨f, hfm, rfl⟩ := List.mem_map.mp ho
        exact (hf.after f hfm d (by simp)).le
      · intro o ho
        obtain ⟨f, hfm, rfl⟩ := List.mem_map.mp ho
        exact hf.apart f hfm
      · intro o ho
        obtain ⟨f, hfm, rfl⟩ := List.mem_map.mp ho
        exact hf.after f hfm)
  have hb := hi best (by rw [h6]; simp)
  have ht := hb.time
  refine ⟨d, rest, best.traj, best.state, sf.lastT, sf.move, os', rfl, rfl, ?_⟩
  rw [← ht] at hb ⊢
  exact hb

/-- C228, partial: without noise every point of the solution but the last reports the attitude, velocity and depth measured
last before the *next* point; only the last reports those of its own time.  The altitude is that of the first entry
throughout. -/
theorem C228_next_partial (sec : PfSections) (g : PfGains) (draws : Nat → Nat → PfDraws) (u : Nat → ℝ) (n : Nat)
    (dr : List PfReading) (fixes : List PfFix) (points : List PfPoint) (re : List ℝ) (hq : NoNoise sec draws)
    (hf : FilterData g n dr fixes) (h : filterRun sec g draws u n dr fixes = .ok (points, re)) :
    points.IsChain (fun a b => ∃ d, LatestAt dr b.t d ∧ Reports a d ∧ a.depth = d.depth) ∧
    (∀ p ∈ points.getLast?, ∃ d, LatestAt dr p.t d ∧ Reports p d) ∧
    ∀ p ∈ points, ∀ d ∈ dr.head?, p.alt = d.alt := by
  obtain ⟨d, rest, tr, st, T, m, os', rfl, rfl, hi⟩ := quiet_run sec g draws u n dr fixes points re hq hf h
  refine ⟨hi.chain, fun p hp => ?_, fun p hp e he => ?_⟩
  · have hne : tr ≠ [] := by rintro rfl; simp at hp
    have hl := hi.last hne
    simp only at hl
    rw [List.getLast?_map, hl] at hp
    simp only [Option.map_some, Option.mem_def, Option.some.injEq] at hp
    subst hp
    obtain ⟨done, rem, e1, e2, e3⟩ := hi.split
    have hrem : rem = [] := by simpa using e2.symm
    subst hrem
    rcases e3 with ⟨g1, _⟩ | ⟨_, x, x1, rfl, x3, _, x5, x6⟩
    · exact absurd g1 hne
    simp only [List.append_nil] at e1
    subst e1
    refine ⟨x, ⟨List.mem_of_getLast? x1, x3, fun e he _ => ?_⟩, ?_⟩
    · obtain ⟨l, hl'⟩ := List.getLast?_eq_some_iff.mp x1
      rw [hl'] at he
      rcases List.mem_append.mp he with he | he
      · have := hf.sorted
        rw [hl', List.pairwise_append] at this
        exact (this.2.2 e he x (by simp)).le
      · rw [List.mem_singleton.mp he]
    · refine reports_written T x st st.pos.x st.pos.y st.pos.z st.alt ?_
      simp only at x5 x6
      rw [← x5, ← x6]
  · simp only [List.head?_cons, Option.mem_def, Option.some.injEq] at he
    subst he
    obtain ⟨x, hx, rfl⟩ := List.mem_map.mp hp
    exact hi.alts.2 x hx

private theorem chain_all {α : Type} (R : α → α → Prop) (P : α → Prop) (hR : ∀ a b, R a b → P a → P b) :
    ∀ (l : List α), l.IsChain R → (∀ a ∈ l.head?, P a) → ∀ x ∈ l, P x
  | [], _, _, x, hx => by simp at hx
  | [a], _, h, x, hx => by
    rw [List.mem_singleton.mp hx]; exact h a (by simp)
  | a :: b :: l, hc, h, x, hx => by
    rw [List.isChain_cons_cons] at hc
    have ha := h a (by simp)
    rcases List.mem_cons.mp hx with rfl | hx
    · exact ha
    · exact chain_all R P hR (b :: l) hc.2 (fun y hy => by
        simp only [List.head?_cons, Option.mem_def, Option.some.injEq] at hy
        subst hy
        exact hR a b hc.1 ha) x hx

/-- C227: the solution begins where dead reckoning does. -/
theorem C227_start (sec : PfSections) (g : PfGains) (draws : Nat → Nat → PfDraws) (u : Nat → ℝ) (n : Nat)
    (dr : List PfReading) (fixes : List PfFix) (points : List PfPoint) (re : List ℝ) (hq : NoNoise sec draws)
    (hf : FilterData g n dr fixes) (h : filterRun sec g draws u n dr fixes = .ok (points, re)) :
    ∀ p ∈ points.head?, ∀ d ∈ dr.head?, p.t = d.t ∧ p.north = d.north ∧ p.east = d.east := by
  obtain ⟨d, rest, tr, st, T, m, os', rfl, rfl, hi⟩ := quiet_run sec g draws u n dr fixes points re hq hf h
  intro p hp e he
  have hne : tr ≠ [] := by rintro rfl; simp at hp
  obtain ⟨x, hx, hxd⟩ := hi.start hne
  simp only at hx
  rw [List.head?_map, hx] at hp
  simp only [Option.map_some, Option.mem_def, Option.some.injEq] at hp
  subst hp
  exact hxd e he

/-- C227: without noise the filter finds the path of a vehicle that keeps its velocity (north and east); for every number
of particles, all fixes, right or wrong, and all draws. -/
theorem C227_straight (sec : PfSections) (g : PfGains) (draws : Nat → Nat → PfDraws) (u : Nat → ℝ) (n : Nat)
    (dr : List PfReading) (fixes : List PfFix) (points : List PfPoint) (re : List ℝ) (hq : NoNoise sec draws)
    (hf : FilterData g n dr fixes) (h : filterRun sec g draws u n dr fixes = .ok (points, re)) (vn ve : ℝ)
    (hv : ∀ d ∈ dr, (northEastDown d.rpy d.vel).x = vn ∧ (northEastDown d.rpy d.vel).y = ve) :
    ∀ p ∈ points, ∀ d ∈ dr.head?, p.north = d.north + (p.t - d.t) * vn ∧ p.east = d.east + (p.t - d.t) * ve := by
  have h1 := C227_moves sec g draws u n dr fixes points re h
  have h2 := (C228_next_partial sec g draws u n dr fixes points re hq hf h).1
  have h3 := C227_start sec g draws u n dr fixes points re hq hf h
  intro p hp d hd
  have hc : points.IsChain (fun a b => MovesTo a b ∧ ∃ d, LatestAt dr b.t d ∧ Reports a d ∧ a.depth = d.depth) := by
    rw [List.isChain_iff_getElem] at h1 h2 ⊢
    exact fun i hi => ⟨h1 i hi, h2 i hi⟩
  refine chain_all _ (fun p => p.north = d.north + (p.t - d.t) * vn ∧ p.east = d.east + (p.t - d.t) * ve) ?_ points hc ?_ p hp
  · rintro a b ⟨⟨m1, m2⟩, r, ⟨hr, _⟩, ⟨r1, r2⟩, _⟩ ⟨g1, g2⟩
    obtain ⟨v1, v2⟩ := hv r hr
    rw [← r1, ← r2] at v1 v2
    rw [m1, m2, v1, v2, g1, g2]
    constructor <;> ring
  · intro a ha
    obtain ⟨s1, s2, s3⟩ := h3 a ha d hd
    rw [s1, s2, s3]
    constructor <;> ring

/-- C228, partial: attitudes and velocities are right if they do not change. -/
theorem C228_steady_partial (sec : PfSections) (g : PfGains) (draws : Nat → Nat → PfDraws) (u : Nat → ℝ) (n : Nat)
    (dr : List PfReading) (fixes : List PfFix) (points : List PfPoint) (re : List ℝ) (hq : NoNoise sec draws)
    (hf : FilterData g n dr fixes) (h : filterRun sec g draws u n dr fixes = .ok (points, re))
    (hs : ∀ d ∈ dr, ∀ e ∈ dr, d.rpy = e.rpy ∧ d.vel = e.vel) : ReportsThen dr points := by
  obtain ⟨h1, h2, _⟩ := C228_next_partial sec g draws u n dr fixes points re hq hf h
  intro p hp d hd
  have hx : ∃ e ∈ dr, Reports p e := by
    obtain ⟨i, hi, rfl⟩ := List.mem_iff_getElem.mp hp
    rw [List.isChain_iff_getElem] at h1
    by_cases hl : i + 1 < points.length
    · obtain ⟨e, he, hr, _⟩ := h1 i hl
      exact ⟨e, he.1, hr⟩
    · obtain ⟨e, he, hr⟩ := h2 points[i] (by
        rw [List.getLast?_eq_getElem?, Option.mem_def, List.getElem?_eq_some_iff]
        exact ⟨by omega, by congr 1; omega⟩)
      exact ⟨e, he.1, hr⟩
  obtain ⟨e, he, r1, r2⟩ := hx
  obtain ⟨s1, s2⟩ := hs e he d hd.1
  exact ⟨r1.trans s1, r2.trans s2⟩

private def turning : List PfReading :=
  [⟨0, 0, 0, 5, ⟨0, 0, 0⟩, ⟨0, 0, 0⟩, 3⟩, ⟨1, 0, 0, 5, ⟨0, 0, 90⟩, ⟨0, 0, 0⟩, 3⟩]

private def lateFix : List PfFix := [⟨2, 0, 0, 5, ⟨1, 1, 1⟩⟩]

private theorem turning_data : FilterData ⟨1, 1, 1⟩ 100 turning lateFix where
  particles := by norm_num
  two := by simp [turning]
  sorted := by simp [turning]
  some := by simp [lateFix]
  ordered := by simp [lateFix]
  after := by simp [turning, lateFix]
  apart := by simp [turning, lateFix]
  gain := by norm_num
  uncertain := by simp [lateFix]

/-- C228 is false: a vehicle that heads north at time 0 and east at time 1 is reported to head east at time 0. -/
theorem C228_attitude_false : ¬ ∀ (sec : PfSections) (g : PfGains) (draws : Nat → Nat → PfDraws) (u : Nat → ℝ) (n : Nat)
    (dr : List PfReading) (fixes : List PfFix) (points : List PfPoint) (re : List ℝ), NoNoise sec draws →
    FilterData g n dr fixes → filterRun sec g draws u n dr fixes = .ok (points, re) → ReportsThen dr points := by
  intro hall
  have hq : NoNoise (plainSections (0, 0) (0, 0) (0, 0) (0, 0)) (fun _ _ => ⟨0, ⟨0, 0, 0⟩, ⟨0, 0, 0⟩⟩) := Or.inl fun _ _ => rfl
  obtain ⟨points, re, hr, hi⟩ := C227_runs (0, 0) (0, 0) (0, 0) (0, 0) ⟨1, 1, 1⟩ (fun _ _ => ⟨0, ⟨0, 0, 0⟩, ⟨0, 0, 0⟩⟩)
    (fun _ => 1 / 2) 100 turning lateFix turning_data
  obtain ⟨h1, _, _⟩ := C228_next_partial _ _ _ _ _ _ _ _ _ hq turning_data hr
  have hc : (points.map (·.t)).Perm [0, 1] := by
    have := hi.complete
    simpa [turning, lateFix] using this
  have hlen : points.length = 2 := by simpa using hc.length_eq
  obtain ⟨a, b, rfl⟩ := List.length_eq_two.mp hlen
  have hs := hi.sorted
  simp only [List.map_cons, List.map_nil, List.pairwise_cons, List.mem_singleton, forall_eq] at hs
  have ha : a.t = 0 ∨ a.t = 1 := by simpa using hc.mem_iff.mp (List.mem_map_of_mem (f := (·.t)) (by simp : a ∈ [a, b]))
  have hb : b.t = 0 ∨ b.t = 1 := by simpa using hc.mem_iff.mp (List.mem_map_of_mem (f := (·.t)) (by simp : b ∈ [a, b]))
  have h0 : (0 : ℝ) = a.t ∨ (0 : ℝ) = b.t := by
    simpa using hc.mem_iff.mpr (by simp : (0 : ℝ) ∈ [0, 1])
  have h1' : (1 : ℝ) = a.t ∨ (1 : ℝ) = b.t := by
    simpa using hc.mem_iff.mpr (by simp : (1 : ℝ) ∈ [0, 1])
  have hat : a.t = 0 := by
    rcases ha with e | e
    · exact e
    · rcases h0 with f | f
      · exact f.symm
      · have := hs.1; rw [e, ← f] at this; norm_num at this
  have hbt : b.t = 1 := by
    rcases h1' with f | f
    · rw [hat] at f; norm_num at f
    · exact f.symm
  rw [List.isChain_pair] at h1
  obtain ⟨d, ⟨hd1, hd2, hd3⟩, ⟨hd4, _⟩, _⟩ := h1
  have hd : d = ⟨1, 0, 0, 5, ⟨0, 0, 90⟩, ⟨0, 0, 0⟩, 3⟩ := by
    simp only [turning, List.mem_cons, List.not_mem_nil, or_false] at hd1
    rcases hd1 with rfl | rfl
    · have := hd3 ⟨1, 0, 0, 5, ⟨0, 0, 90⟩, ⟨0, 0, 0⟩, 3⟩ (by simp [turning]) (by rw [hbt])
      norm_num at this
    · rfl
  have h2 := hall _ _ _ _ _ _ _ _ _ hq turning_data hr a (by simp) ⟨0, 0, 0, 5, ⟨0, 0, 0⟩, ⟨0, 0, 0⟩, 3⟩
    ⟨by simp [turning], by rw [hat], fun e he het => by rw [hat] at het; exact het⟩
  have h3 := h2.1.symm.trans hd4
  rw [hd] at h3
  simp at h3

/-- Non-vacuity of `C227_runs`, `C227_moves`, `C227_start`, `C227_straight`, `C228_next_partial` and
`C228_steady_partial`: a run of 100 particles along a straight line with a fix on the way. -/
example : ∃ points re, NoNoise (plainSections (0, 1) (0, 1) (0, 1) (0, 1)) (fun _ _ => ⟨0, ⟨0, 0, 0⟩, ⟨0, 0, 0⟩⟩) ∧
    filterRun (plainSections (0, 1) (0, 1) (0, 1) (0, 1)) ⟨1, 1, 1⟩ (fun _ _ => ⟨0, ⟨0, 0, 0⟩, ⟨0, 0, 0⟩⟩) (fun _ => 1 / 2) 100
      [⟨0, 1, 2, 5, ⟨0, 0, 0⟩, ⟨1, 0, 0⟩, 3⟩, ⟨2, 3, 2, 5, ⟨0, 0, 0⟩, ⟨1, 0, 0⟩, 3⟩] [⟨1, 7, 7, 5, ⟨1, 1, 1⟩⟩] = .ok (points, re) ∧
    points.length = 3 ∧ ∀ p ∈ points, p.north = 1 + p.t ∧ p.east = 2 := by
  have hd : FilterData ⟨1, 1, 1⟩ 100 [⟨0, 1, 2, 5, ⟨0, 0, 0⟩, ⟨1, 0, 0⟩, 3⟩, ⟨2, 3, 2, 5, ⟨0, 0, 0⟩, ⟨1, 0, 0⟩, 3⟩]
      [⟨1, 7, 7, 5, ⟨1, 1, 1⟩⟩] :=
    { particles := by norm_num, two := by simp, sorted := by simp, some := by simp, ordered := by simp, after := by simp,
      apart := by simp, gain := by norm_num, uncertain := by simp }
  have hq : NoNoise (plainSections (0, 1) (0, 1) (0, 1) (0, 1)) (fun _ _ => ⟨0, ⟨0, 0, 0⟩, ⟨0, 0, 0⟩⟩) := Or.inl fun _ _ => rfl
  obtain ⟨points, re, hr, hi⟩ := C227_runs (0, 1) (0, 1) (0, 1) (0, 1) ⟨1, 1, 1⟩ (fun _ _ => ⟨0, ⟨0, 0, 0⟩, ⟨0, 0, 0⟩⟩)
    (fun _ => 1 / 2) 100 _ _ hd
  refine ⟨points, re, hq, hr, ?_, ?_⟩
  · have := hi.complete.length_eq
    norm_num at this
    exact this
  · intro p hp
    have := C227_straight _ _ _ _ _ _ _ _ _ hq hd hr 1 0
      (by simp [northEastDown, rotX, rotY, rotZ, rad]) p hp _ rfl
    simpa using this

/-! ### C229 -/

/-- C229, partial: depth and velocities that are not negative are spread by the configured deviations.  Angles are spread
by `factor` times the angle plus `offset` radians, not degrees. -/
theorem C229_spread_partial (s : PfStd) (g : PfGains) (r : PfDraws) (d : PfReading) (p : PState) (t : ℝ) :
    let q := pfPoint (t, noisyWrite s g r (setMovement d) p)
    (0 ≤ d.depth → Spread s.z 1 r.z d.depth q.depth) ∧
    (0 ≤ d.vel.x → Spread s.vel.x g.dvl r.vel.x d.vel.x q.vel.x) ∧
    (0 ≤ d.vel.y → Spread s.vel.y g.dvl r.vel.y d.vel.y q.vel.y) ∧
    (0 ≤ d.vel.z → Spread s.vel.z g.dvl r.vel.z d.vel.z q.vel.z) ∧
    (0 ≤ d.rpy.x → Spread (s.ori.1, s.ori.2 * (180 / π)) g.imu r.rpy.x d.rpy.x q.rpy.x) ∧
    (0 ≤ d.rpy.y → Spread (s.ori.1, s.ori.2 * (180 / π)) g.imu r.rpy.y d.rpy.y q.rpy.y) ∧
    (0 ≤ d.rpy.z → Spread (s.ori.1, s.ori.2 * (180 / π)) g.imu r.rpy.z d.rpy.z q.rpy.z) := by
  have := pi_ne_zero
  refine ⟨?_, ?_, ?_, ?_, ?_, ?_, ?_⟩ <;>
  · intro h
    simp only [Spread, configuredStd, abs_of_nonneg h, pfPoint, noisyWrite, writeState, setMovement, noiseTerm]
    field_simp

/-- Non-vacuity of `C229_spread_partial`: with a factor of 1/10 and an offset of 1/5 a velocity of 2 is spread by 2/5. -/
example : Spread (1 / 10, 1 / 5) 1 1 2
    (pfPoint (0, noisyWrite ⟨(0, 0), ⟨(1 / 10, 1 / 5), (0, 0), (0, 0)⟩, (0, 0)⟩ ⟨1, 1, 1⟩ ⟨0, ⟨0, 0, 0⟩, ⟨1, 0, 0⟩⟩
      (setMovement ⟨0, 0, 0, 0, ⟨0, 0, 0⟩, ⟨2, 0, 0⟩, 0⟩) ⟨⟨0, 0, 0⟩, ⟨0, 0, 0⟩, ⟨0, 0, 0⟩, 0⟩)).vel.x ∧
    configuredStd (1 / 10, 1 / 5) 2 = 2 / 5 := by
  constructor
  · exact (C229_spread_partial ⟨(0, 0), ⟨(1 / 10, 1 / 5), (0, 0), (0, 0)⟩, (0, 0)⟩ ⟨1, 1, 1⟩ ⟨0, ⟨0, 0, 0⟩, ⟨1, 0, 0⟩⟩
      ⟨0, 0, 0, 0, ⟨0, 0, 0⟩, ⟨2, 0, 0⟩, 0⟩ _ 0).2.1 (by norm_num)
  · norm_num [configuredStd]

/-- C229 is false: a deviation of one degree for the angles is used as one radian. -/
theorem C229_degrees_false : ¬ ∀ (s : PfStd) (g : PfGains) (r : PfDraws) (d : PfReading) (p : PState) (t : ℝ),
    0 ≤ d.rpy.z → Spread s.ori g.imu r.rpy.z d.rpy.z (pfPoint (t, noisyWrite s g r (setMovement d) p)).rpy.z := by
  intro h
  have := h ⟨(0, 0), ⟨(0, 0), (0, 0), (0, 0)⟩, (0, 1)⟩ ⟨1, 1, 1⟩ ⟨0, ⟨0, 0, 1⟩, ⟨0, 0, 0⟩⟩ ⟨0, 0, 0, 0, ⟨0, 0, 0⟩, ⟨0, 0, 0⟩, 0⟩
    ⟨⟨0, 0, 0⟩, ⟨0, 0, 0⟩, ⟨0, 0, 0⟩, 0⟩ 0 le_rfl
  simp only [Spread, configuredStd, pfPoint, noisyWrite, writeState, setMovement, noiseTerm] at this
  have hp := pi_pos
  have h4 := pi_le_four
  norm_num at this
  rw [div_eq_iff (ne_of_gt hp)] at this
  linarith

/-- C229 is false: with a factor of 1/10 and an offset of 1/10, a vehicle that drifts back at 1 m/s has no noise on its
velocity, whatever the draws. -/
theorem C229_backwards_false (r : PfDraws) (p : PState) (t : ℝ) :
    (pfPoint (t, noisyWrite ⟨(0, 0), ⟨(1 / 10, 1 / 10), (0, 0), (0, 0)⟩, (0, 0)⟩ ⟨1, 1, 1⟩ r
      (setMovement ⟨0, 0, 0, 0, ⟨0, 0, 0⟩, ⟨-1, 0, 0⟩, 0⟩) p)).vel.x = -1 ∧
    configuredStd (1 / 10, 1 / 10) (-1) = 1 / 5 := by
  constructor
  · norm_num [pfPoint, noisyWrite, writeState, setMovement, noiseTerm]
  · norm_num [configuredStd]

/-- C229 is false: settings with a factor and an offset for each axis, which the movement model accepts, make the filter
fail before it begins. -/
theorem C229_axes_false (z o xy : ℝ × ℝ) (v : V3 (ℝ × ℝ)) (g : PfGains) (draws : Nat → Nat → PfDraws) (u : Nat → ℝ) (n : Nat)
    (dr : List PfReading) (fixes : List PfFix) :
    pfStd (axesSections z o xy v) = .ok ⟨z, v, o⟩ ∧
    filterRun (axesSections z o xy v) g draws u n dr fixes = .error .keyError := by
  have e1 : ("offset" == "factor") = false := by decide
  have f1 : ("factor" == "factor_x") = false := by decide
  have f2 : ("factor" == "offset_x") = false := by decide
  have f3 : ("factor" == "factor_y") = false := by decide
  have f4 : ("factor" == "offset_y") = false := by decide
  have f5 : ("factor" == "factor_z") = false := by decide
  have f6 : ("factor" == "offset_z") = false := by decide
  have g1 : ("offset_x" == "factor_x") = false := by decide
  have g2 : ("factor_y" == "factor_x") = false := by decide
  have g3 : ("factor_y" == "offset_x") = false := by decide
  have g4 : ("offset_y" == "factor_x") = false := by decide
  have g5 : ("offset_y" == "offset_x") = false := by decide
  have g6 : ("offset_y" == "factor_y") = false := by decide
  have k1 : ("factor_z" == "factor_x") = false := by decide
  have k2 : ("factor_z" == "offset_x") = false := by decide
  have k3 : ("factor_z" == "factor_y") = false := by decide
  have k4 : ("factor_z" == "offset_y") = false := by decide
  have l1 : ("offset_z" == "factor_x") = false := by decide
  have l2 : ("offset_z" == "offset_x") = false := by decide
  have l3 : ("offset_z" == "factor_y") = false := by decide
  have l4 : ("offset_z" == "offset_y") = false := by decide
  have l5 : ("offset_z" == "factor_z") = false := by decide
  constructor
  · simp only [pfStd, axesSections, stdReq, List.lookup, beq_self_eq_true, e1, g1, g2, g3, g4, g5, g6, k1, k2, k3, k4, l1, l2,
      l3, l4, l5]
    rfl
  · simp only [filterRun, pfPrinted, axesSections, stdReq, List.lookup, f1, f2, f3, f4, f5, f6]
    rfl

end Oplab.Props
