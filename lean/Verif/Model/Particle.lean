import Verif.Model.Rotation
import Mathlib.Algebra.Order.Field.Basic
import Mathlib.Algebra.BigOperators.Group.List.Basic
import Mathlib.Analysis.SpecialFunctions.Exp
import Mathlib.Analysis.SpecialFunctions.Sqrt

/-!
# Particle filter

Models /repo/src/auv_nav/localisation/pf.py.  Numbers are exact.  The random draws of
`randn` and `uniform` are parameters: every theorem holds for all of them.  The particle's
state vector is abstract (`α`) except in the movement model.  Console output and the
recorded errors of a particle are left out.
-/

namespace Oplab

variable {K : Type} [Field K] [LinearOrder K] {α : Type}

/-- pf.py L46-64 `Particle`: weight, time, state and trajectory. -/
structure Particle (K α : Type) where
  weight : K
  time : K
  state : α
  traj : List (K × α)

/-- pf.py L259-262 `set_prior` (L236-237 gives the initial weights, overwritten here).
`1.0 / float(0)` raises, but with no particle the loop body is never entered. -/
def setPrior (n : Nat) (prior : Particle K α) : List (Particle K α) :=
  List.replicate n { prior with weight := 1 / (n : K) }

/-- pf.py L281-284: multiply weights by the likelihood, then sort by descending weight
(`sort(reverse=True)` keeps the order of equal weights). -/
def reweigh (like : α → K) (ps : List (Particle K α)) : List (Particle K α) :=
  (ps.map (fun p => { p with weight := p.weight * like p.state })).mergeSort
    (fun a b => decide (b.weight ≤ a.weight))

/-- pf.py L287-294 `normalize`. -/
def normalizeWeights (ps : List (Particle K α)) : List (Particle K α) :=
  let norm := (ps.map (·.weight)).sum
  let norm := if norm < 1 / 10 ^ 20 then norm + 1 / 10 ^ 20 else norm
  ps.map (fun p => { p with weight := p.weight / norm })

/-- pf.py L281-285 `measure`. -/
def pfMeasure (like : α → K) (ps : List (Particle K α)) : List (Particle K α) :=
  normalizeWeights (reweigh like ps)

/-- pf.py L323-326 `get_neff` and L270-271 `should_resample`.  With all weights zero numpy's
`1.0 / 0` is infinite, and no resampling takes place. -/
def shouldResample (ps : List (Particle K α)) : Bool :=
  let s := (ps.map (fun p => p.weight ^ 2)).sum
  decide (s ≠ 0 ∧ 1 / s < (ps.length : K) / 2)

/-- pf.py L309-317: `while prob_sum > cumulative_weight`. -/
def advance (ws : List K) (prob cum : K) (idx : Nat) : K × Nat :=
  if prob > cum then
    if h : idx + 1 < ws.length then advance ws prob (cum + ws[idx + 1]) (idx + 1)
    else (cum, ws.length - 1)
  else (cum, idx)
termination_by ws.length - idx

/-- pf.py L305-319: the destination loop, on the list of destination indices; returns the
source index of every destination. -/
def resampleLoop (ws : List K) (start inv : K) : List Nat → K → Nat → List Nat
  | [], _, _ => []
  | d :: ds, cum, idx =>
    let r := advance ws (start + inv * (d : K)) cum idx
    r.2 :: resampleLoop ws start inv ds r.1 r.2

/-- pf.py L296-307: source indices for the weights `ws` and the random number `u`. -/
def resampleIndices (ws : List K) (u : K) : Res (List Nat) :=
  match ws with
  | [] => .error .zeroDivision
  | w :: _ =>
    let inv := 1 / (ws.length : K)
    .ok (resampleLoop ws (u * inv) inv (List.range ws.length) (0 + w) 0)

/-- pf.py L296-321 `resample`: particles are deep-copied, weights included. -/
def resample (ps : List (Particle K α)) (u : K) : Res (List (Particle K α)) := do
  let idx ← resampleIndices (ps.map (·.weight)) u
  pure (idx.filterMap (fun i => ps[i]?))

/-- pf.py L179-198 and L221: `p.state` is the very array that was appended to the trajectory in the step before (a deep
copy of a particle keeps the two the same array), so that the writes of a new step into `p.state` change the last point of
the trajectory as well.  `w` is the state after these writes. -/
def overwriteLast (tr : List (K × α)) (w : α) : List (K × α) :=
  match tr.getLast? with
  | none => []
  | some l => tr.dropLast ++ [(l.1, w)]

/-- pf.py L273-279 and L179-222: propagate all particles by `dt`; `wr i` writes the movement into the state of particle `i`
(it contains the random draws, L179-198), `adv` makes a new state of it (L219). -/
def propagateAll (wr : Nat → α → α) (adv : α → α) (dt : K) (ps : List (Particle K α)) : List (Particle K α) :=
  ps.mapIdx (fun i p =>
    { p with state := adv (wr i p.state), time := p.time + dt,
             traj := overwriteLast p.traj (wr i p.state) ++ [(p.time + dt, adv (wr i p.state))] })

/-- Behaviour of the models and the random draws of pf.py L142-222, L98-115 and L300: `wr k m i` writes the movement `m`
set last into the state of particle `i` in step `k`, `adv dt` moves a state by `dt`, `u k` is the uniform draw of step `k`,
`like` the likelihood of a state, `bad` tells whether the standard deviation of a fix is zero. -/
structure PfEnv (K α μ ω : Type) where
  wr : Nat → μ → Nat → α → α
  adv : K → α → α
  u : Nat → K
  like : ω → α → K
  bad : ω → Bool

/-- State of the main loop, pf.py L498-505. -/
structure Pf (K α μ ω : Type) where
  ps : List (Particle K α)
  move : μ
  lastT : K
  k : Nat
  resampled : List (K × ω)

/-- pf.py L515-523: one dead reckoning entry. -/
def pfDr {μ ω : Type} (env : PfEnv K α μ ω) (s : Pf K α μ ω) (d : K × μ) : Pf K α μ ω :=
  { s with move := d.2, ps := propagateAll (env.wr s.k d.2) (env.adv (d.1 - s.lastT)) (d.1 - s.lastT) s.ps,
           lastT := d.1, k := s.k + 1 }

/-- pf.py L524-538: one USBL fix; with a standard deviation of zero `gaussian_pdf` divides by zero (L26; there is at least
one particle). -/
def pfUsbl {μ ω : Type} (env : PfEnv K α μ ω) (s : Pf K α μ ω) (o : K × ω) : Res (Pf K α μ ω) :=
  if env.bad o.2 then .error .zeroDivision else
  let ps := propagateAll (env.wr s.k s.move) (env.adv (o.1 - s.lastT)) (o.1 - s.lastT) s.ps
  let ps := pfMeasure (env.like o.2) ps
  if shouldResample ps then do
    let ps ← resample ps (env.u s.k)
    pure { s with ps := ps, lastT := o.1, k := s.k + 1, resampled := s.resampled ++ [o] }
  else pure { s with ps := ps, lastT := o.1, k := s.k + 1 }

/-- pf.py L503-538: the main loop.  The two indices become remaining lists. -/
def pfLoop {μ ω : Type} (env : PfEnv K α μ ω) :
    List (K × μ) → List (K × ω) → Pf K α μ ω → Res (Pf K α μ ω)
  | [], _, s => .ok s
  | d :: ds, [], s => pfLoop env ds [] (pfDr env s d)
  | d :: ds, o :: os, s =>
    if d.1 < o.1 then pfLoop env ds (o :: os) (pfDr env s d)
    else do
      let s ← pfUsbl env s o
      pfLoop env (d :: ds) os s
termination_by ds os => ds.length + os.length

/-- pf.py L395-398: `while usbl_index < len(usbl_list) and usbl_t < dr_t`, with the lists
indexed by the same index (the condition lags one step behind the reads).  Returns the
number of fixes skipped. -/
def skipUsbl (us ds : List K) (ut dt : K) (i : Nat) : Res Nat :=
  if h : i < us.length ∧ ut < dt then
    match ds[i]? with
    | none => .error .indexError
    | some d => skipUsbl us ds us[i] d (i + 1)
  else .ok i
termination_by us.length - i

/-- pf.py L386-398: number of USBL fixes skipped by `get_prior` (the loop over dead
reckoning at L391-394 only changes an index that is reset at L401).  Reading the first
entries of empty lists raises. -/
def priorSkip (us ds : List K) : Res Nat :=
  match us, ds with
  | u :: _, d :: _ => skipUsbl us ds u d 0
  | _, _ => .error .indexError

/-- pf.py L434-562 `run_particle_filter` from the prior of `get_prior` (time of the first
dead reckoning entry, L430; the position offset computed at L349-384 is added at L405 and
taken off again at L418, so only the `IndexError` for a single entry at L356 is left) to the
trajectory of the first particle (L541-544).  `m0` is the
movement before any is set (zeros, L132). -/
def runPf {μ ω : Type} (env : PfEnv K α μ ω) (n : Nat) (m0 : μ) (prior : α)
    (ds : List (K × μ)) (os : List (K × ω)) : Res (List (K × α) × List (K × ω)) := do
  let skip ← priorSkip (os.map (·.1)) (ds.map (·.1))
  match ds with
  | [] => .error .indexError
  | [_] => .error .indexError
  | d :: _ :: _ => do
    let s ← pfLoop env ds (os.drop skip)
      { ps := setPrior n ⟨0, d.1, prior, []⟩, move := m0, lastT := d.1, k := 0, resampled := [] }
    match s.ps with
    | [] => .error .indexError
    | best :: _ => pure (best.traj, s.resampled)

/-! ### Observation and movement models -/

open Real in
/-- pf.py L25-28 `gaussian_pdf`. -/
noncomputable def gaussianPdf (mu sigma x : ℝ) : ℝ :=
  exp (-((mu - x) ^ 2) / sigma ^ 2 / 2) / sqrt (2 * π * sigma ^ 2)

/-- State of a particle in `DeadReckoningMovementModel` (angles in radians). -/
structure PState where
  pos : V3 ℝ
  rpy : V3 ℝ
  vel : V3 ℝ
  alt : ℝ

/-- What `set_movement` stores, pf.py L132-140 (angles in radians). -/
structure PMove where
  depth : ℝ
  rpy : V3 ℝ
  vel : V3 ℝ
  alt : ℝ

/-- pf.py L179-198: the measurements with noise are written into the state; `nz`, `na`, `nv` are the noise terms added to
depth, angles and velocities.  The altitude is never copied from the movement. -/
def writeState (m : PMove) (nz : ℝ) (na nv : V3 ℝ) (p : PState) : PState :=
  { pos := ⟨p.pos.x, p.pos.y, m.depth + nz⟩
    rpy := ⟨m.rpy.x + na.x, m.rpy.y + na.y, m.rpy.z + na.z⟩
    vel := ⟨m.vel.x + nv.x, m.vel.y + nv.y, m.vel.z + nv.z⟩
    alt := p.alt }

open Real in
/-- pf.py L200-219: the state is moved by its velocity for `dt`. -/
noncomputable def advanceState (dt : ℝ) (p : PState) : PState :=
  let cr := cos p.rpy.x
  let sr := sin p.rpy.x
  let cp := cos p.rpy.y
  let sp := sin p.rpy.y
  let cy := cos p.rpy.z
  let sy := sin p.rpy.z
  { pos := ⟨p.pos.x + cy * cp * dt * p.vel.x + (cy * sp * sr - sy * cr) * dt * p.vel.y
              + (cy * sp * cr + sy * sr) * dt * p.vel.z,
            p.pos.y + sy * cp * dt * p.vel.x + (sy * sp * sr + cy * cr) * dt * p.vel.y
              + (sy * sp * cr - cy * sr) * dt * p.vel.z,
            p.pos.z + -sp * dt * p.vel.x + cp * sr * dt * p.vel.y + cp * cr * dt * p.vel.z⟩
    rpy := p.rpy
    vel := p.vel
    alt := p.alt }

/-- pf.py L142-222 `propagate`, on the state of a particle. -/
noncomputable def propagateState (m : PMove) (nz : ℝ) (na nv : V3 ℝ) (dt : ℝ) (p : PState) : PState :=
  advanceState dt (writeState m nz na nv p)

end Oplab
