import Verif.Model.Particle

/-!
# A run of the particle filter

The movement and observation models of /repo/src/auv_nav/localisation/pf.py with their settings and random draws, and the
whole of `run_particle_filter` on lists of dead reckoning entries and fixes.  Entries of the settings are numbers (`model`,
a text, is not read here).  Console output is left out, except for the settings it reads.
-/

namespace Oplab
open Real

/-- A section of `sensors_std` (pf.py L151-168). -/
abbrev StdSection := List (String × ℝ)

/-- `d[k]` on a section (pf.py L151-168). -/
def stdReq (d : StdSection) (k : String) : Res ℝ :=
  match d.lookup k with
  | none => .error .keyError
  | some v => .ok v

/-- The part of `sensors_std` the filter reads (pf.py L151-168, L464-490). -/
structure PfSections where
  z : StdSection
  speed : StdSection
  orientation : StdSection
  xy : StdSection

/-- pf.py L464-490: the settings that are printed. -/
def pfPrinted (s : PfSections) : Res Unit := do
  let _ ← stdReq s.speed "factor"
  let _ ← stdReq s.speed "offset"
  let _ ← stdReq s.orientation "factor"
  let _ ← stdReq s.orientation "offset"
  let _ ← stdReq s.z "factor"
  let _ ← stdReq s.z "offset"
  let _ ← stdReq s.xy "factor"
  let _ ← stdReq s.xy "offset"
  .ok ()

/-- Factor and offset of depth, of the three velocities and of the angles. -/
structure PfStd where
  z : ℝ × ℝ
  vel : V3 (ℝ × ℝ)
  ori : ℝ × ℝ

/-- pf.py L151-168 (read again in every step). -/
def pfStd (s : PfSections) : Res PfStd := do
  let zf ← stdReq s.z "factor"
  let zo ← stdReq s.z "offset"
  let vel : V3 (ℝ × ℝ) ←
    if (s.speed.lookup "factor_x").isSome then do
      let fx ← stdReq s.speed "factor_x"
      let ox ← stdReq s.speed "offset_x"
      let fy ← stdReq s.speed "factor_y"
      let oy ← stdReq s.speed "offset_y"
      let fz ← stdReq s.speed "factor_z"
      let oz ← stdReq s.speed "offset_z"
      pure (⟨(fx, ox), (fy, oy), (fz, oz)⟩ : V3 (ℝ × ℝ))
    else do
      let f ← stdReq s.speed "factor"
      let o ← stdReq s.speed "offset"
      pure (⟨(f, o), (f, o), (f, o)⟩ : V3 (ℝ × ℝ))
  let oo ← stdReq s.orientation "offset"
  let of ← stdReq s.orientation "factor"
  pure ⟨(zf, zo), vel, (of, oo)⟩

/-- pf.py L173-177 `linear_noise` without the value itself: `r` is the draw of `randn`, `fo` factor and offset. -/
def noiseTerm (v : ℝ) (fo : ℝ × ℝ) (gain r : ℝ) : ℝ := r * (v * fo.1 + fo.2) * gain

/-- The draws of `randn` in one step of one particle (pf.py L180-198). -/
structure PfDraws where
  z : ℝ
  rpy : V3 ℝ
  vel : V3 ℝ

/-- Gains of the noise and of the deviation of fixes (pf.py L434-443). -/
structure PfGains where
  dvl : ℝ
  imu : ℝ
  usbl : ℝ

/-- pf.py L173-198: a movement with noise is written into the state. -/
def noisyWrite (s : PfStd) (g : PfGains) (d : PfDraws) (m : PMove) (p : PState) : PState :=
  writeState m (noiseTerm m.depth s.z 1 d.z)
    ⟨noiseTerm m.rpy.x s.ori g.imu d.rpy.x, noiseTerm m.rpy.y s.ori g.imu d.rpy.y, noiseTerm m.rpy.z s.ori g.imu d.rpy.z⟩
    ⟨noiseTerm m.vel.x s.vel.x g.dvl d.vel.x, noiseTerm m.vel.y s.vel.y g.dvl d.vel.y,
      noiseTerm m.vel.z s.vel.z g.dvl d.vel.z⟩ p

/-- A dead reckoning entry as read by the filter (pf.py L132-140, L404-430); angles in degrees. -/
structure PfReading where
  t : ℝ
  north : ℝ
  east : ℝ
  depth : ℝ
  rpy : V3 ℝ
  vel : V3 ℝ
  alt : ℝ

/-- A fix as read by the filter (pf.py L88-97). -/
structure PfFix where
  t : ℝ
  north : ℝ
  east : ℝ
  depth : ℝ
  std : V3 ℝ

/-- pf.py L132-140 `set_movement`. -/
noncomputable def setMovement (d : PfReading) : PMove :=
  ⟨d.depth, ⟨d.rpy.x * π / 180, d.rpy.y * π / 180, d.rpy.z * π / 180⟩, d.vel, d.alt⟩

/-- pf.py L88-97 `set_observation`: the deviation used. -/
noncomputable def fixStd (g : PfGains) (f : PfFix) : ℝ := g.usbl * √(f.std.x ^ 2 + f.std.y ^ 2 + f.std.z ^ 2)

/-- pf.py L98-116 `measure`. -/
noncomputable def fixLike (g : PfGains) (f : PfFix) (p : PState) : ℝ :=
  gaussianPdf 0 (fixStd g f)
    (√((f.north - p.pos.x) ^ 2 + (f.east - p.pos.y) ^ 2 + (f.depth - p.pos.z) ^ 2))

open Classical in
/-- The models of pf.py L75-222 with their draws: `draws k i` of particle `i` in step `k`. -/
noncomputable def pfEnv (s : PfStd) (g : PfGains) (draws : Nat → Nat → PfDraws) (u : Nat → ℝ) :
    PfEnv ℝ PState PMove PfFix where
  wr k m i := noisyWrite s g (draws k i) m
  adv := advanceState
  u := u
  like := fixLike g
  bad f := decide (fixStd g f = 0)

/-- pf.py L402-430: the state of the particles before the first step. -/
noncomputable def priorState (d : PfReading) : PState :=
  ⟨⟨d.north, d.east, d.depth⟩, ⟨d.rpy.x * π / 180, d.rpy.y * π / 180, d.rpy.z * π / 180⟩, d.vel, d.alt⟩

/-- A point of the solution (pf.py L329-345); angles in degrees. -/
structure PfPoint where
  t : ℝ
  north : ℝ
  east : ℝ
  depth : ℝ
  rpy : V3 ℝ
  vel : V3 ℝ
  alt : ℝ

/-- pf.py L329-345 `ParticleToSyncedOrientationBodyVelocity`, one point. -/
noncomputable def pfPoint (x : ℝ × PState) : PfPoint :=
  ⟨x.1, x.2.pos.x, x.2.pos.y, x.2.pos.z, ⟨x.2.rpy.x * 180 / π, x.2.rpy.y * 180 / π, x.2.rpy.z * 180 / π⟩, x.2.vel, x.2.alt⟩

/-- pf.py L434-562 `run_particle_filter`: the points of the solution and the times of the fixes after which the particles
were drawn again.  (The settings of L151-168 are read in every step, here once before the first.) -/
noncomputable def filterRun (sec : PfSections) (g : PfGains) (draws : Nat → Nat → PfDraws) (u : Nat → ℝ) (n : Nat)
    (dr : List PfReading) (fixes : List PfFix) : Res (List PfPoint × List ℝ) := do
  pfPrinted sec
  let s ← pfStd sec
  match dr with
  | [] => .error .indexError
  | d :: _ => do
    let (tr, re) ← runPf (pfEnv s g draws u) n ⟨0, ⟨0, 0, 0⟩, ⟨0, 0, 0⟩, 0⟩ (priorState d)
      (dr.map fun d => (d.t, setMovement d)) (fixes.map fun f => (f.t, f))
    pure (tr.map pfPoint, re.map Prod.fst)

end Oplab
