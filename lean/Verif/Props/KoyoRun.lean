import Verif.Spec.KoyoRun
import Verif.Props.Koyo20
import Verif.Props.KoyoClean

/-!
C235: the conversion of a dive of the ROV of 2020 as a whole.
-/

namespace Oplab.Props
open Oplab Oplab.Spec

private theorem head_le {α : Type} (recs : List (ℝ × α)) (f : ℝ × α) (hs : recs.Pairwise fun a b => a.1 ≤ b.1) (hf : recs.head? = some f) :
    ∀ r ∈ recs, f.1 ≤ r.1 := by
  cases recs with
  | nil => simp
  | cons x rest =>
    simp only [List.head?_cons, Option.some.injEq] at hf
    subst hf
    rw [List.pairwise_cons] at hs
    intro r hr
    rcases List.mem_cons.1 hr with rfl | h
    · exact le_refl _
    · exact hs.1 r h

private theorem le_last {α : Type} (recs : List (ℝ × α)) (l : ℝ × α) (hs : recs.Pairwise fun a b => a.1 ≤ b.1) (hl : recs.getLast? = some l) :
    ∀ r ∈ recs, r.1 ≤ l.1 := by
  induction recs with
  | nil => simp
  | cons x rest ih =>
    rw [List.pairwise_cons] at hs
    intro r hr
    cases rest with
    | nil =>
      simp only [List.getLast?_singleton, Option.some.injEq] at hl
      simp only [List.mem_singleton] at hr
      rw [hr, hl]
    | cons y rest =>
      rw [List.getLast?_cons_cons] at hl
      rcases List.mem_cons.1 hr with rfl | h
      · exact hs.1 l (List.mem_of_getLast? hl)
      · exact ih hs.2 hl r h

private theorem runs_iff {α : Type} (recs : List (ℝ × α)) (f l : ℝ × α) (hs : recs.Pairwise fun a b => a.1 ≤ b.1) (hf : recs.head? = some f)
    (hl : recs.getLast? = some l) (q : ℝ) : Runs recs q ↔ f.1 ≤ q ∧ q ≤ l.1 := by
  constructor
  · rintro ⟨⟨r, hr, h⟩, r', hr', h'⟩
    exact ⟨le_trans (head_le recs f hs hf r hr) h, le_trans h' (le_last recs l hs hl r' hr')⟩
  · rintro ⟨h, h'⟩
    exact ⟨⟨f, List.mem_of_head? hf, h⟩, l, List.mem_of_getLast? hl, h'⟩

private theorem loop_all {α : Type} (recs : List (ℝ × α)) (f l : ℝ × α) (hs : recs.Pairwise fun a b => a.1 ≤ b.1) (hf : recs.head? = some f)
    (hl : recs.getLast? = some l) (hfl : f.1 < l.1) (qs : List ℝ) (hq : qs.Pairwise (· ≤ ·)) :
    List.Forall₂ (fun q o => (¬ Runs recs q → o = none) ∧ (Runs recs q → ∃ j, o = some j ∧ ∀ g : α → ℝ,
      ∃ y, koyoValue (recs.map fun r => (r.1, g r.2)) q j = some y ∧ ValueAt (recs.map fun r => (r.1, g r.2)) q y)) qs
      (koyoLoop (recs.map Prod.fst) f.1 l.1 0 qs) := by
  have hpos : 0 < recs.length := by
    cases recs with
    | nil => simp at hf
    | cons a r => simp
  have key : ∀ g : α → ℝ, List.Forall₂ (fun q o => (q < f.1 ∨ l.1 < q → o = none) ∧
        (f.1 ≤ q → q ≤ l.1 → ∃ j y, o = some j ∧ koyoValue (recs.map fun r => (r.1, g r.2)) q j = some y ∧
          ValueAt (recs.map fun r => (r.1, g r.2)) q y)) qs (koyoLoop (recs.map Prod.fst) f.1 l.1 0 qs) := by
    intro g
    have h := koyo_loop (recs.map fun r => (r.1, g r.2)) (f.1, g f.2) (l.1, g l.2) (by simp [hf]) (by simp [hl]) hfl qs 0 hq (by simpa using hpos)
      (by intro _ _ k s hk; omega)
    have e : (recs.map fun r => (r.1, g r.2)).map Prod.fst = recs.map Prod.fst := by simp [Function.comp_def]
    rwa [e] at h
  rw [List.forall₂_iff_get]
  refine ⟨(key fun _ => 0).length_eq, fun i h1 h2 => ?_⟩
  have kg := fun g => (List.forall₂_iff_get.1 (key g)).2 i h1 h2
  rw [runs_iff recs f l hs hf hl]
  refine ⟨fun hn => (kg fun _ => 0).1 ?_, fun hr => ?_⟩
  · by_contra hc
    push Not at hc
    exact hn hc
  · obtain ⟨j, -, hj, -⟩ := (kg fun _ => 0).2 hr.1 hr.2
    refine ⟨j, hj, fun g => ?_⟩
    obtain ⟨j', y, hj', hy⟩ := (kg g).2 hr.1 hr.2
    rw [hj] at hj'
    obtain rfl := Option.some.inj hj'
    exact ⟨y, hy⟩

private theorem zip_map {A B C : Type} {P : A → B → Prop} {Q : A → C → Prop} (F : A → B → C) (hPQ : ∀ q o, P q o → Q q (F q o)) :
    ∀ (qs : List A) (os : List B), List.Forall₂ P qs os → List.Forall₂ Q qs ((qs.zip os).map fun p => F p.1 p.2)
  | [], [], _ => by simp
  | q :: qs, o :: os, h => by
    cases h with
    | cons h1 h2 => exact .cons (hPQ _ _ h1) (zip_map F hPQ qs os h2)

private theorem ships_spec (pos : List (ℝ × RovShip)) (f l : ℝ × RovShip) (hs : pos.Pairwise fun a b => a.1 ≤ b.1) (hf : pos.head? = some f)
    (hl : pos.getLast? = some l) (hfl : f.1 < l.1) (images : List RovImage) (hi : images.Pairwise fun a b => a.t ≤ b.t) :
    List.Forall₂ (fun i o => (¬ Runs pos i.t → o = none) ∧ (Runs pos i.t → ∃ s, o = some s ∧ ShipAt pos i.t s)) images
      (rovShips pos f.1 l.1 images) := by
  have h := loop_all pos f l hs hf hl hfl (images.map RovImage.t) (List.pairwise_map.2 hi)
  have h2 := zip_map (Q := fun q o => (¬ Runs pos q → o = none) ∧ (Runs pos q → ∃ s, o = some s ∧ ShipAt pos q s))
    (fun q o => Option.bind o (rovShipAt pos q)) (fun q o hp => by
      refine ⟨fun hn => by rw [hp.1 hn]; rfl, fun hr => ?_⟩
      obtain ⟨j, rfl, hg⟩ := hp.2 hr
      obtain ⟨y1, a1, b1⟩ := hg RovShip.lat
      obtain ⟨y2, a2, b2⟩ := hg RovShip.lon
      obtain ⟨y3, a3, b3⟩ := hg RovShip.depth
      obtain ⟨y4, a4, b4⟩ := hg RovShip.altitude
      exact ⟨⟨y3, y4, y1, y2⟩, by simp [rovShipAt, a1, a2, a3, a4], b1, b2, b3, b4⟩) _ _ h
  rw [List.forall₂_map_left_iff] at h2
  exact h2

private theorem turns_spec (rot : List (ℝ × RovTurn)) (f l : ℝ × RovTurn) (hs : rot.Pairwise fun a b => a.1 ≤ b.1) (hf : rot.head? = some f)
    (hl : rot.getLast? = some l) (hfl : f.1 < l.1) (images : List RovImage) (hi : images.Pairwise fun a b => a.t ≤ b.t) :
    List.Forall₂ (fun i o => (¬ Runs rot i.t → o = none) ∧ (Runs rot i.t → ∃ s, o = some s ∧ TurnAt rot i.t s)) images
      (rovTurns rot f.1 l.1 images) := by
  have h := loop_all rot f l hs hf hl hfl (images.map RovImage.t) (List.pairwise_map.2 hi)
  have h2 := zip_map (Q := fun q o => (¬ Runs rot q → o = none) ∧ (Runs rot q → ∃ s, o = some s ∧ TurnAt rot q s))
    (fun q o => Option.bind o (rovTurnAt rot q)) (fun q o hp => by
      refine ⟨fun hn => by rw [hp.1 hn]; rfl, fun hr => ?_⟩
      obtain ⟨j, rfl, hg⟩ := hp.2 hr
      obtain ⟨y1, a1, b1⟩ := hg RovTurn.heading
      obtain ⟨y2, a2, b2⟩ := hg RovTurn.pitch
      obtain ⟨y3, a3, b3⟩ := hg RovTurn.roll
      exact ⟨⟨y1, y2, y3⟩, by simp [rovTurnAt, a1, a2, a3], b1, b2, b3⟩) _ _ h
  rw [List.forall₂_map_left_iff] at h2
  exact h2

private theorem kept_spec (pos : List (ℝ × RovShip)) (rot : List (ℝ × RovTurn)) :
    ∀ (images : List RovImage) (ships : List (Option RovShip)) (turns : List (Option RovTurn)),
      List.Forall₂ (fun i o => (¬ Runs pos i.t → o = none) ∧ (Runs pos i.t → ∃ s, o = some s ∧ ShipAt pos i.t s)) images ships →
      List.Forall₂ (fun i o => (¬ Runs rot i.t → o = none) ∧ (Runs rot i.t → ∃ s, o = some s ∧ TurnAt rot i.t s)) images turns →
      List.Forall₂ (fun i x => x.1 = i ∧ ShipAt pos i.t x.2.1 ∧ TurnAt rot i.t x.2.2) (covered pos rot images)
        (rovKept (images.zip (ships.zip turns)))
  | [], [], [], _, _ => by simp [covered, rovKept]
  | i :: images, s :: ships, r :: turns, h1, h2 => by
    cases h1 with
    | cons a1 b1 =>
      cases h2 with
      | cons a2 b2 =>
        have ih := kept_spec pos rot images ships turns b1 b2
        by_cases hp : Runs pos i.t
        · obtain ⟨s', rfl, hs'⟩ := a1.2 hp
          by_cases hr : Runs rot i.t
          · obtain ⟨r', rfl, hr'⟩ := a2.2 hr
            have e1 : covered pos rot (i :: images) = i :: covered pos rot images := by simp [covered, hp, hr]
            rw [e1]
            exact .cons ⟨rfl, hs', hr'⟩ ih
          · have e := a2.1 hr
            subst e
            have e1 : covered pos rot (i :: images) = covered pos rot images := by simp [covered, hr]
            rw [e1]
            exact ih
        · have e := a1.1 hp
          subst e
          have e1 : covered pos rot (i :: images) = covered pos rot images := by simp [covered, hp]
          rw [e1]
          exact ih

private theorem line_spec (c : RovSetup) (place depthSensor dvl : V3 ℝ) (path : ℕ → List Char) (pos : List (ℝ × RovShip))
    (rot : List (ℝ × RovTurn)) (is : List RovImage) (xs : List (RovImage × RovShip × RovTurn))
    (h : List.Forall₂ (fun i x => x.1 = i ∧ ShipAt pos i.t x.2.1 ∧ TurnAt rot i.t x.2.2) is xs) :
    List.Forall₂ (fun i l => LineOf c place depthSensor dvl (path i.index) pos rot i.t l) is (xs.map (rovLine c place depthSensor dvl path)) := by
  rw [List.forall₂_map_right_iff]
  refine h.imp ?_
  rintro i ⟨i', s, r⟩ ⟨rfl, h1, h2⟩
  exact ⟨s, r, _, _, h1, h2, rfl, rfl, rfl, rfl, rfl, rfl, ⟨rfl, rfl, rfl, rfl⟩, rfl⟩

private theorem fillMissing_length (ts vs : List ℝ) : (fillMissing ts vs).length = vs.length := by
  unfold fillMissing
  generalize vs.length - 1 = n
  induction n with
  | zero => rfl
  | succ n ih =>
    rw [List.range_succ, List.foldl_append, List.foldl_cons, List.foldl_nil, ← ih]
    unfold fillStep
    split
    · split <;> simp
    · rfl

private theorem fill_fields : ∀ (l : List (ℝ × RovShip)) (d a : List ℝ), d.length = l.length → a.length = l.length →
    let out := (l.zip (d.zip a)).map fun r => (r.1.1, ({ r.1.2 with depth := r.2.1, altitude := r.2.2 } : RovShip))
    (out.map fun r => (r.1, r.2.lat, r.2.lon)) = (l.map fun r => (r.1, r.2.lat, r.2.lon)) ∧ (out.map fun r => r.2.depth) = d ∧
      (out.map fun r => r.2.altitude) = a
  | [], [], [], _, _ => by simp
  | x :: l, d :: ds, a :: as, h1, h2 => by
    obtain ⟨i1, i2, i3⟩ := fill_fields l ds as (by simpa using h1) (by simpa using h2)
    simp only [List.zip_cons_cons, List.map_cons, List.cons.injEq, true_and]
    exact ⟨i1, i2, i3⟩

/-- C235: the log of the ship that is used: the records of the files in order of time, their positions as they are, and altitudes and
depths as C208 says. -/
theorem C235_log (files : List (List (Option (ℝ × RovShip)))) (pos : List (ℝ × RovShip)) (h : rovShipLog files = .ok pos) :
    ∃ recs, ShipRecordsOf files recs ∧ (pos.map fun r => (r.1, r.2.lat, r.2.lon)) = (recs.map fun r => (r.1, r.2.lat, r.2.lon)) ∧
      (pos.map fun r => r.2.depth) = fillMissing (recs.map Prod.fst) (recs.map fun r => r.2.depth) ∧
      (pos.map fun r => r.2.altitude) = fillMissing (recs.map Prod.fst) (recs.map fun r => r.2.altitude) := by
  unfold rovShipLog at h
  cases hr : shipRecords files with
  | error e => simp [hr, bind, Except.bind] at h
  | ok recs =>
    simp only [hr, bind, Except.bind, Except.ok.injEq] at h
    obtain ⟨m1, vs, m2, m3⟩ := C162_merged files recs hr
    refine ⟨recs, ⟨m1, vs, m3, m2.imp ?_⟩, ?_⟩
    · intro f v hv
      cases f with
      | nil => simp [shipFile] at hv
      | cons x rest =>
        cases x with
        | none => simp [shipFile] at hv
        | some first =>
          obtain ⟨out, e, -, e2, e3⟩ := C162_kept_iff_partial first rest
          rw [hv] at e
          obtain rfl := Except.ok.inj e
          exact ⟨first, rest, rfl, e2, e3⟩
    · have k := fill_fields recs (fillMissing (recs.map Prod.fst) (recs.map fun r => r.2.depth))
        (fillMissing (recs.map Prod.fst) (recs.map fun r => r.2.altitude)) (by rw [fillMissing_length]; simp) (by rw [fillMissing_length]; simp)
      rw [← h]
      exact k

private theorem log_sorted (files : List (List (Option (ℝ × RovShip)))) (pos : List (ℝ × RovShip)) (h : rovShipLog files = .ok pos) :
    pos.Pairwise fun a b => a.1 ≤ b.1 := by
  obtain ⟨recs, h1, h2, -⟩ := C235_log files pos h
  have e : pos.map Prod.fst = recs.map Prod.fst := by
    have := congrArg (List.map Prod.fst) h2
    simpa [Function.comp_def] using this
  have := h1.1
  rw [← List.pairwise_map (f := Prod.fst) (R := fun a b => a ≤ b)] at this ⊢
  rwa [e]

private theorem turns_sorted (rows : List (Option (ℝ × RovTurn))) :
    (rovTurnLog rows).Pairwise (fun a b => a.1 ≤ b.1) ∧ (rovTurnLog rows).Perm (rows.filterMap id) := by
  have : Std.Total (fun a b : ℝ × RovTurn => a.1 ≤ b.1) := ⟨fun a b => le_total a.1 b.1⟩
  have : IsTrans (ℝ × RovTurn) (fun a b : ℝ × RovTurn => a.1 ≤ b.1) := ⟨fun a b c h1 h2 => le_trans h1 h2⟩
  exact ⟨List.pairwise_insertionSort _ _, List.perm_insertionSort _ _⟩

private theorem images_sorted (rows : List (Option RovImage)) :
    (rovImageLog rows).Pairwise (fun a b => a.t ≤ b.t) ∧ (rovImageLog rows).Perm (rows.filterMap id) := by
  have : Std.Total (fun a b : RovImage => a.t ≤ b.t) := ⟨fun a b => le_total a.t b.t⟩
  have : IsTrans RovImage (fun a b : RovImage => a.t ≤ b.t) := ⟨fun a b c h1 h2 => le_trans h1 h2⟩
  exact ⟨List.pairwise_insertionSort _ _, List.perm_insertionSort _ _⟩

/-- The records of a log are not all of the same time. -/
def Spans {α : Type} (recs : List (ℝ × α)) : Prop := ∃ a ∈ recs, ∃ b ∈ recs, a.1 < b.1

private theorem spans_ends {α : Type} (recs : List (ℝ × α)) (hs : recs.Pairwise fun a b => a.1 ≤ b.1) (h : Spans recs) :
    ∃ f l, recs.head? = some f ∧ recs.getLast? = some l ∧ f.1 < l.1 := by
  obtain ⟨a, ha, b, hb, hab⟩ := h
  cases hf : recs.head? with
  | none => rw [List.head?_eq_none_iff] at hf; simp [hf] at ha
  | some f =>
    cases hl : recs.getLast? with
    | none => rw [List.getLast?_eq_none_iff] at hl; simp [hl] at ha
    | some l => exact ⟨f, l, rfl, rfl, lt_of_le_of_lt (head_le recs f hs hf a ha) (lt_of_lt_of_le hab (le_last recs l hs hl b hb))⟩

private theorem koyoFinish_eq (a b c d : ℕ) (h1 : c ≤ a) (h2 : d ≤ b) (h : 0 < c ∧ 0 < d) : koyoFinish a b c d = .ok () :=
  (C165_written_iff_partial a b c d h1 h2).2 h

/-- C235 (partial): what a dive gives, if both logs have records of different times: the files are written exactly if no output exists or overwriting is
forced, both the laser and the cameras have images taken while both logs run, and the vehicle file has the four places; and then the three files
have, in order of time, the lines of those images and no others. Missing: positions that cannot be reached are used (`C235_unreachable_false`). -/
theorem C235_run_partial (c : RovSetup) (forcing : Bool) (exist : List (String × Bool)) (files : List (List (Option (ℝ × RovShip))))
    (turns : List (Option (ℝ × RovTurn))) (laser camera : List (Option RovImage)) (pos : List (ℝ × RovShip)) (hpos : rovShipLog files = .ok pos)
    (hsp : Spans pos) (hst : Spans (turns.filterMap id)) :
    ∃ (rot : List (ℝ × RovTurn)) (lasers cameras : List RovImage),
      rot.Perm (turns.filterMap id) ∧ rot.Pairwise (fun a b => a.1 ≤ b.1) ∧
      lasers.Perm (laser.filterMap id) ∧ lasers.Pairwise (fun a b => a.t ≤ b.t) ∧
      cameras.Perm (camera.filterMap id) ∧ cameras.Pairwise (fun a b => a.t ≤ b.t) ∧
      ((∃ out, rovRun c forcing exist files turns laser camera = .ok out) ↔
        (forcing = true ∨ ∀ f ∈ exist, f.2 = false) ∧ covered pos rot lasers ≠ [] ∧ covered pos rot cameras ≠ [] ∧
          ∀ n ∈ ["dvl", "depth", c.camA, c.camB], (c.sensors n).isSome = true) ∧
      ∀ out, rovRun c forcing exist files turns laser camera = .ok out → ∃ dvl depth a b, c.sensors "dvl" = some dvl ∧
        c.sensors "depth" = some depth ∧ c.sensors c.camA = some a ∧ c.sensors c.camB = some b ∧
        List.Forall₂ (fun i l => LineOf c dvl depth dvl (laserImagePath i.index) pos rot i.t l) (covered pos rot lasers) out.laser ∧
        List.Forall₂ (fun i l => LineOf c a depth dvl (cameraImagePath i.index) pos rot i.t l) (covered pos rot cameras) out.camA ∧
        List.Forall₂ (fun i l => LineOf c b depth dvl (cameraImagePath i.index) pos rot i.t l) (covered pos rot cameras) out.camB := by
  obtain ⟨t1, t2⟩ := turns_sorted turns
  obtain ⟨l1, l2⟩ := images_sorted laser
  obtain ⟨c1, c2⟩ := images_sorted camera
  refine ⟨rovTurnLog turns, rovImageLog laser, rovImageLog camera, t2, t1, l2, l1, c2, c1, ?_⟩
  have hsp' : Spans (rovTurnLog turns) := by
    obtain ⟨a, ha, b, hb, hab⟩ := hst
    exact ⟨a, t2.mem_iff.2 ha, b, t2.mem_iff.2 hb, hab⟩
  have hps := log_sorted files pos hpos
  obtain ⟨pf, pl, e1, e2, e3⟩ := spans_ends pos hps hsp
  obtain ⟨rf, rl, g1, g2, g3⟩ := spans_ends (rovTurnLog turns) t1 hsp'
  have kl := kept_spec pos (rovTurnLog turns) (rovImageLog laser) _ _ (ships_spec pos pf pl hps e1 e2 e3 _ l1)
    (turns_spec (rovTurnLog turns) rf rl t1 g1 g2 g3 _ l1)
  have kc := kept_spec pos (rovTurnLog turns) (rovImageLog camera) _ _ (ships_spec pos pf pl hps e1 e2 e3 _ c1)
    (turns_spec (rovTurnLog turns) rf rl t1 g1 g2 g3 _ c1)
  have ll := kl.length_eq
  have lc := kc.length_eq
  have sl : (covered pos (rovTurnLog turns) (rovImageLog laser)).length ≤ (rovImageLog laser).length := List.length_filter_le _ _
  have sc : (covered pos (rovTurnLog turns) (rovImageLog camera)).length ≤ (rovImageLog camera).length := List.length_filter_le _ _
  have run : rovRun c forcing exist files turns laser camera = (do
      let _ ← koyoOutputs forcing exist
      koyoFinish (rovImageLog laser).length (rovImageLog camera).length (rovKept ((rovImageLog laser).zip ((rovShips pos pf.1 pl.1 (rovImageLog laser)).zip
        (rovTurns (rovTurnLog turns) rf.1 rl.1 (rovImageLog laser))))).length
        (rovKept ((rovImageLog camera).zip ((rovShips pos pf.1 pl.1 (rovImageLog camera)).zip
        (rovTurns (rovTurnLog turns) rf.1 rl.1 (rovImageLog camera))))).length
      let dvl ← rovSensor c "dvl"
      let depth ← rovSensor c "depth"
      let a ← rovSensor c c.camA
      let b ← rovSensor c c.camB
      .ok ⟨(rovKept ((rovImageLog laser).zip ((rovShips pos pf.1 pl.1 (rovImageLog laser)).zip
        (rovTurns (rovTurnLog turns) rf.1 rl.1 (rovImageLog laser))))).map (rovLine c dvl depth dvl laserImagePath),
        (rovKept ((rovImageLog camera).zip ((rovShips pos pf.1 pl.1 (rovImageLog camera)).zip
        (rovTurns (rovTurnLog turns) rf.1 rl.1 (rovImageLog camera))))).map (rovLine c a depth dvl cameraImagePath),
        (rovKept ((rovImageLog camera).zip ((rovShips pos pf.1 pl.1 (rovImageLog camera)).zip
        (rovTurns (rovTurnLog turns) rf.1 rl.1 (rovImageLog camera))))).map (rovLine c b depth dvl cameraImagePath)⟩) := by
    simp only [rovRun, hpos, bind, Except.bind, e1, e2, g1, g2]
  rw [run]
  generalize rovKept ((rovImageLog laser).zip ((rovShips pos pf.1 pl.1 (rovImageLog laser)).zip
    (rovTurns (rovTurnLog turns) rf.1 rl.1 (rovImageLog laser)))) = kL at *
  generalize rovKept ((rovImageLog camera).zip ((rovShips pos pf.1 pl.1 (rovImageLog camera)).zip
    (rovTurns (rovTurnLog turns) rf.1 rl.1 (rovImageLog camera)))) = kC at *
  rw [C208_outputs]
  have fin := C165_written_iff_partial (rovImageLog laser).length (rovImageLog camera).length kL.length kC.length (by omega) (by omega)
  rw [← ll, ← lc] at fin ⊢
  have z1 : 0 < (covered pos (rovTurnLog turns) (rovImageLog laser)).length ↔ covered pos (rovTurnLog turns) (rovImageLog laser) ≠ [] :=
    List.length_pos_iff
  have z2 : 0 < (covered pos (rovTurnLog turns) (rovImageLog camera)).length ↔ covered pos (rovTurnLog turns) (rovImageLog camera) ≠ [] :=
    List.length_pos_iff
  rw [z1, z2] at fin
  by_cases hx : forcing = true ∨ ∀ f ∈ exist, f.2 = false
  · by_cases hk : covered pos (rovTurnLog turns) (rovImageLog laser) ≠ [] ∧ covered pos (rovTurnLog turns) (rovImageLog camera) ≠ []
    · have hfin := fin.2 hk
      simp only [if_pos hx, bind, Except.bind, hfin, rovSensor]
      cases h1 : c.sensors "dvl" with
      | none => simp [h1]
      | some dvl =>
        cases h2 : c.sensors "depth" with
        | none => simp [h2]
        | some depth =>
          cases h3 : c.sensors c.camA with
          | none => simp [h3]
          | some a =>
            cases h4 : c.sensors c.camB with
            | none => simp [h4]
            | some b =>
              constructor
              · simp [h1, h2, h3, h4, hk.1, hk.2]
                simpa using hx
              · intro out ho
                simp only [Except.ok.injEq] at ho
                subst ho
                exact ⟨dvl, depth, a, b, rfl, rfl, rfl, rfl, line_spec c _ _ _ _ pos _ _ _ kl, line_spec c _ _ _ _ pos _ _ _ kc,
                  line_spec c _ _ _ _ pos _ _ _ kc⟩
    · cases hfin : koyoFinish (rovImageLog laser).length (rovImageLog camera).length (covered pos (rovTurnLog turns) (rovImageLog laser)).length
          (covered pos (rovTurnLog turns) (rovImageLog camera)).length with
      | ok u => exact absurd (fin.1 hfin) hk
      | error e =>
        simp only [if_pos hx, bind, Except.bind, hfin]
        constructor
        · constructor
          · rintro ⟨out, ho⟩; simp at ho
          · rintro ⟨-, h1, h2, -⟩; exact absurd ⟨h1, h2⟩ hk
        · intro out ho; simp at ho
  · simp only [if_neg hx, bind, Except.bind]
    constructor
    · constructor
      · rintro ⟨out, ho⟩; simp at ho
      · rintro ⟨h, -⟩; exact absurd h hx
    · intro out ho; simp at ho

/-- C235: the two cameras get lines for the same images, with the same times, names and attitudes, and as far apart as they are on the vehicle. -/
theorem C235_pair (c : RovSetup) (forcing : Bool) (exist : List (String × Bool)) (files : List (List (Option (ℝ × RovShip))))
    (turns : List (Option (ℝ × RovTurn))) (laser camera : List (Option RovImage)) (out : RovFiles)
    (h : rovRun c forcing exist files turns laser camera = .ok out) :
    ∃ a b, c.sensors c.camA = some a ∧ c.sensors c.camB = some b ∧ List.Forall₂ (fun l m => l.path = m.path ∧ l.t = m.t ∧
      l.pose.roll = m.pose.roll ∧ l.pose.pitch = m.pose.pitch ∧ l.pose.heading = m.pose.heading ∧
      (l.pose.northing - m.pose.northing) ^ 2 + (l.pose.easting - m.pose.easting) ^ 2 + (l.pose.depth - m.pose.depth) ^ 2 =
        (a.x - b.x) ^ 2 + (a.y - b.y) ^ 2 + (a.z - b.z) ^ 2 ∧
      l.pose.depth + l.pose.altitude = m.pose.depth + m.pose.altitude) out.camA out.camB := by
  unfold rovRun at h
  cases hp : rovShipLog files with
  | error e => simp [hp, bind, Except.bind] at h
  | ok pos =>
    simp only [hp, bind, Except.bind] at h
    split at h
    · split at h
      · simp at h
      · split at h
        · simp at h
        · simp only [rovSensor] at h
          cases h1 : c.sensors "dvl" with
          | none => simp [h1] at h
          | some dvl =>
            cases h2 : c.sensors "depth" with
            | none => simp [h1, h2] at h
            | some depth =>
              cases h3 : c.sensors c.camA with
              | none => simp [h1, h2, h3] at h
              | some a =>
                cases h4 : c.sensors c.camB with
                | none => simp [h1, h2, h3, h4] at h
                | some b =>
                  simp only [h1, h2, h3, h4, Except.ok.injEq] at h
                  subst h
                  refine ⟨a, b, rfl, rfl, ?_⟩
                  rw [List.forall₂_map_left_iff, List.forall₂_map_right_iff]
                  refine List.forall₂_same.2 fun x _ => ⟨rfl, rfl, rfl, rfl, rfl, C166_rigid a b depth dvl _, C166_seafloor a b depth dvl _⟩
    · simp at h

private theorem fill_none (ts vs : List ℝ) (h : ∀ v ∈ vs, v ≠ 0) : fillMissing ts vs = vs := by
  refine List.ext_getElem? fun i => C208_valid ts vs i (Or.inl fun e => ?_)
  exact h 0 (List.mem_of_getElem? e) rfl

/-- C235: one log with increasing times and no altitude or depth missing is used as it is, but for its first record. -/
theorem C235_plain_log (first : ℝ × RovShip) (rest : List (ℝ × RovShip)) (h : (first :: rest).Pairwise fun a b => a.1 < b.1)
    (hv : ∀ r ∈ rest, r.2.depth ≠ 0 ∧ r.2.altitude ≠ 0) : rovShipLog [(first :: rest).map some] = .ok rest := by
  have e1 := C162_increasing first rest h
  rw [List.pairwise_cons] at h
  have e2 : rest.insertionSort (fun a b => a.1 ≤ b.1) = rest :=
    List.Pairwise.insertionSort_eq (h.2.imp fun h => le_of_lt h)
  have e3 : shipRecords [(first :: rest).map some] = .ok rest := by
    simp only [shipRecords, List.mapM_cons, List.mapM_nil, e1, bind, Except.bind, pure, Except.pure, List.flatten_cons, List.flatten_nil,
      List.append_nil, e2]
  have e4 : rovFill rest = rest := by
    have f1 := fill_none (rest.map Prod.fst) (rest.map fun r => r.2.depth) (by
      rintro v hm
      obtain ⟨r, hr, rfl⟩ := List.mem_map.1 hm
      exact (hv r hr).1)
    have f2 := fill_none (rest.map Prod.fst) (rest.map fun r => r.2.altitude) (by
      rintro v hm
      obtain ⟨r, hr, rfl⟩ := List.mem_map.1 hm
      exact (hv r hr).2)
    unfold rovFill
    simp only [f1, f2]
    clear f1 f2 e1 e2 e3 h hv
    induction rest with
    | nil => rfl
    | cons x rest ih => simp only [List.map_cons, List.zip_cons_cons, ih]
  simp only [rovShipLog, e3, bind, Except.bind, e4]

/-- A dive: the vehicle stays at the reference but for one position. -/
private noncomputable def wit : RovSetup where
  sensors := fun _ => some ⟨0, 0, 0⟩
  latRef := 0
  lonRef := 0
  camA := "a"
  camB := "b"
  toMetres := fun lat _ _ _ => (lat, 0)
  toLatLon := fun _ _ e n => (n, e)

private noncomputable def witTurns : List (Option (ℝ × RovTurn)) := [some (0, ⟨0, 0, 0⟩), some (4, ⟨0, 0, 0⟩)]

private theorem wit_spans : Spans (witTurns.filterMap id) :=
  ⟨(0, ⟨0, 0, 0⟩), by simp [witTurns], (4, ⟨0, 0, 0⟩), by simp [witTurns], by norm_num⟩

/-- C235: a position that cannot be reached is used: the image taken at its time is placed there. -/
theorem C235_unreachable_false : ¬ UnreachableUnused := by
  intro h
  have key := h wit false [] (0, ⟨1, 1, 0, 0⟩) (1, ⟨1, 1, 0, 0⟩) (2, ⟨1, 1, 1, 0⟩) (3, ⟨1, 1, 0, 0⟩) witTurns [some ⟨2, 7⟩] [some ⟨2, 7⟩]
    (by norm_num) (by norm_num) (by norm_num) (by unfold Reachable metres; norm_num) (by unfold Reachable metres; norm_num)
  have p1 := C235_plain_log (0, ⟨1, 1, 0, 0⟩) [(1, ⟨1, 1, 0, 0⟩), (2, ⟨1, 1, 1, 0⟩), (3, ⟨1, 1, 0, 0⟩)] (by norm_num [List.pairwise_cons]) (by simp)
  have p2 := C235_plain_log (0, ⟨1, 1, 0, 0⟩) [(1, ⟨1, 1, 0, 0⟩), (3, ⟨1, 1, 0, 0⟩)] (by norm_num [List.pairwise_cons]) (by simp)
  obtain ⟨rot, ls, cs, a1, -, a3, -, a5, -, a7, a8⟩ := C235_run_partial wit false [] _ witTurns [some ⟨2, 7⟩] [some ⟨2, 7⟩] _ p1
    ⟨(1, ⟨1, 1, 0, 0⟩), by simp, (2, ⟨1, 1, 1, 0⟩), by simp, by norm_num⟩ wit_spans
  obtain ⟨rot', ls', cs', b1, -, b3, -, b5, -, b7, b8⟩ := C235_run_partial wit false [] _ witTurns [some ⟨2, 7⟩] [some ⟨2, 7⟩] _ p2
    ⟨(1, ⟨1, 1, 0, 0⟩), by simp, (3, ⟨1, 1, 0, 0⟩), by simp, by norm_num⟩ wit_spans
  have r1 : ∀ rot : List (ℝ × RovTurn), rot.Perm (witTurns.filterMap id) → Runs rot 2 := fun rot hp =>
    ⟨⟨(0, ⟨0, 0, 0⟩), hp.mem_iff.2 (by simp [witTurns]), by norm_num⟩, (4, ⟨0, 0, 0⟩), hp.mem_iff.2 (by simp [witTurns]), by norm_num⟩
  have one : ∀ xs : List RovImage, xs.Perm (([some ⟨2, 7⟩] : List (Option RovImage)).filterMap id) → xs = [⟨2, 7⟩] := fun xs hx =>
    List.perm_singleton.1 (by simpa using hx)
  have q1 : Runs [((1 : ℝ), (⟨1, 1, 0, 0⟩ : RovShip)), (2, ⟨1, 1, 1, 0⟩), (3, ⟨1, 1, 0, 0⟩)] 2 :=
    ⟨⟨_, List.mem_cons_self, by norm_num⟩, (3, ⟨1, 1, 0, 0⟩), by simp, by norm_num⟩
  have q2 : Runs [((1 : ℝ), (⟨1, 1, 0, 0⟩ : RovShip)), (3, ⟨1, 1, 0, 0⟩)] 2 :=
    ⟨⟨_, List.mem_cons_self, by norm_num⟩, (3, ⟨1, 1, 0, 0⟩), by simp, by norm_num⟩
  obtain rfl := one _ a3
  obtain rfl := one _ a5
  obtain rfl := one _ b3
  obtain rfl := one _ b5
  have c1 : covered [((1 : ℝ), (⟨1, 1, 0, 0⟩ : RovShip)), (2, ⟨1, 1, 1, 0⟩), (3, ⟨1, 1, 0, 0⟩)] rot [⟨2, 7⟩] = [⟨2, 7⟩] := by
    simp [covered, r1 rot a1, q1]
  have c2 : covered [((1 : ℝ), (⟨1, 1, 0, 0⟩ : RovShip)), (3, ⟨1, 1, 0, 0⟩)] rot' [⟨2, 7⟩] = [⟨2, 7⟩] := by
    simp [covered, r1 rot' b1, q2]
  obtain ⟨out, ho⟩ := a7.2 (by rw [c1]; simp [wit])
  have ho' := ho
  rw [show (List.map some [((0 : ℝ), (⟨1, 1, 0, 0⟩ : RovShip)), (1, ⟨1, 1, 0, 0⟩), (2, ⟨1, 1, 1, 0⟩), (3, ⟨1, 1, 0, 0⟩)]) =
    [some (0, ⟨1, 1, 0, 0⟩), some (1, ⟨1, 1, 0, 0⟩), some (2, ⟨1, 1, 1, 0⟩), some (3, ⟨1, 1, 0, 0⟩)] from rfl, key] at ho'
  obtain ⟨dvl, depth, x, y, d1, d2, d3, d4, f1, -, -⟩ := a8 out ho
  obtain ⟨dvl', depth', x', y', d1', d2', d3', d4', f1', -, -⟩ := b8 out ho'
  rw [c1] at f1
  rw [c2] at f1'
  simp only [wit, Option.some.injEq] at d1 d2 d1' d2'
  subst d1 d2 d1' d2'
  cases hl : out.laser with
  | nil => rw [hl] at f1; simp at f1
  | cons l rest =>
    rw [hl] at f1 f1'
    obtain ⟨s, r, dist, bearing, s1, -, s3, -, -, -, -, -, s4, -⟩ := (List.forall₂_cons.1 f1).1
    obtain ⟨s', r', dist', bearing', s1', -, s3', -, -, -, -, -, s4', -⟩ := (List.forall₂_cons.1 f1').1
    simp only [wit, Prod.mk.injEq] at s3 s3'
    have e := s4.1
    have e' := s4'.1
    rw [← s3.1, ← s3.2] at e
    rw [← s3'.1, ← s3'.2] at e'
    simp [bodyToInertial] at e e'
    have v : s.lat = 1 := by
      rcases s1.1 with ⟨k, a, b, ha, hb, h1, h2, h3⟩ | ⟨b, hb, h1, -⟩
      · rcases k with _ | _ | k
        · simp at ha hb
          subst ha hb
          norm_num at h3
          linarith
        · simp at ha
          subst ha
          norm_num at h1
        · simp at hb
      · simp at hb
        subst hb
        norm_num at h1
    have v' : s'.lat = 0 := by
      rcases s1'.1 with ⟨k, a, b, ha, hb, h1, h2, h3⟩ | ⟨b, hb, h1, -⟩
      · rcases k with _ | k
        · simp at ha hb
          subst ha hb
          norm_num at h3
          exact h3
        · simp at hb
      · simp at hb
        subst hb
        norm_num at h1
    rw [v] at e
    rw [v'] at e'
    rw [e] at e'
    norm_num at e'

/-- A dive that meets the hypotheses of `C235_run_partial`, with two positions and two attitudes, is converted. -/
example : ∃ out, rovRun wit false [] [[((0 : ℝ), (⟨1, 1, 0, 0⟩ : RovShip)), (1, ⟨5, 3, 0, 0⟩), (3, ⟨7, 2, 0, 0⟩)].map some] witTurns [some ⟨2, 7⟩]
    [none, some ⟨2, 9⟩] = .ok out := by
  obtain ⟨rot, ls, cs, a1, -, a3, -, a5, -, a7, -⟩ := C235_run_partial wit false [] _ witTurns [some ⟨2, 7⟩] [none, some ⟨2, 9⟩] _
    (C235_plain_log (0, ⟨1, 1, 0, 0⟩) [(1, ⟨5, 3, 0, 0⟩), (3, ⟨7, 2, 0, 0⟩)] (by norm_num [List.pairwise_cons]) (by simp))
    ⟨(1, ⟨5, 3, 0, 0⟩), by simp, (3, ⟨7, 2, 0, 0⟩), by simp, by norm_num⟩ wit_spans
  have r : Runs rot 2 :=
    ⟨⟨(0, ⟨0, 0, 0⟩), a1.mem_iff.2 (by simp [witTurns]), by norm_num⟩, (4, ⟨0, 0, 0⟩), a1.mem_iff.2 (by simp [witTurns]), by norm_num⟩
  have q : Runs [((1 : ℝ), (⟨5, 3, 0, 0⟩ : RovShip)), (3, ⟨7, 2, 0, 0⟩)] 2 :=
    ⟨⟨_, List.mem_cons_self, by norm_num⟩, (3, ⟨7, 2, 0, 0⟩), by simp, by norm_num⟩
  have e1 : ls = [⟨2, 7⟩] := List.perm_singleton.1 (by simpa using a3)
  have e2 : cs = [⟨2, 9⟩] := List.perm_singleton.1 (by simpa using a5)
  refine a7.2 ?_
  rw [e1, e2]
  simp [covered, r, q, wit]

end Oplab.Props
