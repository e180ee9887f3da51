import Verif.Model.Ekf

/-! C35: camera poses from EKF states. -/

namespace Oplab.Props
open Oplab

variable {K : Type} [LinearOrder K] {α β : Type}

/-- The state a camera should get: the first one recorded for its time. -/
def stateAt (ss : List (K × α)) (t : K) : Option (K × α) := ss.find? (fun s => decide (s.1 = t))

/-- What the caller expects: every camera whose time has a state, in order, with the pose
of that state and its own file name. -/
def expectedCameras (mk : α → β) (cs : List (K × String)) (ss : List (K × α)) : List (β × String) :=
  cs.filterMap (fun c => (stateAt ss c.1).map (fun s => (mk s.2, c.2)))

/-- C35, for any lists at all: every output pairs the file name of a camera with the pose of
a state of the same time, and outputs are in camera order. -/
theorem C35_sound (mk : α → β) (cs : List (K × String)) (ss : List (K × α)) :
    (∀ o ∈ updateCameraList mk cs ss, ∃ c ∈ cs, ∃ s ∈ ss, c.1 = s.1 ∧ o = (mk s.2, c.2)) ∧
    ((updateCameraList mk cs ss).map (·.2)).Sublist (cs.map (·.2)) := by
  fun_induction updateCameraList mk cs ss with
  | case1 c cs s ss h ih =>
    exact ⟨fun o ho => by
      obtain ⟨c', hc', s', hs', e⟩ := ih.1 o ho
      exact ⟨c', by simp [hc'], s', hs', e⟩, ih.2.trans (by simp)⟩
  | case2 c cs s ss h h' ih =>
    exact ⟨fun o ho => by
      obtain ⟨c', hc', s', hs', e⟩ := ih.1 o ho
      exact ⟨c', hc', s', by simp [hs'], e⟩, ih.2⟩
  | case3 c cs s ss h h' ih =>
    refine ⟨fun o ho => ?_, by simpa using ih.2⟩
    rcases List.mem_cons.mp ho with rfl | ho
    · exact ⟨c, by simp, s, by simp, le_antisymm (not_lt.mp h') (not_lt.mp h), rfl⟩
    · obtain ⟨c', hc', s', hs', e⟩ := ih.1 o ho
      exact ⟨c', by simp [hc'], s', by simp [hs'], e⟩
  | case4 cs ss h => exact ⟨by simp, by simp⟩

/-- C35, for cameras with strictly increasing times and states in time order (possibly
several per time): exactly the expected cameras. -/
theorem C35_complete_partial (mk : α → β) (cs : List (K × String)) (ss : List (K × α))
    (hc : (cs.map (·.1)).Pairwise (· < ·)) (hs : (ss.map (·.1)).Pairwise (· ≤ ·)) :
    updateCameraList mk cs ss = expectedCameras mk cs ss := by
  fun_induction updateCameraList mk cs ss with
  | case1 c cs s ss h ih =>
    rw [List.map_cons, List.pairwise_cons] at hc
    rw [ih hc.2 hs, expectedCameras, expectedCameras, List.filterMap_cons]
    have : stateAt (s :: ss) c.1 = none := by
      rw [stateAt, List.find?_eq_none]
      intro x hx
      rw [List.map_cons, List.pairwise_cons] at hs
      rcases List.mem_cons.mp hx with rfl | hx
      · simpa using h.ne'
      · simpa using (h.trans_le (hs.1 _ (List.mem_map_of_mem hx))).ne'
    simp [this]
  | case2 c cs s ss h h' ih =>
    have hs2 := hs
    rw [List.map_cons, List.pairwise_cons] at hs
    rw [ih hc hs.2, expectedCameras, expectedCameras]
    refine List.filterMap_congr fun x hx => ?_
    have : s.1 < x.1 := by
      rcases List.mem_cons.mp hx with rfl | hx
      · exact h'
      · rw [List.map_cons, List.pairwise_cons] at hc
        exact h'.trans (hc.1 _ (List.mem_map_of_mem hx))
    simp [stateAt, this.ne]
  | case3 c cs s ss h h' ih =>
    have he : s.1 = c.1 := le_antisymm (not_lt.mp h) (not_lt.mp h')
    rw [List.map_cons, List.pairwise_cons] at hc hs
    rw [ih hc.2 hs.2, expectedCameras, expectedCameras, List.filterMap_cons]
    have h1 : stateAt (s :: ss) c.1 = some s := by simp [stateAt, he]
    rw [h1]
    simp only [Option.map_some]
    congr 1
    refine List.filterMap_congr fun x hx => ?_
    have : s.1 ≠ x.1 := by rw [he]; exact (hc.1 _ (List.mem_map_of_mem hx)).ne
    simp [stateAt, this]
  | case4 cs ss h =>
    cases cs with
    | nil => rfl
    | cons c cs =>
      cases ss with
      | nil => simp [expectedCameras, stateAt]
      | cons s ss => exact (h c cs s ss rfl rfl).elim

/-- Non-vacuity: two images, one before the first state, three states, two at one time. -/
example : updateCameraList (fun p : String => p) [((1 : Nat), "a.png"), (3, "b.png")]
    [(2, "p2"), (3, "p3"), (3, "p3'")] = [("p3", "b.png")] := by decide +kernel

/-- C35 is false when two images share a time: the state is consumed by the first of them
and the second image is dropped although there is a state for its time. -/
theorem C35_same_time_false :
    ∃ (cs : List (Nat × String)) (ss : List (Nat × String)),
      (cs.map (·.1)).Pairwise (· ≤ ·) ∧ (ss.map (·.1)).Pairwise (· < ·) ∧
      (∀ c ∈ cs, ∃ s ∈ ss, s.1 = c.1) ∧
      updateCameraList (fun p => p) cs ss ≠ expectedCameras (fun p => p) cs ss := by
  refine ⟨[(1, "a.png"), (1, "b.png")], [(1, "p"), (2, "q")], by decide, by decide, by decide, ?_⟩
  decide +kernel

end Oplab.Props
