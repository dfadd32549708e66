import Verif.Proofs.StartPositions
import Verif.Spec.Plane
import Verif.Props.ExampleFields

/-!
# C120: nobody starts in a wall
-/

namespace CrowdDynamics

open Set Spec

/-- C120, full statement: in every shipped simulation with walls, no circular agent with a radius that
the shipped body types allow (at most 0.29, see C16) starts overlapping a wall. -/
def C120_statement : Prop :=
  ∀ (s : ExampleSimulation), s.Accepted → ∀ (randTarget randExit : ℤ) (orientation : ℝ),
    ∀ g ∈ s.groups randTarget randExit orientation, ∀ r : ℝ, 0 < r → r ≤ 0.29 →
      ∀ p ∈ s.starts g r, ∀ q ∈ s.plan.obstacles, r ≤ Spec.dist p q

/-- **C120** What holds: in all shipped simulations with walls but `RoomWithOneExit` nobody starts
overlapping a wall, for radii up to 0.3. -/
theorem C120_partial (s : ExampleSimulation) (ha : s.Accepted)
    (hs : ∀ size w h e l, s ≠ .roomWithOneExit size w h e l) (randTarget randExit : ℤ)
    (orientation : ℝ) (g : GroupPlan) (hg : g ∈ s.groups randTarget randExit orientation) (r : ℝ)
    (hr : r ≤ 0.3) (p : Vec) (hp : p ∈ s.starts g r) (q : Vec) (hq : q ∈ s.plan.obstacles) :
    r ≤ Spec.dist p q := by
  by_cases hb : s.passesObstacles = true
  · by_contra hc
    exact hp.2 hb ⟨q, hq, not_le.1 hc⟩
  cases s with
  | roomWithOneExit size w h e l => exact absurd rfl (hs size w h e l)
  | hallway size w h r' =>
    obtain ⟨-, hw, hh, hr0, hr1⟩ := ha
    have hk : g.spawn = 0 ∨ g.spawn = 1 := by
      simp only [ExampleSimulation.groups, hallwayGroups, List.mem_cons, List.not_mem_nil,
        or_false] at hg
      rcases hg with rfl | rfl
      · exact .inl rfl
      · exact .inr rfl
    obtain ⟨-, h1, h2⟩ := mem_box.1 (hallway_samples hw hh hr0 hr1 g.spawn hk hp.1)
    have hq' : q ∈ (hallwayField w h r').obstacles := hq
    rw [hallway_walls] at hq'
    rcases hq' with hq' | hq'
    · exact snd_gap (.inl (by rw [(mem_segment_h.1 hq').1]; linarith))
    · exact snd_gap (.inr (by rw [(mem_segment_h.1 hq').1]; linarith))
  | closedRoom leaders herding w h =>
    obtain ⟨hw, hh⟩ := ha
    have hk : g.spawn = 0 := by
      simp only [ExampleSimulation.groups, closedRoomGroups, List.mem_cons, List.not_mem_nil,
        or_false] at hg
      rcases hg with rfl | rfl <;> rfl
    have hp1 := hp.1
    rw [hk] at hp1
    obtain ⟨⟨h1, h2⟩, h3, h4⟩ := mem_box.1 (closedRoom_samples hw hh hp1)
    rcases (closedRoom_walls w h q).1 hq with hq | hq | hq | hq
    · exact fst_gap (.inl (by rw [(mem_segment_v.1 hq).1]; linarith))
    · exact snd_gap (.inr (by rw [(mem_segment_h.1 hq).1]; linarith))
    · exact fst_gap (.inr (by rw [(mem_segment_v.1 hq).1]; linarith))
    · exact snd_gap (.inl (by rw [(mem_segment_h.1 hq).1]; linarith))
  | fourExits _ _ => exact absurd rfl hb
  | rounding _ _ _ _ => exact absurd rfl hb
  | avoidObstacle _ _ _ _ _ _ => exact absurd rfl hb
  | fourExitsLeaders _ _ _ => exact absurd rfl hb
  | fixedPlacing _ _ _ => exact absurd rfl hb

/-- In the hallway somebody can start, 0.3 from a wall. -/
example : ∃ g ∈ (ExampleSimulation.hallway 10 40 5 0.5).groups 0 0 0,
    ((1, 0.3) : Vec) ∈ (ExampleSimulation.hallway 10 40 5 0.5).starts g 0.29 := by
  refine ⟨_, List.mem_cons_self, ?_, fun h => absurd h (by simp [ExampleSimulation.passesObstacles])⟩
  refine subset_convexHull ℝ _ ⟨?_, fun q hq => ?_⟩
  · show _ ∈ rectangle 0 0 (0.5 * 40) 5
    rw [rectangle_box (by norm_num) (by norm_num)]
    exact mem_box.2 (by norm_num)
  · have hq' : q ∈ (hallwayField 40 5 0.5).obstacles := hq
    rw [hallway_walls] at hq'
    rcases hq' with h | h
    · exact snd_gap (.inl (by rw [(mem_segment_h.1 h).1]; norm_num))
    · exact snd_gap (.inr (by rw [(mem_segment_h.1 h).1]; norm_num))

/-- **C120** What holds in `RoomWithOneExit`: everybody starts in the room, and at least 0.3 from the
three walls that are lines; nothing keeps them away from the two blocks beside the door. -/
theorem C120_room_partial (size : ℕ) (w h e l : ℝ)
    (ha : (ExampleSimulation.roomWithOneExit size w h e l).Accepted) (randTarget randExit : ℤ)
    (orientation : ℝ) (g : GroupPlan)
    (hg : g ∈ (ExampleSimulation.roomWithOneExit size w h e l).groups randTarget randExit orientation)
    (r : ℝ) (p : Vec) (hp : p ∈ (ExampleSimulation.roomWithOneExit size w h e l).starts g r) :
    (0 ≤ p.1 ∧ p.1 ≤ w ∧ 0 ≤ p.2 ∧ p.2 ≤ h) ∧
    ∀ q ∈ lineString [(w, 0), (0, 0), (0, h), (w, h)], 0.3 ≤ Spec.dist p q := by
  obtain ⟨-, hw, hh, -⟩ := ha
  have hk : g.spawn = 0 := by
    simp only [ExampleSimulation.groups, roomGroups, List.mem_singleton] at hg
    rw [hg]
  have hp1 := hp.1
  rw [hk] at hp1
  obtain ⟨⟨h1, h2⟩, h3, h4⟩ := mem_box.1 (roomExit_samples hw hh hp1)
  refine ⟨⟨by linarith, h2, by linarith, by linarith⟩, fun q hq => ?_⟩
  simp only [line_more, line_two, mem_union, mem_segment_h, mem_segment_v] at hq
  rcases hq with hq | hq | hq
  · exact snd_gap (.inl (by rw [hq.1]; linarith))
  · exact fst_gap (.inl (by rw [hq.1]; linarith))
  · exact snd_gap (.inr (by rw [hq.1]; linarith))

/-- With the default parameters somebody can start in the room, between its corner and the door. -/
example : (ExampleSimulation.roomWithOneExit 100 10 10 1.25 2).Accepted ∧
    ∀ g ∈ (ExampleSimulation.roomWithOneExit 100 10 10 1.25 2).groups 0 0 0,
      ((9.85, 2.65) : Vec) ∈ (ExampleSimulation.roomWithOneExit 100 10 10 1.25 2).starts g 0.29 := by
  refine ⟨by simp only [ExampleSimulation.Accepted]; norm_num, fun g hg => ⟨?_, fun h => absurd h (by
    simp [ExampleSimulation.passesObstacles])⟩⟩
  have hk : g.spawn = 0 := by
    simp only [ExampleSimulation.groups, roomGroups, List.mem_singleton] at hg
    rw [hg]
  rw [hk]
  exact roomExit_corner

/-- **C120** fails: in `RoomWithOneExit` with the default parameters an agent can start 0.15 from the
wall beside the door, whatever its radius: the obstacles are not passed to the placement, and the
positions are drawn from a convex hull that cuts the corner between the room and the door. -/
theorem C120_fails : ¬ C120_statement ∧
    ∀ r, ∀ g ∈ (ExampleSimulation.roomWithOneExit 100 10 10 1.25 2).groups 0 0 0,
      ((9.85, 2.65) : Vec) ∈ (ExampleSimulation.roomWithOneExit 100 10 10 1.25 2).starts g r ∧
      ((10, 2.65) : Vec) ∈ (ExampleSimulation.roomWithOneExit 100 10 10 1.25 2).plan.obstacles ∧
      Spec.dist (9.85, 2.65) (10, 2.65) = 0.15 := by
  have hd : Spec.dist (9.85, 2.65) (10, 2.65) = 0.15 := by
    unfold Spec.dist Spec.len
    rw [Real.sqrt_eq_iff_mul_self_eq (by positivity) (by norm_num)]
    norm_num
  have hq : ((10, 2.65) : Vec) ∈
      (ExampleSimulation.roomWithOneExit 100 10 10 1.25 2).plan.obstacles := by
    refine .inr (.inr ?_)
    rw [rectangle_box (by norm_num) (by norm_num)]
    exact mem_box.2 (by norm_num)
  have hs : ∀ r, ∀ g ∈ (ExampleSimulation.roomWithOneExit 100 10 10 1.25 2).groups 0 0 0,
      ((9.85, 2.65) : Vec) ∈ (ExampleSimulation.roomWithOneExit 100 10 10 1.25 2).starts g r := by
    intro r g hg
    have hk : g.spawn = 0 := by
      simp only [ExampleSimulation.groups, roomGroups, List.mem_singleton] at hg
      rw [hg]
    refine ⟨?_, fun h => absurd h (by simp [ExampleSimulation.passesObstacles])⟩
    rw [hk]
    exact roomExit_corner
  refine ⟨fun hst => ?_, fun r g hg => ⟨hs r g hg, hq, hd⟩⟩
  have := hst (.roomWithOneExit 100 10 10 1.25 2) (by
    simp only [ExampleSimulation.Accepted]; norm_num) 0 0 0 _ List.mem_cons_self 0.29 (by norm_num)
    le_rfl _ (hs 0.29 _ List.mem_cons_self) _ hq
  rw [hd] at this
  norm_num at this

end CrowdDynamics
