import Verif.Proofs.ExampleEnclosed

/-!
# Properties of the shipped fields and of the groups placed in them
-/

namespace CrowdDynamics

open Set Spec

/-! ## C99: fields with walls are closed -/

/-- Full statement of C99. -/
def C99_statement : Prop := ∀ f : ExampleField, f.Accepted → Walled f → Enclosed f.plan

/-- **C99** (partial): every shipped field with walls is closed off by its walls and exits, for all
parameters that it accepts; missing is the room with one exit when the exit is wider than the
room, see `C99_fails`. -/
theorem C99_partial (f : ExampleField) (ha : f.Accepted) (hw : Walled f)
    (he : ∀ w h e l, f = .roomWithOneExit w h e l → e ≤ h) : Enclosed f.plan := by
  cases f with
  | outdoor => exact hw.elim
  | pillar => exact hw.elim
  | hallway w h r => exact hallway_enclosed ha.1 ha.2.1 ha.2.2.1 ha.2.2.2
  | rounding w h r => exact rounding_enclosed ha.1 ha.2.1
  | avoidObstacle w h e r => exact avoid_enclosed ha.1 ha.2.1
  | closedRoom w h => exact closedRoom_enclosed ha.1 ha.2
  | roomWithOneExit w h e l =>
    exact roomExit_enclosed ha.1 ha.2.2.1 (he _ _ _ _ rfl) ha.2.2.2.2
  | fourExits e => exact fourExits_enclosed ha.1 ha.2

example : (ExampleField.roomWithOneExit 10 10 1.25 2).Accepted ∧
    Walled (.roomWithOneExit 10 10 1.25 2) ∧
    ∀ w h e l, ExampleField.roomWithOneExit 10 10 1.25 2 = .roomWithOneExit w h e l → e ≤ h := by
  refine ⟨by norm_num [ExampleField.Accepted], trivial, ?_⟩
  intro w h e l heq
  cases heq
  norm_num

/-- **C99** (negation): with an exit that is wider than the room is high, which the parameters
allow, the outline has gaps. -/
theorem C99_fails : ¬ C99_statement := by
  intro hall
  have ha : (ExampleField.roomWithOneExit 10 1 3 2).Accepted := by
    norm_num [ExampleField.Accepted]
  have h := hall _ ha trivial (5, 3 / 2)
  have corners1 : ∀ p ∈ rectangle 10 2 2 (-1), 10 ≤ p.1 ∧ -1 * p.1 + 10 * p.2 ≤ 10 := by
    intro p hp
    constructor
    · have := hull_half (a := -1) (b := 0) (c := -10) (s := {p | p ∈ rectangleRing 10 2 2 (-1)})
        (by simp only [rectangleRing, mem_setOf_eq, List.mem_cons, List.not_mem_nil, or_false]
            rintro p (rfl | rfl | rfl | rfl) <;> norm_num) p hp
      linarith
    · exact hull_half (s := {p | p ∈ rectangleRing 10 2 2 (-1)})
        (by simp only [rectangleRing, mem_setOf_eq, List.mem_cons, List.not_mem_nil, or_false]
            rintro p (rfl | rfl | rfl | rfl) <;> norm_num) p hp
  have corners2 : ∀ p ∈ rectangle 10 0 2 (-1), 10 ≤ p.1 ∧ -1 * p.1 + 10 * p.2 ≤ 10 := by
    intro p hp
    constructor
    · have := hull_half (a := -1) (b := 0) (c := -10) (s := {p | p ∈ rectangleRing 10 0 2 (-1)})
        (by simp only [rectangleRing, mem_setOf_eq, List.mem_cons, List.not_mem_nil, or_false]
            rintro p (rfl | rfl | rfl | rfl) <;> norm_num) p hp
      linarith
    · exact hull_half (s := {p | p ∈ rectangleRing 10 0 2 (-1)})
        (by simp only [rectangleRing, mem_setOf_eq, List.mem_cons, List.not_mem_nil, or_false]
            rintro p (rfl | rfl | rfl | rfl) <;> norm_num) p hp
  have ho : (roomWithOneExitField 10 1 3 2).obstacles =
      lineString [(10, 0), (0, 0), (0, 1), (10, 1)] ∪
        (rectangle 10 2 2 (-1) ∪ rectangle 10 0 2 (-1)) := by
    simp only [roomWithOneExitField]
    norm_num
  have hroom : ∀ p ∈ lineString [((10, 0) : Vec), (0, 0), (0, 1), (10, 1)],
      (0 ≤ p.1 ∧ p.2 ≤ 1) ∧ (p.2 = 0 ∨ p.1 = 0 ∨ p.2 = 1) := by
    intro p hp
    simp only [line_more, line_two, mem_union, mem_segment_h, mem_segment_v] at hp
    rcases hp with ⟨a, b | b⟩ | ⟨a, b | b⟩ | ⟨a, b | b⟩
    · exact ⟨⟨by linarith, by linarith⟩, Or.inl a⟩
    · exact ⟨⟨by linarith, by linarith⟩, Or.inl a⟩
    · exact ⟨⟨by linarith, by linarith⟩, Or.inr (Or.inl a)⟩
    · exact ⟨⟨by linarith, by linarith⟩, Or.inr (Or.inl a)⟩
    · exact ⟨⟨by linarith, by linarith⟩, Or.inr (Or.inr a)⟩
    · exact ⟨⟨by linarith, by linarith⟩, Or.inr (Or.inr a)⟩
  have ht : ∀ p : Vec, (∃ t ∈ (roomWithOneExitField 10 1 3 2).targets, p ∈ segment ℝ t.1 t.2) →
      p.1 = 12 ∧ p.2 ≤ 2 := by
    intro p hp
    simp only [roomWithOneExitField, List.mem_cons, List.not_mem_nil, or_false, exists_eq_left,
      mem_segment_v] at hp
    norm_num at hp
    exact ⟨hp.1, by rcases hp.2 with b | b <;> linarith⟩
  have hhalf : ∀ p ∈ (roomWithOneExitField 10 1 3 2).domain, -1 * p.1 + 10 * p.2 ≤ 10 := by
    refine hull_half ?_
    rintro p ((hp | hp) | hp)
    · replace hp : p ∈ (roomWithOneExitField 10 1 3 2).obstacles := hp
      rw [ho] at hp
      rcases hp with hp | hp | hp
      · linarith [(hroom p hp).1.1, (hroom p hp).1.2]
      · exact (corners1 p hp).2
      · exact (corners2 p hp).2
    · have := ht p ((exits_iff _ p).1 hp)
      linarith
    · obtain ⟨s, hs, hp⟩ := hp
      simp only [List.mem_cons, List.not_mem_nil, or_false] at hs
      rw [hs, room_hull (by norm_num) (by norm_num), mem_box] at hp
      linarith [hp.1.1, hp.2.2]
  have hin : ((5, 3 / 2) : Vec) ∈ (roomWithOneExitField 10 1 3 2).domain := by
    have hA : ((0, 1) : Vec) ∈ (roomWithOneExitField 10 1 3 2).domain := by
      refine subset_convexHull ℝ _ (Or.inl (Or.inl (Or.inl ?_)))
      simp only [line_more, line_two, mem_union, mem_segment_v]
      right; left
      norm_num
    have hB : ((10, 2) : Vec) ∈ (roomWithOneExitField 10 1 3 2).domain := by
      refine subset_convexHull ℝ _ (Or.inl (Or.inl (Or.inr (Or.inl ?_))))
      refine subset_convexHull ℝ _ ?_
      simp [rectangleRing]
      norm_num
    have hc : Convex ℝ (roomWithOneExitField 10 1 3 2).domain := convex_convexHull ℝ _
    have := hc hA hB (show (0:ℝ) ≤ 1 / 2 by norm_num) (show (0:ℝ) ≤ 1 / 2 by norm_num)
      (by norm_num)
    rwa [show ((1 / 2 : ℝ) • ((0, 1) : Vec) + (1 / 2 : ℝ) • ((10, 2) : Vec)) = (5, 3 / 2) from
      Prod.ext (by norm_num) (by norm_num)] at this
  have hf := frontier_of_half (by norm_num) hin hhalf (by norm_num)
  rcases h hf with h1 | h1
  · replace h1 : ((5, 3 / 2) : Vec) ∈ (roomWithOneExitField 10 1 3 2).obstacles := h1
    rw [ho] at h1
    rcases h1 with h1 | h1 | h1
    · have := (hroom _ h1).2
      norm_num at this
    · have := (corners1 _ h1).1
      norm_num at this
    · have := (corners2 _ h1).1
      norm_num at this
  · have := ht _ h1
    norm_num at this

/-! ## C100: the parts of a field lie in its domain -/

/-- Full statement of C100. -/
def C100_statement : Prop := ∀ f : ExampleField, f.Accepted → Contained f.plan

/-- **C100** (partial): obstacles, targets and spawns of every shipped field lie in its domain;
missing are the pillar and the obstacle with an exit higher than the room, see `C100_fails` and
`C100_pillar_fails`. -/
theorem C100_partial (f : ExampleField) (ha : f.Accepted)
    (hp : ∀ w h r, f ≠ .pillar w h r)
    (he : ∀ w h e r, f = .avoidObstacle w h e r → e ≤ h) : Contained f.plan := by
  cases f with
  | pillar w h r => exact (hp _ _ _ rfl).elim
  | outdoor w h =>
    refine ⟨fun p h => h.elim, fun t ht => ?_, fun s hs => ?_⟩
    · cases ht
    · simp only [ExampleField.plan, outdoorField, List.mem_cons, List.not_mem_nil, or_false] at hs
      rw [hs]
      exact subset_refl _
  | hallway w h r => exact hull_contained rfl
  | rounding w h r => exact rounding_contained ha.1 ha.2.1 ha.2.2.1 ha.2.2.2
  | avoidObstacle w h e r =>
    have h1 := ha.2.2.1
    exact avoid_contained ha.1 (by linarith) (he _ _ _ _ rfl) ha.2.2.2.1 ha.2.2.2.2
  | closedRoom w h => exact closedRoom_contained ha.1 ha.2
  | roomWithOneExit w h e l => exact hull_contained rfl
  | fourExits e => exact hull_contained rfl

example : (ExampleField.avoidObstacle 10 10 3 0.6).Accepted ∧
    (∀ w h r, ExampleField.avoidObstacle 10 10 3 0.6 ≠ .pillar w h r) ∧
    ∀ w h e r, ExampleField.avoidObstacle 10 10 3 0.6 = .avoidObstacle w h e r → e ≤ h := by
  refine ⟨by norm_num [ExampleField.Accepted], fun w h r => by simp, ?_⟩
  intro w h e r heq
  cases heq
  norm_num

/-- **C100** (negation): the exit of `AvoidObstacle` sticks out of a room that is lower than it. -/
theorem C100_fails : ¬ C100_statement := by
  intro hall
  have h := (hall (.avoidObstacle 10 1 3 0.6) (by norm_num [ExampleField.Accepted])).2.1
    ((10, 0), (10, 3)) (List.mem_singleton_self _) (right_mem_segment ℝ _ _)
  have e1 := avoid_domain (w := 10) (h := 1) (e := 3) (r := 0.6) (by norm_num) (by norm_num)
  replace h : ((10, 3) : Vec) ∈ (avoidObstacleField 10 1 3 0.6).domain := h
  rw [e1, mem_box] at h
  have := h.2.2
  norm_num at this

/-- **C100** (negation, with the default parameters): the pillar of `PillarInTheMiddle` is not in
the domain. -/
theorem C100_pillar_fails : ¬ Contained (ExampleField.pillar 20 20 1).plan := by
  intro h
  have h1 : ((0, 0) : Vec) ∈ (pillarField 20 20 1).domain := h.1 (by
    simp [ExampleField.plan, pillarField])
  simp only [pillarField] at h1
  rw [rectangle_box (by norm_num) (by norm_num), mem_box] at h1
  have := h1.1.1
  norm_num at this

/-! ## C101: exits are free -/

/-- Full statement of C101. -/
def C101_statement : Prop := ∀ f : ExampleField, f.Accepted → FreeExits f.plan

/-- **C101** (partial): no wall stands in an exit; missing are `AvoidObstacle` with its obstacle at
the exit (see `C101_fails`) and `RoomWithOneExit` with an exit wider than the room or a room
without extent. -/
theorem C101_partial (f : ExampleField) (ha : f.Accepted)
    (ho : ∀ w h e r, f = .avoidObstacle w h e r → 0 < w ∧ r < 1)
    (he : ∀ w h e l, f = .roomWithOneExit w h e l → e ≤ h ∧ 0 < w + l) : FreeExits f.plan := by
  cases f with
  | pillar w h r => intro t ht; cases ht
  | outdoor w h => intro t ht; cases ht
  | closedRoom w h => intro t ht; cases ht
  | hallway w h r => exact hallway_free ha.2.1
  | rounding w h r => exact rounding_free ha.2.1
  | avoidObstacle w h e r =>
    have h1 := ha.2.2.1
    exact avoid_free (ho _ _ _ _ rfl).1 (by linarith) (ho _ _ _ _ rfl).2
  | roomWithOneExit w h e l =>
    exact roomExit_free ha.2.2.1 (he _ _ _ _ rfl).1 ha.2.2.2.2 (he _ _ _ _ rfl).2
  | fourExits e => exact fourExits_free ha.1 ha.2

example : (ExampleField.fourExits 1.25).Accepted ∧
    (∃ t ∈ (ExampleField.fourExits 1.25).plan.targets, t.1 ≠ t.2) := by
  refine ⟨by norm_num [ExampleField.Accepted], ((0, 10), (0, 10 + 1.25)), ?_, ?_⟩
  · simp [ExampleField.plan, fourExits_targets]
  · intro h
    have := congrArg Prod.snd h
    norm_num at this

/-- **C101** (negation): with `ratio_obs = 1` the obstacle stands in the exit. -/
theorem C101_fails : ¬ C101_statement := by
  intro hall
  refine hall (.avoidObstacle 10 10 3 1) (by norm_num [ExampleField.Accepted])
    ((10, 0), (10, 3)) (List.mem_singleton_self _) (by simp) (10, 1.5) ?_ (Or.inr ?_)
  · refine ⟨1 / 2, 1 / 2, by norm_num, by norm_num, by norm_num, ?_⟩
    ext <;> norm_num
  · rw [line_two, one_mul, mem_segment_v]
    norm_num

/-! ## C102: the leaders of `FourExitsFixedPlacing` -/

/-- **C102**: every leader of `FourExitsFixedPlacing` starts inside of the domain and at least five
metres away from all walls, whatever the width of the exits; two leaders start at least five
metres apart. -/
theorem C102_leaders (e : ℝ) (he : 0 ≤ e) (he1 : e ≤ 10) :
    (∀ s ∈ leaderSpawns, s ⊆ (fixedPlacingField e).domain ∧
      Clear 5 s (fixedPlacingField e).obstacles) ∧
    leaderSpawns.Pairwise (Clear 5) := by
  have hd : (fixedPlacingField e).domain = box 0 100 0 80 := fourExits_domain he he1
  have r1 : rectangle 25 45 10 10 = box 25 35 45 55 := by
    rw [rectangle_box (by norm_num) (by norm_num)]; norm_num
  have r2 : rectangle 80 65 10 10 = box 80 90 65 75 := by
    rw [rectangle_box (by norm_num) (by norm_num)]; norm_num
  have r3 : rectangle 75 35 10 10 = box 75 85 35 45 := by
    rw [rectangle_box (by norm_num) (by norm_num)]; norm_num
  have r4 : rectangle 35 5 10 10 = box 35 45 5 15 := by
    rw [rectangle_box (by norm_num) (by norm_num)]; norm_num
  have hx : ∀ {p q : Vec}, (5 ≤ p.1 - q.1 ∨ 5 ≤ q.1 - p.1 ∨ 5 ≤ p.2 - q.2 ∨ 5 ≤ q.2 - p.2) →
      (5:ℝ) ^ 2 ≤ (p.1 - q.1) ^ 2 + (p.2 - q.2) ^ 2 := by
    intro p q h
    rcases h with h | h | h | h <;>
      nlinarith [sq_nonneg (p.1 - q.1), sq_nonneg (p.2 - q.2)]
  rw [leaderSpawns, r1, r2, r3, r4, hd]
  refine ⟨?_, ?_⟩
  · intro s hs
    simp only [List.mem_cons, List.not_mem_nil, or_false] at hs
    refine ⟨?_, ?_⟩
    · intro p hp
      rw [mem_box]
      rcases hs with rfl | rfl | rfl | rfl <;> rw [mem_box] at hp <;>
        refine ⟨⟨?_, ?_⟩, ?_, ?_⟩ <;> linarith [hp.1.1, hp.1.2, hp.2.1, hp.2.2]
    · intro p hp q hq
      replace hq : q ∈ (fourExitsField e).obstacles := hq
      rw [fourExits_walls q he1] at hq
      apply hx
      by_contra hn
      push Not at hn
      obtain ⟨n1, n2, n3, n4⟩ := hn
      rcases hs with rfl | rfl | rfl | rfl <;> rw [mem_box] at hp <;>
        obtain ⟨⟨a, b⟩, c, d⟩ := hp <;>
        rcases hq with h | h | h | h | h | h | h | h | h | h | h | h | h | h <;>
        linarith [h.1, h.2.1, h.2.2]
  · simp only [List.pairwise_cons, List.mem_cons, List.not_mem_nil, or_false, List.Pairwise.nil,
      and_true, forall_eq_or_imp, forall_eq, IsEmpty.forall_iff, implies_true]
    refine ⟨⟨?_, ?_, ?_⟩, ⟨?_, ?_⟩, ?_⟩ <;>
      · intro p hp q hq
        rw [mem_box] at hp hq
        apply hx
        by_contra hn
        push Not at hn
        linarith [hp.1.1, hp.1.2, hp.2.1, hp.2.2, hq.1.1, hq.1.2, hq.2.1, hq.2.2, hn.1, hn.2.1,
          hn.2.2.1, hn.2.2.2]

/-- The spawns are not empty: the first leader may start at (30, 50). -/
example : ((30, 50) : Vec) ∈ rectangle 25 45 10 10 := by
  rw [rectangle_box (by norm_num) (by norm_num), mem_box]
  norm_num

/-! ## C103: groups refer to existing spawns and targets -/

/-- **C103**: in every shipped simulation with walls each group is placed in a spawn of the field,
the targets and familiar exits of its members are those of the field, nobody is leader and
follower at once, and followers begin without a target. -/
theorem C103_references (s : ExampleSimulation) (ha : s.Accepted) (randTarget randExit : ℤ)
    (orientation : ℝ) (h1 : 0 < s.plan.targets.length → 0 ≤ randTarget ∧ randTarget < s.plan.targets.length)
    (h2 : 0 < s.plan.targets.length → 0 ≤ randExit ∧ randExit < s.plan.targets.length) :
    ∀ g ∈ s.groups randTarget randExit orientation,
      (0 ≤ g.spawn ∧ g.spawn < s.plan.spawns.length) ∧
      RefersTo s.plan.targets.length g.target ∧ RefersTo s.plan.targets.length g.familiarExit ∧
      ¬ (g.isLeader = true ∧ g.isFollower = true) ∧ (g.isFollower = true → g.target = -1) := by
  cases s with
  | hallway size w h r =>
    simp [ExampleSimulation.groups, hallwayGroups, ExampleSimulation.plan, ExampleSimulation.field,
      ExampleField.plan, hallwayField, hallwayParts, RefersTo, noTarget]
  | roomWithOneExit size w h e l =>
    simp [ExampleSimulation.groups, roomGroups, ExampleSimulation.plan, ExampleSimulation.field,
      ExampleField.plan, roomWithOneExitField, RefersTo, noTarget]
  | fourExits size e =>
    simp [ExampleSimulation.plan, ExampleSimulation.field, ExampleField.plan,
      fourExits_targets] at h1 h2
    simp [ExampleSimulation.groups, fourExitsGroups, ExampleSimulation.plan,
      ExampleSimulation.field, ExampleField.plan, fourExitsField, RefersTo,
      h1, h2]
  | rounding leaders herding w h =>
    simp [ExampleSimulation.plan, ExampleSimulation.field, ExampleField.plan,
      roundingField] at h1 h2
    simp [ExampleSimulation.groups, roundingGroups, ExampleSimulation.plan, chooseTarget,
      ExampleSimulation.field, ExampleField.plan, roundingField, RefersTo, noTarget, h1]
  | avoidObstacle leaders herding w h e r =>
    simp [ExampleSimulation.plan, ExampleSimulation.field, ExampleField.plan,
      avoidObstacleField] at h1 h2
    simp [ExampleSimulation.groups, avoidObstacleGroups, ExampleSimulation.plan, chooseTarget,
      ExampleSimulation.field, ExampleField.plan, avoidObstacleField, RefersTo, noTarget, h1]
  | closedRoom leaders herding w h =>
    simp [ExampleSimulation.groups, closedRoomGroups, ExampleSimulation.plan,
      ExampleSimulation.field, ExampleField.plan, closedRoomField, RefersTo, noTarget]
  | fourExitsLeaders leaders herding e =>
    simp [ExampleSimulation.plan, ExampleSimulation.field, ExampleField.plan,
      fourExits_targets] at h1 h2
    simp [ExampleSimulation.groups, fourExitsLeaderGroups, ExampleSimulation.plan, chooseTarget,
      ExampleSimulation.field, ExampleField.plan, fourExitsField, RefersTo,
      noTarget, h1, h2]
  | fixedPlacing leaders herding e =>
    have hl : leaders = 4 := ha.1
    subst hl
    simp [ExampleSimulation.plan, fixedPlacingField, fourExits_targets] at h2
    intro g hg
    simp only [ExampleSimulation.groups, fixedPlacingGroups, List.mem_append, List.mem_map,
      List.mem_range, List.mem_cons, List.not_mem_nil, or_false] at hg
    rcases hg with ⟨i, hi, rfl⟩ | rfl
    · simp [ExampleSimulation.plan, fixedPlacingField, leaderSpawns,
        fourExitsField, RefersTo, h2]
      omega
    · simp [ExampleSimulation.plan, fixedPlacingField, leaderSpawns,
        fourExitsField, RefersTo, h2, noTarget]

/-- Four leaders and a hundred others: five groups. -/
example : (ExampleSimulation.fixedPlacing 4 100 1.25).Accepted ∧
    (ExampleSimulation.fixedPlacing 4 100 1.25).plan.targets.length = 4 ∧
    ((ExampleSimulation.fixedPlacing 4 100 1.25).groups 0 2 0).length = 5 := by
  refine ⟨by norm_num [ExampleSimulation.Accepted], rfl, rfl⟩

/-- **C103**: with leaders, there are as many leaders and as many followers as the parameters ask for
and nobody else, and a leader has a target if the field has any; without leaders, nobody is a leader
or follower and everybody has a target. -/
theorem C103_roles (s : ExampleSimulation) (randTarget randExit : ℤ) (orientation : ℝ)
    (h1 : 0 < s.plan.targets.length → 0 ≤ randTarget) :
    (∀ leaders herding, rolesAsked s = some (leaders, herding) →
      membersWith (·.isLeader) (s.groups randTarget randExit orientation) = leaders ∧
      membersWith (·.isFollower) (s.groups randTarget randExit orientation) = herding ∧
      ∀ g ∈ s.groups randTarget randExit orientation, (g.isLeader = true ∨ g.isFollower = true) ∧
        (g.isLeader = true → 0 < s.plan.targets.length → 0 ≤ g.target)) ∧
    (rolesAsked s = none → ∀ g ∈ s.groups randTarget randExit orientation,
      g.isLeader = false ∧ g.isFollower = false ∧ 0 ≤ g.target) := by
  cases s with
  | hallway size w h r =>
    simp [ExampleSimulation.groups, hallwayGroups, rolesAsked]
  | roomWithOneExit size w h e l =>
    simp [ExampleSimulation.groups, roomGroups, rolesAsked]
  | fourExits size e =>
    simp [ExampleSimulation.plan, ExampleSimulation.field, ExampleField.plan,
      fourExits_targets] at h1
    simp [ExampleSimulation.groups, fourExitsGroups, rolesAsked, h1]
  | rounding leaders herding w h =>
    simp [ExampleSimulation.plan, ExampleSimulation.field, ExampleField.plan, roundingField] at h1
    simp [ExampleSimulation.groups, roundingGroups, chooseTarget, rolesAsked, membersWith, h1]
  | avoidObstacle leaders herding w h e r =>
    simp [ExampleSimulation.plan, ExampleSimulation.field, ExampleField.plan,
      avoidObstacleField] at h1
    simp [ExampleSimulation.groups, avoidObstacleGroups, chooseTarget, rolesAsked, membersWith, h1]
  | closedRoom leaders herding w h =>
    simp [ExampleSimulation.groups, closedRoomGroups, rolesAsked, membersWith,
      ExampleSimulation.plan, ExampleSimulation.field, ExampleField.plan, closedRoomField]
  | fourExitsLeaders leaders herding e =>
    simp [ExampleSimulation.plan, ExampleSimulation.field, ExampleField.plan,
      fourExits_targets] at h1
    simp [ExampleSimulation.groups, fourExitsLeaderGroups, chooseTarget, rolesAsked, membersWith, h1]
  | fixedPlacing leaders herding e =>
    refine ⟨?_, by simp [rolesAsked]⟩
    rintro l k hlk
    simp only [rolesAsked, Option.some.injEq, Prod.mk.injEq] at hlk
    obtain ⟨rfl, rfl⟩ := hlk
    refine ⟨?_, ?_, ?_⟩
    · simp [ExampleSimulation.groups, fixedPlacingGroups, membersWith, List.filter_map,
        Function.comp_def]
    · simp [ExampleSimulation.groups, fixedPlacingGroups, membersWith, List.filter_map,
        Function.comp_def]
    · intro g hg
      simp only [ExampleSimulation.groups, fixedPlacingGroups, List.mem_append, List.mem_map,
        List.mem_range, List.mem_cons, List.not_mem_nil, or_false] at hg
      rcases hg with ⟨i, hi, rfl⟩ | rfl <;> simp

example : rolesAsked (.fixedPlacing 4 100 1.25) = some (4, 100) ∧
    (ExampleSimulation.fixedPlacing 4 100 1.25).plan.targets.length = 4 ∧ (0 : ℤ) ≤ 2 ∧
    rolesAsked (.hallway 50 40 5 (1 / 3)) = none :=
  ⟨rfl, rfl, by norm_num, rfl⟩

/-! ## C104: the number of agents -/

/-- Full statement of C104. -/
def C104_statement : Prop := ∀ (s : ExampleSimulation) (t e : ℤ) (o : ℝ), s.Accepted →
  ((s.groups t e o).map (·.size)).sum = s.requested

/-- **C104** (partial): the groups of a shipped simulation have together as many members as its
parameters ask for; missing is the hallway with an odd size, see `C104_fails`. -/
theorem C104_partial (s : ExampleSimulation) (t e : ℤ) (o : ℝ)
    (h : ∀ size w h r, s = .hallway size w h r → Even size) :
    ((s.groups t e o).map (·.size)).sum = s.requested := by
  cases s with
  | hallway size w ht r =>
    obtain ⟨k, hk⟩ := h _ _ _ _ rfl
    subst hk
    simp [ExampleSimulation.groups, hallwayGroups, ExampleSimulation.requested]
    omega
  | fixedPlacing leaders herding e =>
    simp only [ExampleSimulation.groups, fixedPlacingGroups, ExampleSimulation.requested,
      List.map_append, List.map_map, List.sum_append, List.map_cons, List.map_nil, List.sum_cons,
      List.sum_nil, add_zero]
    simp [Function.comp_def]
  | _ => simp [ExampleSimulation.groups, ExampleSimulation.requested, roomGroups, fourExitsGroups,
      roundingGroups, avoidObstacleGroups, closedRoomGroups, fourExitsLeaderGroups]

example : ∀ size w h r, ExampleSimulation.hallway 50 40 5 (1 / 3) = .hallway size w h r →
    Even size := by
  intro size w h r heq
  cases heq
  decide

/-- **C104** (negation): a hallway of size 3 has two agents. -/
theorem C104_fails : ¬ C104_statement := by
  intro h
  have := h (.hallway 3 40 5 (1 / 3)) 0 0 0 (by norm_num [ExampleSimulation.Accepted])
  simp [ExampleSimulation.groups, hallwayGroups, ExampleSimulation.requested] at this

/-! ## C105: the groups of the hallway walk towards their exits -/

/-- **C105**: in the hallway everybody of a group who starts at a point of the spawn of the group and
goes straight in the initial direction reaches the target of the group. -/
theorem C105_heading (size : ℕ) (w h r : ℝ) (hw : 0 ≤ w) (hh : 0 ≤ h) (hr : 0 ≤ r) (hr1 : r ≤ 1) :
    ∀ g ∈ hallwayGroups size, ∃ s t, (hallwayField w h r).spawns[g.spawn.toNat]? = some s ∧
      (hallwayField w h r).targets[g.target.toNat]? = some t ∧
      ∀ p ∈ s, Reaches p g.direction t := by
  have h1 : 0 ≤ r * w := mul_nonneg hr hw
  have h2 : r * w ≤ w := by nlinarith
  intro g hg
  simp only [hallwayGroups, List.mem_cons, List.not_mem_nil, or_false] at hg
  rcases hg with rfl | rfl
  · refine ⟨_, _, rfl, rfl, fun p hp => ⟨w - p.1, ?_, ?_⟩⟩
    · rw [rectangle_box h1 hh, mem_box] at hp
      linarith [hp.1.2]
    · rw [rectangle_box h1 hh, mem_box] at hp
      simp only [unitVector, Real.cos_zero, Real.sin_zero]
      rw [mem_segment_v]
      refine ⟨by simp, Or.inl ⟨?_, ?_⟩⟩ <;> simp only <;> linarith [hp.2.1, hp.2.2]
  · refine ⟨_, _, rfl, rfl, fun p hp => ⟨p.1, ?_, ?_⟩⟩
    · rw [rectangle_box h1 hh, mem_box] at hp
      nlinarith [hp.1.1]
    · rw [rectangle_box h1 hh, mem_box] at hp
      simp only [unitVector, Real.cos_pi, Real.sin_pi]
      rw [mem_segment_v]
      refine ⟨by simp, Or.inl ⟨?_, ?_⟩⟩ <;> simp only <;> linarith [hp.2.1, hp.2.2]

/-- The hallway of the defaults; its first spawn has the point (1, 2). -/
example : (0:ℝ) ≤ 40 ∧ (0:ℝ) ≤ 5 ∧ (0:ℝ) ≤ 1 / 3 ∧ (1 / 3 : ℝ) ≤ 1 ∧
    ((1, 2) : Vec) ∈ rectangle 0 0 (1 / 3 * 40) 5 := by
  refine ⟨by norm_num, by norm_num, by norm_num, by norm_num, ?_⟩
  rw [rectangle_box (by norm_num) (by norm_num), mem_box]
  norm_num

/-- **C105**: in the room with one exit everybody who starts at the height of the exit and goes
straight in the initial direction reaches the exit. -/
theorem C105_room (size : ℕ) (w h e l : ℝ) (hw : 0 ≤ w) (hh : 0 ≤ h) (hl : 0 ≤ l) :
    ∀ g ∈ roomGroups size, ∃ s t, (roomWithOneExitField w h e l).spawns[g.spawn.toNat]? = some s ∧
      (roomWithOneExitField w h e l).targets[g.target.toNat]? = some t ∧
      ∀ p ∈ s, (h - e) / 2 ≤ p.2 → p.2 ≤ (h + e) / 2 → Reaches p g.direction t := by
  intro g hg
  simp only [roomGroups, List.mem_cons, List.not_mem_nil, or_false] at hg
  subst hg
  refine ⟨_, _, rfl, rfl, fun p hp h1 h2 => ⟨w + l - p.1, ?_, ?_⟩⟩
  · rw [room_hull hw hh, mem_box] at hp
    linarith [hp.1.2]
  · simp only [unitVector, Real.cos_zero, Real.sin_zero]
    rw [mem_segment_v]
    refine ⟨by simp, Or.inl ⟨?_, ?_⟩⟩ <;> simp only <;> linarith

/-- The room of the defaults; the point (1, 5) is at the height of the exit. -/
example : (0:ℝ) ≤ 10 ∧ (0:ℝ) ≤ 2 ∧
    ((1, 5) : Vec) ∈ convexHull ℝ (lineString [(10, 0), (0, 0), (0, 10), (10, 10)]) ∧
    ((10:ℝ) - 1.25) / 2 ≤ 5 ∧ (5:ℝ) ≤ (10 + 1.25) / 2 := by
  refine ⟨by norm_num, by norm_num, ?_, by norm_num, by norm_num⟩
  rw [room_hull (by norm_num) (by norm_num), mem_box]
  norm_num

/-! ## C106: the groups of the hallway start on opposite sides -/

/-- Full statement of C106. -/
def C106_statement : Prop := ∀ w h r : ℝ, 0 ≤ w → 0 ≤ h → 0 ≤ r → r ≤ 1 →
  ∀ s t, (hallwayField w h r).spawns = [s, t] → ∀ p ∈ s, ∀ q ∈ t, p.1 ≤ q.1

/-- **C106** (partial): the group that goes to the right starts to the left of the other group;
missing are ratios above one half, see `C106_fails`. -/
theorem C106_partial (w h r : ℝ) (hw : 0 ≤ w) (hh : 0 ≤ h) (hr : 0 ≤ r) (hr1 : r ≤ 1 / 2)
    (s t : Set Vec) (hst : (hallwayField w h r).spawns = [s, t]) : ∀ p ∈ s, ∀ q ∈ t, p.1 ≤ q.1 := by
  have h1 : 0 ≤ r * w := mul_nonneg hr hw
  simp only [hallwayField, hallwayParts, List.cons.injEq, and_true] at hst
  obtain ⟨rfl, rfl⟩ := hst
  intro p hp q hq
  rw [rectangle_box h1 hh, mem_box] at hp hq
  nlinarith [hp.1.2, hq.1.1]

example : (0:ℝ) ≤ 40 ∧ (0:ℝ) ≤ 5 ∧ (0:ℝ) ≤ 1 / 3 ∧ (1 / 3 : ℝ) ≤ 1 / 2 ∧
    ((39, 2) : Vec) ∈ rectangle ((1 - 1 / 3) * 40) 0 (1 / 3 * 40) 5 := by
  refine ⟨by norm_num, by norm_num, by norm_num, by norm_num, ?_⟩
  rw [rectangle_box (by norm_num) (by norm_num), mem_box]
  norm_num

/-- **C106** (negation): with the ratio 1, which is accepted, both groups start anywhere. -/
theorem C106_fails : ¬ C106_statement := by
  intro hall
  have := hall 40 5 1 (by norm_num) (by norm_num) (by norm_num) (by norm_num) _ _ rfl (40, 0)
    (by rw [rectangle_box (by norm_num) (by norm_num), mem_box]; norm_num) (0, 0)
    (by rw [rectangle_box (by norm_num) (by norm_num), mem_box]; norm_num)
  norm_num at this

/-! ## C107: accepted parameters can be used -/

/-- Full statement of C107. -/
def C107_statement : Prop := ∀ s : ExampleSimulation, s.Accepted → s.Constructible

/-- **C107** (partial): a shipped simulation passes only values to its field and logic that these
accept; missing is `AvoidObstacle` with a narrow exit or an obstacle that is close to the exit,
see `C107_fails`. -/
theorem C107_partial (s : ExampleSimulation) (ha : s.Accepted)
    (h : ∀ l k w h e r, s = .avoidObstacle l k w h e r → 1 ≤ e ∧ 1 ≤ (1 - r) * w) :
    s.Constructible := by
  cases s with
  | hallway size w ht r => exact ⟨ha.2, by simp [ExampleSimulation.detectionRange]⟩
  | roomWithOneExit size w ht e l => exact ⟨ha.2, by simp [ExampleSimulation.detectionRange]⟩
  | fourExits size e => exact ⟨ha, by simp [ExampleSimulation.detectionRange]⟩
  | rounding l k w ht =>
    exact ⟨⟨ha.1, ha.2, by norm_num, by norm_num⟩, by simp [ExampleSimulation.detectionRange]⟩
  | avoidObstacle l k w ht e r =>
    obtain ⟨h1, h2⟩ := h _ _ _ _ _ _ rfl
    refine ⟨⟨ha.1, ha.2.1, by linarith, ha.2.2.2.2.1, ha.2.2.2.2.2⟩, ?_⟩
    intro range hr
    simp only [ExampleSimulation.detectionRange, Option.mem_def, Option.some.injEq] at hr
    linarith
  | closedRoom l k w ht => exact ⟨ha, by simp [ExampleSimulation.detectionRange]⟩
  | fourExitsLeaders l k e =>
    refine ⟨ha, ?_⟩
    intro range hr
    simp only [ExampleSimulation.detectionRange, Option.mem_def, Option.some.injEq] at hr
    linarith
  | fixedPlacing l k e =>
    refine ⟨ha.2, ?_⟩
    intro range hr
    simp only [ExampleSimulation.detectionRange, Option.mem_def, Option.some.injEq] at hr
    linarith

example : (ExampleSimulation.avoidObstacle 1 50 10 10 1.25 0.6).Accepted ∧
    ∀ l k w h e r, ExampleSimulation.avoidObstacle 1 50 10 10 1.25 0.6 =
      .avoidObstacle l k w h e r → 1 ≤ e ∧ 1 ≤ (1 - r) * w := by
  refine ⟨by norm_num [ExampleSimulation.Accepted], ?_⟩
  intro l k w h e r heq
  cases heq
  norm_num

/-- **C107** The ranges are closed: the simulations accept a width, height, exit width or ratio of
zero, an exit width of 10 and a ratio of 1, and nothing beyond these. -/
theorem C107_extremes (size l k : ℕ) (w h e r : ℝ) (hw : 0 ≤ w) (hh : 0 ≤ h) :
    ((ExampleSimulation.avoidObstacle l k w h e r).Accepted ↔ e ∈ Set.Icc 0 10 ∧ r ∈ Set.Icc 0 1) ∧
    ((ExampleSimulation.fourExitsLeaders l k e).Accepted ↔ e ∈ Set.Icc 0 10) ∧
    ((ExampleSimulation.fourExits size e).Accepted ↔ e ∈ Set.Icc 0 10) ∧
    ((ExampleSimulation.fixedPlacing l k e).Accepted ↔ l = 4 ∧ e ∈ Set.Icc 0 10) ∧
    ((ExampleSimulation.roomWithOneExit size w h e 0).Accepted ↔ 0 < size ∧ e ∈ Set.Icc 0 10) ∧
    ((ExampleSimulation.hallway size w h r).Accepted ↔ 1 < size ∧ r ∈ Set.Icc 0 1) ∧
    (ExampleSimulation.closedRoom l k w h).Accepted ∧ (ExampleSimulation.rounding l k w h).Accepted := by
  simp only [ExampleSimulation.Accepted, Set.mem_Icc, hw, hh, true_and, and_true, le_refl]
  exact ⟨by rw [and_assoc], Iff.rfl, Iff.rfl⟩

example : (0 : ℝ) ≤ 0 ∧ (0 : ℝ) ∈ Set.Icc (0 : ℝ) 10 ∧ (1 : ℝ) ∈ Set.Icc (0 : ℝ) 1 := by
  norm_num

/-- **C107** (negation): `AvoidObstacle` accepts an exit of half a metre, but its field does not; it
also accepts an obstacle at 95 percent of the width, but the exit detection does not. -/
theorem C107_fails : ¬ C107_statement ∧
    ∃ s : ExampleSimulation, s.Accepted ∧ s.field.Accepted ∧ ¬ s.Constructible := by
  constructor
  · intro hall
    have := (hall (.avoidObstacle 1 50 10 10 0.5 0.6) (by norm_num [ExampleSimulation.Accepted])).1
    have h1 := this.2.2.1
    norm_num at h1
  · refine ⟨.avoidObstacle 1 50 10 10 1.25 0.95, by norm_num [ExampleSimulation.Accepted],
      by norm_num [ExampleSimulation.field, ExampleField.Accepted], fun hc => ?_⟩
    have := hc.2 ((1 - 0.95) * 10) (by simp [ExampleSimulation.detectionRange])
    norm_num at this

/-! ## C108: changed parameters -/

/-- Full statement of C108. -/
def C108_statement : Prop := ∀ (old new : ExampleField), old.ctorIdx = new.ctorIdx →
  old.Accepted → new.Accepted → new.assign old.plan = new.plan

/-- **C108** (partial): after new parameters are assigned to an outdoor field or a hallway, it has the
geometry of a new field with these parameters; missing are all the other fields, see
`C108_fails`. -/
theorem C108_partial :
    (∀ w h w' h' : ℝ, (ExampleField.outdoor w' h').assign (ExampleField.outdoor w h).plan =
      (ExampleField.outdoor w' h').plan) ∧
    ∀ w h r w' h' r' : ℝ, (ExampleField.hallway w' h' r').assign (ExampleField.hallway w h r).plan =
      (ExampleField.hallway w' h' r').plan :=
  ⟨fun _ _ _ _ => rfl, fun _ _ _ _ _ _ => rfl⟩

/-- The two geometries of a hallway with different widths differ. -/
example : (ExampleField.hallway 40 5 (1 / 3)).plan.targets ≠
    (ExampleField.hallway 30 5 (1 / 3)).plan.targets := by
  intro h
  simp [ExampleField.plan, hallwayField, hallwayParts] at h

/-- **C108** (negation): a four-exit field keeps its old exits when `exit_width` is changed. -/
theorem C108_fails : ¬ C108_statement := by
  intro hall
  have := congrArg Plan.targets (hall (.fourExits 1) (.fourExits 2) rfl
    (by norm_num [ExampleField.Accepted]) (by norm_num [ExampleField.Accepted]))
  simp [ExampleField.assign, ExampleField.plan, fourExits_targets] at this

/-! ## C109: the pillar -/

/-- Full statement of C109. -/
def C109_statement : Prop := ∀ w h r : ℝ, 0 < w → 0 < h → 0 < r →
  ∃ p, p ∈ (pillarField w h r).obstacles ∧ p ∈ interior (pillarField w h r).domain

/-- **C109** (partial): the pillar of `PillarInTheMiddle` meets the domain exactly when its radius is
at least half of the diagonal. Missing is that it always stands in the domain, see `C109_fails`. -/
theorem C109_partial (w h r : ℝ) (hw : 0 ≤ w) (hh : 0 ≤ h) :
    (∃ p, p ∈ (pillarField w h r).obstacles ∧ p ∈ (pillarField w h r).domain) ↔
      w ^ 2 + h ^ 2 ≤ 4 * r ^ 2 := by
  have e1 : (pillarField w h r).domain = box (w / 2) (w / 2 + w / 2) (h / 2) (h / 2 + h / 2) :=
    rectangle_box (by linarith) (by linarith)
  rw [e1]
  constructor
  · rintro ⟨p, hp, hd⟩
    rw [mem_box] at hd
    replace hp : p.1 ^ 2 + p.2 ^ 2 ≤ r ^ 2 := hp
    have a1 : (w / 2) ^ 2 ≤ p.1 ^ 2 := pow_le_pow_left₀ (by linarith) hd.1.1 2
    have a2 : (h / 2) ^ 2 ≤ p.2 ^ 2 := pow_le_pow_left₀ (by linarith) hd.2.1 2
    nlinarith
  · intro hle
    refine ⟨(w / 2, h / 2), ?_, ?_⟩
    · change (w / 2) ^ 2 + (h / 2) ^ 2 ≤ r ^ 2
      nlinarith
    · rw [mem_box]
      refine ⟨⟨?_, ?_⟩, ?_, ?_⟩ <;> simp only <;> linarith

/-- A pillar with the radius 20 reaches the domain of the defaults. -/
example : (20:ℝ) ^ 2 + 20 ^ 2 ≤ 4 * 20 ^ 2 := by norm_num

/-- **C109** (negation): with the default parameters the pillar does not even touch the domain. -/
theorem C109_fails : ¬ C109_statement := by
  intro hall
  obtain ⟨p, h1, h2⟩ := hall 20 20 1 (by norm_num) (by norm_num) (by norm_num)
  have := (C109_partial 20 20 1 (by norm_num) (by norm_num)).1 ⟨p, h1, interior_subset h2⟩
  norm_num at this

end CrowdDynamics
