import Verif.Proofs.Acceptance

/-!
# Free positions are accepted: C118
-/

namespace CrowdDynamics

open Classical Spec

/-! ## C118 -/

/-- **C118** The four overlap tests are exact: two agents overlap if some of their discs do, an
agent and a wall (which is not a single point) overlap if some point of the wall lies inside of
some disc. -/
theorem C118_tests :
    (∀ (x : Vec) (r : ℝ) (others : List Agent), overlappingCircles x r others = true ↔
      ∃ b ∈ others, Spec.dist b.position x < b.radius + r) ∧
    (∀ (a : Agent) (others : List Agent), overlappingThreeCircles a.circles a.radii others = true ↔
      ∃ b ∈ others, ∃ d ∈ discs .threeCircle b, ∃ e ∈ discs .threeCircle a,
        Spec.dist d.1 e.1 < d.2 + e.2) ∧
    (∀ (a : Agent) (obs : List Wall), (∀ w ∈ obs, w.p0 ≠ w.p1) →
      (overlappingCircleLine a obs = true ↔ ∃ w ∈ obs, ∃ q ∈ segment ℝ w.p0 w.p1,
        Spec.dist a.position q < a.radius)) ∧
    ∀ (a : Agent) (obs : List Wall), (∀ w ∈ obs, w.p0 ≠ w.p1) →
      (overlappingThreeCircleLine a obs = true ↔ ∃ w ∈ obs, ∃ d ∈ discs .threeCircle a,
        ∃ q ∈ segment ℝ w.p0 w.p1, Spec.dist d.1 q < d.2) := by
  refine ⟨fun x r others => ?_, fun a others => ?_, fun a obs hne => ?_, fun a obs hne => ?_⟩
  · rw [← Bool.not_eq_false, overlappingCircles_eq_false]
    push Not
    rfl
  · rw [← Bool.not_eq_false, overlappingThreeCircles_eq_false]
    unfold DisjointBodies
    push Not
    rfl
  · rw [← Bool.not_eq_false]
    have : overlappingCircleLine a obs = false ↔
        ∀ w ∈ obs, ClearOfSegment .circular a w.p0 w.p1 :=
      ⟨fun h w hw => overlappingCircleLine_false h w hw (hne w hw), overlappingCircleLine_clear⟩
    rw [this]
    simp only [ClearOfSegment, discs, List.mem_singleton, forall_eq]
    push Not
    rfl
  · rw [← Bool.not_eq_false]
    have : overlappingThreeCircleLine a obs = false ↔
        ∀ w ∈ obs, ClearOfSegment .threeCircle a w.p0 w.p1 :=
      ⟨fun h w hw => overlappingThreeCircleLine_false h w hw (hne w hw),
        overlappingThreeCircleLine_clear⟩
    rw [this]
    unfold ClearOfSegment
    push Not
    rfl

/-- A circle of radius 1 and a wall at distance 1 touch, but do not overlap. -/
example : overlappingCircleLine { Agent.zero with radius := 1 } [⟨(-1, 1), (1, 1)⟩] = false := by
  rw [← Bool.not_eq_true, C118_tests.2.2.1 _ _ (by norm_num)]
  rintro ⟨w, hw, q, hq, hd⟩
  rw [List.mem_singleton] at hw
  subst hw
  have h2 : q.2 = 1 := by
    obtain ⟨a, b, -, -, hab, rfl⟩ := hq
    simpa using hab
  have h3 := abs_snd_le_length ((0, 0) - q)
  have h4 : length ((0, 0) - q) < 1 := hd
  simp [h2] at h3
  linarith

/-- **C118** Free positions are taken: if the first `size` positions that the generator yields leave
every member of the group clear of all agents placed before, of each other and of the walls, then
all members are placed there, in order, and no position is rejected. (Three-circle members have
not been used before, see C18.) -/
theorem C118_all_placed (k : Kind) (c : ℝ) (st0 : AgentsState)
    (hinit : AgentsState.init k c = some st0)
    (before : List (Group × List Vec × Option (List Wall))) (st : AgentsState)
    (hst : st = addGroups st0 before) (group : Group) (gen : List Vec)
    (obstacles : Option (List Wall)) (hk : group.kind = k) (body : ℕ → Agent)
    (hbody : ∀ i < group.size, ∃ m p, group.members[i]? = some m ∧ gen[i]? = some p ∧
      m.ls = none ∧ m.rs = none ∧
      body i = { m.agent with
        position := p
        positionLs := (body i).positionLs
        positionRs := (body i).positionRs } ∧
      (k = .threeCircle → ShouldersAttached (body i)))
    (hagents : ∀ i < group.size, ∀ j < st.index, ∀ b, st.array[j]? = some b →
      DisjointBodies k b (body i))
    (hpairs : ∀ i j, i < j → j < group.size → DisjointBodies k (body i) (body j))
    (hwalls : ∀ obs, obstacles = some obs → ∀ i < group.size, ∀ w ∈ obs,
      ClearOfSegment k (body i) w.p0 w.p1)
    (r : PlaceResult) (hr : r = addNonOverlappingGroup st group gen obstacles) :
    r.outcome = .ok ∧ r.overlaps = 0 ∧ r.rest = gen.drop group.size ∧
      r.state.index = st.index + group.size ∧
      ∀ i < group.size, ∃ a, r.state.array[st.index + i]? = some a ∧
        a = { body i with positionLs := a.positionLs, positionRs := a.positionRs } ∧
        (k = .threeCircle → a = body i) := by
  obtain ⟨hs, hc, hk0, -⟩ := safe_init hinit
  obtain ⟨h1, h2, -⟩ := addGroups_safe hc hs before
  rw [← hst] at h1 h2
  have hkk : st.kind = group.kind := by rw [h2, hk0, hk]
  -- the rows that are really stored
  have hrow : ∀ i < group.size, ∃ m p B, group.members[i]? = some m ∧ gen[i]? = some p ∧
      newRow k m p = B ∧
      B = { body i with positionLs := B.positionLs, positionRs := B.positionRs } ∧
      (k = .threeCircle → B = body i) := by
    intro i hi
    obtain ⟨m, p, e1, e2, e3, e4, e5, e6⟩ := hbody i hi
    refine ⟨m, p, _, e1, e2, rfl, ?_, fun h => ?_⟩
    · rw [e5]
      cases k <;> rfl
    · obtain ⟨s1, s2⟩ := e6 h
      have a1 : (body i).position = p := by rw [e5]
      have a2 : (body i).rTs = m.agent.rTs := by rw [e5]
      have a3 : (body i).orientation = m.agent.orientation := by rw [e5]
      subst h
      rw [e5]
      rw [a1, a2, a3] at s1 s2
      unfold newRow Member.touch Member.setPosition Member.row
      simp only [e3, e4, Option.getD_none, Option.getD_some, shoulderOffset, rotate270, unitVector]
      rw [s1, s2]
      congr 1 <;> ext <;> simp [sub_eq_add_neg]
  haveI : Nonempty Agent := ⟨Agent.zero⟩
  haveI : Nonempty Member := ⟨⟨Agent.zero, none, none⟩⟩
  choose! m p B b1 b2 b3 b4 b5 using hrow
  have hdiscs : ∀ i < group.size, discs k (B i) = discs k (body i) := by
    intro i hi
    cases hk' : k with
    | threeCircle => rw [b5 i hi hk']
    | circular =>
      rw [b4 i hi]
      rfl
  have key := placeLoop_free (c := c) (size := group.size) (obstacles := obstacles) (k := k) (B := B)
    (fun t ht obs ho w hw => by
      unfold ClearOfSegment
      rw [hdiscs t ht]
      exact hwalls obs ho t ht w hw)
    (fun s t hst' ht => by
      unfold DisjointBodies
      rw [hdiscs s (by omega), hdiscs t ht]
      exact hpairs s t hst' ht)
    group.size 0 gen ⟨st.kind, st.array ++ List.replicate group.size Agent.zero, st.index,
      st.neighbours⟩ group.members (by omega)
    (fun t _ ht => ⟨m t, p t, b1 t ht, b2 t ht, b3 t ht⟩) (by rw [h2, hk0])
    (safe_grow h1 group.size).stored
    (by
      have := h1.stored.le
      simp only [List.length_append, List.length_replicate]
      omega)
    (fun t _ ht q hq => by
      simp only at hq ⊢
      rw [rowAt_append_zero]
      have hl : q < st.array.length := lt_of_lt_of_le hq h1.stored.le
      have := hagents t ht q hq (rowAt st.array q) (by
        unfold rowAt
        rw [List.getD_eq_getElem?_getD, List.getElem?_eq_getElem hl]
        rfl)
      unfold DisjointBodies at this ⊢
      rw [hdiscs t ht]
      exact this)
  rw [addGroup_eq gen obstacles hkk] at hr
  rw [← hr] at key
  obtain ⟨r1, r2, r3, r4, r5, -, r7⟩ := key
  refine ⟨r1, r2, r4, r3, fun i hi => ⟨B i, ?_, b4 i hi, b5 i hi⟩⟩
  have h7 := r7 i (Nat.zero_le i) hi
  rw [Nat.sub_zero] at h7
  have hl : st.index + i < r.state.array.length := by
    rw [r5]
    have := h1.stored.le
    simp only [List.length_append, List.length_replicate]
    omega
  rw [← h7]
  unfold rowAt
  simp only
  rw [List.getD_eq_getElem?_getD, List.getElem?_eq_getElem hl]
  rfl

/-- Two circles of radius 1 at distance 2, next to a wall. -/
example : DisjointBodies .circular { Agent.zero with radius := 1 }
      { Agent.zero with radius := 1, position := (2, 0) } ∧
    ClearOfSegment .circular { Agent.zero with radius := 1 } (-1, 1) (1, 1) := by
  constructor
  · intro d hd e he
    simp only [discs, List.mem_singleton] at hd he
    subst hd he
    simp only [Spec.dist, Spec.len, Agent.zero]
    apply Real.le_sqrt_of_sq_le
    norm_num
  · intro d hd q hq
    simp only [discs, List.mem_singleton] at hd
    subst hd
    have h2 : q.2 = 1 := by
      obtain ⟨a, b, -, -, hab, rfl⟩ := hq
      simpa using hab
    have h3 := abs_snd_le_length ((0, 0) - q)
    simp [h2] at h3
    exact h3

/-- **C118** Other positions are not taken: if at the position that the generator yields the member
overlaps an agent not farther away than the cell size, or a wall, then the position is rejected
and nothing is stored. -/
theorem C118_rejected (k : Kind) (c : ℝ) (st0 : AgentsState)
    (hinit : AgentsState.init k c = some st0)
    (before : List (Group × List Vec × Option (List Wall))) (st : AgentsState)
    (hst : st = addGroups st0 before) (m : Member) (p : Vec) (obstacles : Option (List Wall))
    (body : Agent) (h1 : m.ls = none) (h2 : m.rs = none)
    (h3 : body = { m.agent with
        position := p, positionLs := body.positionLs, positionRs := body.positionRs })
    (h4 : k = .threeCircle → ShouldersAttached body)
    (hover : (∃ j < st.index, ∃ b, st.array[j]? = some b ∧ Spec.dist b.position p ≤ c ∧
        ¬ DisjointBodies k b body) ∨
      ∃ obs, obstacles = some obs ∧ ∃ w ∈ obs, w.p0 ≠ w.p1 ∧ ¬ ClearOfSegment k body w.p0 w.p1)
    (r : PlaceResult) (hr : r = addNonOverlappingGroup st ⟨k, 1, [m]⟩ [p] obstacles) :
    r.outcome = .generatorError ∧ r.overlaps = 1 ∧ r.state.index = st.index := by
  obtain ⟨hs, hc, hk0, -⟩ := safe_init hinit
  obtain ⟨g1, g2, -⟩ := addGroups_safe hc hs before
  rw [← hst] at g1 g2
  have hkk : st.kind = k := by rw [g2, hk0]
  have hd : discs k (newRow k m p) = discs k body := by
    have a1 : body.position = p := by rw [h3]
    have a2 : body.rTs = m.agent.rTs := by rw [h3]
    have a3 : body.orientation = m.agent.orientation := by rw [h3]
    cases k with
    | circular => rw [h3]; rfl
    | threeCircle =>
      obtain ⟨s1, s2⟩ := h4 rfl
      rw [a1, a2, a3] at s1 s2
      rw [h3]
      unfold newRow Member.touch Member.setPosition Member.row
      simp only [h1, h2, Option.getD_none, Option.getD_some, shoulderOffset, rotate270, unitVector]
      rw [s1, s2]
      simp only [discs, List.cons.injEq, Prod.mk.injEq, and_true, true_and]
      constructor <;> ext <;> simp [sub_eq_add_neg]
  rw [addGroup_eq [p] obstacles hkk] at hr
  have hst' := (safe_grow g1 1).stored
  simp only at hr
  rw [placeLoop, if_pos ⟨by norm_num, by norm_num⟩] at hr
  simp only [List.getElem?_cons_zero] at hr
  have hrow : ((m.setPosition p).touch st.kind).row = newRow k m p := by rw [hkk]; rfl
  split_ifs at hr with c1 c2
  · rw [placeLoop, if_pos ⟨by norm_num, by norm_num⟩] at hr
    subst hr
    exact ⟨rfl, rfl, rfl⟩
  · rw [placeLoop, if_pos ⟨by norm_num, by norm_num⟩] at hr
    subst hr
    exact ⟨rfl, rfl, rfl⟩
  · exfalso
    rcases hover with ⟨j, hj, b, hb, hdist, hnd⟩ | ⟨obs, rfl, w, hw, hne, hnc⟩
    · rw [Bool.not_eq_true, overlapping_eq_false, hrow, hkk] at c1
      have eb : rowAt (st.array ++ List.replicate 1 Agent.zero) j = b := by
        rw [rowAt_append_zero]
        unfold rowAt
        rw [List.getD_eq_getElem?_getD, hb]
        rfl
      apply hnd
      have hm := mem_nearest_of_close hc hst' p j hj (by simp only; rw [eb]; exact hdist)
      have := c1 b (List.mem_map.2 ⟨j, hm, eb⟩)
      unfold DisjointBodies at this ⊢
      rwa [hd] at this
    · apply hnc
      rw [Bool.not_eq_true] at c2
      have := clear_of_overlappingObstacles c2 w hw hne
      rw [hrow, hkk] at this
      unfold ClearOfSegment at this ⊢
      rwa [hd] at this

/-- A circle of radius 1 whose centre lies on a wall. -/
example : ¬ ClearOfSegment .circular { Agent.zero with radius := 1 } (-1, 0) (1, 0) := by
  intro h
  have := h ((0, 0), 1) (by simp [discs, Agent.zero]) (0, 0)
    ⟨1 / 2, 1 / 2, by norm_num, by norm_num, by norm_num, by ext <;> norm_num⟩
  simp [Spec.dist, Spec.len] at this
  linarith

end CrowdDynamics
