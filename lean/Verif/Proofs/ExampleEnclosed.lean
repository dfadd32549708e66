import Verif.Proofs.ExampleFields

/-!
# The shipped fields are closed, contain their parts and have free exits
-/

namespace CrowdDynamics

open Set Spec

theorem fourExits_domain {e : ℝ} (he : 0 ≤ e) (he1 : e ≤ 10) :
    (fourExitsField e).domain = box 0 100 0 80 := by
  have hw : (fourExitsField e).obstacles ⊆ box 0 100 0 80 := by
    intro p hp
    rw [fourExits_walls p he1] at hp
    rw [mem_box]
    rcases hp with h | h | h | h | h | h | h | h | h | h | h | h | h | h <;>
      refine ⟨⟨?_, ?_⟩, ?_, ?_⟩ <;> linarith [h.1, h.2.1, h.2.2]
  apply hull_eq_box (by norm_num) (by norm_num)
  · rintro p ((hp | hp) | hp)
    · exact hw hp
    · rw [exits_iff] at hp
      simp only [List.mem_cons, List.not_mem_nil, or_false, exists_eq_or_imp,
        exists_eq_left, mem_segment_v, mem_segment_h] at hp
      rw [mem_box]
      rcases hp with ⟨a, b | b⟩ | ⟨a, b | b⟩ | ⟨a, b | b⟩ | ⟨a, b | b⟩ <;>
        refine ⟨⟨?_, ?_⟩, ?_, ?_⟩ <;> linarith
    · obtain ⟨s, hs, hp⟩ := hp
      simp only [List.mem_cons, List.not_mem_nil, or_false] at hs
      rw [hs] at hp
      exact convexHull_min hw (box_convex _ _ _ _) hp
  all_goals
    left; left
    refine (fourExits_walls _ he1).2 ?_
  · left; norm_num
  · right; right; right; right; right; right; left; norm_num
  · right; right; right; right; right; right; right; right; right; right; right; right; left; norm_num
  · right; right; right; right; right; right; right; right; left
    exact ⟨rfl, by linarith, le_refl _⟩

/-! ## Closed -/

theorem hallway_enclosed {w h r : ℝ} (hw : 0 ≤ w) (hh : 0 ≤ h) (hr : 0 ≤ r) (hr1 : r ≤ 1) :
    Enclosed (hallwayField w h r) := by
  intro p hp
  rw [hallway_domain hw hh hr hr1] at hp
  rw [hallway_walls]
  obtain ⟨⟨⟨a, b⟩, c, d⟩, h1⟩ := frontier_box hp
  simp only [mem_union, mem_segment_h, hallwayField, hallwayParts, List.mem_cons,
    List.not_mem_nil, or_false, exists_eq_or_imp, exists_eq_left, mem_segment_v]
  rcases h1 with h1 | h1 | h1 | h1
  · exact Or.inr (Or.inl ⟨h1, Or.inl ⟨c, d⟩⟩)
  · exact Or.inr (Or.inr ⟨h1, Or.inl ⟨c, d⟩⟩)
  · exact Or.inl (Or.inl ⟨h1, Or.inl ⟨a, b⟩⟩)
  · exact Or.inl (Or.inr ⟨h1, Or.inl ⟨a, b⟩⟩)

/-- The exterior of a room, corners as in `Rounding` and `ClosedRoom`. -/
theorem exterior_room {p : Vec} {w h : ℝ}
    (hp : (((0:ℝ) ≤ p.1 ∧ p.1 ≤ w) ∧ 0 ≤ p.2 ∧ p.2 ≤ h) ∧
      (p.1 = 0 ∨ p.1 = w ∨ p.2 = 0 ∨ p.2 = h)) :
    p ∈ polygonExterior [(0, 0), (0, h), (w, h), (w, 0)] := by
  obtain ⟨⟨⟨a, b⟩, c, d⟩, h1⟩ := hp
  simp only [polygonExterior, List.take, List.cons_append, List.nil_append, line_more, line_two,
    mem_union, mem_segment_h, mem_segment_v]
  rcases h1 with h1 | h1 | h1 | h1
  · exact Or.inl ⟨h1, Or.inl ⟨c, d⟩⟩
  · exact Or.inr (Or.inr (Or.inl ⟨h1, Or.inr ⟨c, d⟩⟩))
  · exact Or.inr (Or.inr (Or.inr ⟨h1, Or.inr ⟨a, b⟩⟩))
  · exact Or.inr (Or.inl ⟨h1, Or.inl ⟨a, b⟩⟩)

theorem exterior_room_box {p : Vec} {w h : ℝ} (hw : 0 ≤ w) (hh : 0 ≤ h)
    (hp : p ∈ polygonExterior [(0, 0), (0, h), (w, h), (w, 0)]) : p ∈ box 0 w 0 h := by
  simp only [polygonExterior, List.take, List.cons_append, List.nil_append, line_more, line_two,
    mem_union, mem_segment_h, mem_segment_v] at hp
  rw [mem_box]
  rcases hp with ⟨a, b | b⟩ | ⟨a, b | b⟩ | ⟨a, b | b⟩ | ⟨a, b | b⟩ <;>
    refine ⟨⟨?_, ?_⟩, ?_, ?_⟩ <;> linarith

/-- The exterior of a room, corners as in `AvoidObstacle`. -/
theorem exterior_rect {p : Vec} {w h : ℝ}
    (hp : (((0:ℝ) ≤ p.1 ∧ p.1 ≤ w) ∧ 0 ≤ p.2 ∧ p.2 ≤ h) ∧
      (p.1 = 0 ∨ p.1 = w ∨ p.2 = 0 ∨ p.2 = h)) :
    p ∈ polygonExterior (rectangleRing 0 0 w h) := by
  obtain ⟨⟨⟨a, b⟩, c, d⟩, h1⟩ := hp
  simp only [polygonExterior, rectangleRing, zero_add, List.take, List.cons_append,
    List.nil_append, line_more, line_two, mem_union, mem_segment_h, mem_segment_v]
  rcases h1 with h1 | h1 | h1 | h1
  · exact Or.inr (Or.inr (Or.inr ⟨h1, Or.inr ⟨c, d⟩⟩))
  · exact Or.inr (Or.inl ⟨h1, Or.inl ⟨c, d⟩⟩)
  · exact Or.inl ⟨h1, Or.inl ⟨a, b⟩⟩
  · exact Or.inr (Or.inr (Or.inl ⟨h1, Or.inr ⟨a, b⟩⟩))

theorem exterior_rect_box {p : Vec} {w h : ℝ} (hw : 0 ≤ w) (hh : 0 ≤ h)
    (hp : p ∈ polygonExterior (rectangleRing 0 0 w h)) : p ∈ box 0 w 0 h := by
  simp only [polygonExterior, rectangleRing, zero_add, List.take, List.cons_append,
    List.nil_append, line_more, line_two, mem_union, mem_segment_h, mem_segment_v] at hp
  rw [mem_box]
  rcases hp with ⟨a, b | b⟩ | ⟨a, b | b⟩ | ⟨a, b | b⟩ | ⟨a, b | b⟩ <;>
    refine ⟨⟨?_, ?_⟩, ?_, ?_⟩ <;> linarith

theorem rounding_enclosed {w h r : ℝ} (hw : 0 ≤ w) (hh : 0 ≤ h) :
    Enclosed (roundingField w h r) := by
  intro p hp
  simp only [roundingField, room_box hw hh] at hp
  have h1 := exterior_room (frontier_box hp)
  by_cases ht : p ∈ segment ℝ ((0, h / 2) : Vec) (0, h)
  · exact Or.inr ⟨_, List.mem_singleton_self _, ht⟩
  · refine Or.inl (Or.inr ⟨h1, ?_⟩)
    rw [line_two]
    exact ht

theorem avoid_domain {w h e r : ℝ} (hw : 0 ≤ w) (hh : 0 ≤ h) :
    (avoidObstacleField w h e r).domain = box 0 w 0 h := by
  have := rectangle_box (x := 0) (y := 0) hw hh
  simp only [zero_add] at this
  exact this

theorem avoid_enclosed {w h e r : ℝ} (hw : 0 ≤ w) (hh : 0 ≤ h) :
    Enclosed (avoidObstacleField w h e r) := by
  intro p hp
  rw [avoid_domain hw hh] at hp
  have h1 := exterior_rect (frontier_box hp)
  by_cases ht : p ∈ segment ℝ ((w, 0) : Vec) (w, e)
  · exact Or.inr ⟨_, List.mem_singleton_self _, ht⟩
  · refine Or.inl (Or.inl ⟨h1, ?_⟩)
    rw [line_two]
    exact ht

theorem closedRoom_enclosed {w h : ℝ} (hw : 0 ≤ w) (hh : 0 ≤ h) :
    Enclosed (closedRoomField w h) := by
  intro p hp
  simp only [closedRoomField, room_box hw hh] at hp
  exact Or.inl (exterior_room (frontier_box hp))

theorem roomExit_walls {w h e l : ℝ} (heh : e ≤ h) (hl : 0 ≤ l) (p : Vec) :
    p ∈ (roomWithOneExitField w h e l).obstacles ↔
      ((p.2 = 0 ∧ (w ≤ p.1 ∧ p.1 ≤ 0 ∨ 0 ≤ p.1 ∧ p.1 ≤ w)) ∨
        (p.1 = 0 ∧ (0 ≤ p.2 ∧ p.2 ≤ h ∨ h ≤ p.2 ∧ p.2 ≤ 0)) ∨
        (p.2 = h ∧ (0 ≤ p.1 ∧ p.1 ≤ w ∨ w ≤ p.1 ∧ p.1 ≤ 0))) ∨
      ((w ≤ p.1 ∧ p.1 ≤ w + l) ∧ (h + e) / 2 ≤ p.2 ∧ p.2 ≤ (h + e) / 2 + (h - e) / 2) ∨
      ((w ≤ p.1 ∧ p.1 ≤ w + l) ∧ 0 ≤ p.2 ∧ p.2 ≤ 0 + (h - e) / 2) := by
  have h1 : 0 ≤ (h - e) / 2 := by linarith
  simp only [roomWithOneExitField, line_more, line_two, mem_union, mem_segment_h, mem_segment_v,
    rectangle_box hl h1, mem_box]

theorem roomExit_enclosed {w h e l : ℝ} (hw : 0 ≤ w) (he : 0 ≤ e) (heh : e ≤ h) (hl : 0 ≤ l) :
    Enclosed (roomWithOneExitField w h e l) := by
  intro p hp
  rw [roomExit_domain hw he heh hl] at hp
  rw [roomExit_walls heh hl]
  obtain ⟨⟨⟨a, b⟩, c, d⟩, h1⟩ := frontier_box hp
  have ht : (∃ t ∈ (roomWithOneExitField w h e l).targets, p ∈ segment ℝ t.1 t.2) ↔
      (p.1 = w + l ∧ ((h - e) / 2 ≤ p.2 ∧ p.2 ≤ (h + e) / 2 ∨
        (h + e) / 2 ≤ p.2 ∧ p.2 ≤ (h - e) / 2)) := by
    simp only [roomWithOneExitField, List.mem_cons, List.not_mem_nil, or_false, exists_eq_left,
      mem_segment_v]
  rw [ht]
  rcases h1 with h1 | h1 | h1 | h1
  · exact Or.inl (Or.inl (Or.inr (Or.inl ⟨h1, Or.inl ⟨c, d⟩⟩)))
  · by_cases h2 : (h + e) / 2 ≤ p.2
    · exact Or.inl (Or.inr (Or.inl ⟨⟨by linarith, b⟩, h2, by linarith⟩))
    · by_cases h3 : p.2 ≤ (h - e) / 2
      · exact Or.inl (Or.inr (Or.inr ⟨⟨by linarith, b⟩, c, by linarith⟩))
      · exact Or.inr ⟨h1, Or.inl ⟨by linarith, by linarith⟩⟩
  · by_cases h2 : p.1 ≤ w
    · exact Or.inl (Or.inl (Or.inl ⟨h1, Or.inr ⟨a, h2⟩⟩))
    · exact Or.inl (Or.inr (Or.inr ⟨⟨by linarith, b⟩, c, by linarith⟩))
  · by_cases h2 : p.1 ≤ w
    · exact Or.inl (Or.inl (Or.inr (Or.inr ⟨h1, Or.inl ⟨a, h2⟩⟩)))
    · exact Or.inl (Or.inr (Or.inl ⟨⟨by linarith, b⟩, by linarith, by linarith⟩))

theorem fourExits_targets (e : ℝ) : (fourExitsField e).targets =
    [((0, 10), (0, 10 + e)), ((6, 80), (6 + e, 80)), ((100, 50 + e), (100, 50)),
      ((87, 0), (87 + e, 0))] := rfl

theorem fourExits_enclosed {e : ℝ} (he : 0 ≤ e) (he1 : e ≤ 10) : Enclosed (fourExitsField e) := by
  intro p hp
  rw [fourExits_domain he he1] at hp
  rw [fourExits_walls p he1]
  obtain ⟨⟨⟨a, b⟩, c, d⟩, h1⟩ := frontier_box hp
  simp only [fourExits_targets, List.mem_cons, List.not_mem_nil, or_false, exists_eq_or_imp,
    exists_eq_left, mem_segment_v, mem_segment_h]
  rcases h1 with h1 | h1 | h1 | h1
  · by_cases h2 : p.2 ≤ 10
    · exact Or.inl (Or.inl ⟨h1, c, h2⟩)
    · by_cases h3 : 10 + e ≤ p.2
      · left; right; right; right; right; right; left; exact ⟨h1, h3, d⟩
      · right; left; exact ⟨h1, Or.inl ⟨by linarith, by linarith⟩⟩
  · by_cases h2 : p.2 ≤ 50
    · left; right; right; right; right; right; right; right; right; right; right; right; right; left
      exact ⟨h1, c, h2⟩
    · by_cases h3 : 50 + e ≤ p.2
      · left; right; right; right; right; right; right; right; right; right; left
        exact ⟨h1, h3, d⟩
      · right; right; right; left; exact ⟨h1, Or.inr ⟨by linarith, by linarith⟩⟩
  · by_cases h2 : p.1 ≤ 87
    · left; right; left; exact ⟨h1, a, h2⟩
    · by_cases h3 : 87 + e ≤ p.1
      · left; right; right; right; right; right; right; right; right; right; right; right; right; right
        exact ⟨h1, h3, b⟩
      · right; right; right; right; exact ⟨h1, Or.inl ⟨by linarith, by linarith⟩⟩
  · by_cases h2 : p.1 ≤ 6
    · left; right; right; right; right; right; right; left; exact ⟨h1, a, h2⟩
    · by_cases h3 : 6 + e ≤ p.1
      · left; right; right; right; right; right; right; right; right; left; exact ⟨h1, h3, b⟩
      · right; right; left; exact ⟨h1, Or.inl ⟨by linarith, by linarith⟩⟩

/-! ## Contained -/

/-- Everything lies in the hull. -/
theorem hull_contained {f : Plan} (h : f.domain = f.hull) : Contained f := by
  rw [Contained, h]
  have sub := subset_convexHull ℝ (f.obstacles ∪ f.exits ∪ unionAll f.spawns)
  refine ⟨fun p hp => sub (Or.inl (Or.inl hp)), fun t ht p hp => ?_, fun s hs p hp => ?_⟩
  · exact sub (Or.inl (Or.inr ((exits_iff f p).2 ⟨t, ht, hp⟩)))
  · exact sub (Or.inr ⟨s, hs, hp⟩)

theorem rounding_contained {w h r : ℝ} (hw : 0 ≤ w) (hh : 0 ≤ h) (hr : 0 ≤ r) (hr1 : r ≤ 1) :
    Contained (roundingField w h r) := by
  have e1 : (roundingField w h r).domain = box 0 w 0 h := room_box hw hh
  have h2 : 0 ≤ w * r := mul_nonneg hw hr
  have h3 : w * r ≤ w := by nlinarith
  rw [Contained, e1]
  refine ⟨?_, ?_, ?_⟩
  · rintro p (hp | hp)
    · rw [line_two, mem_segment_h] at hp
      rw [mem_box]
      rcases hp with ⟨a, b | b⟩ <;> refine ⟨⟨?_, ?_⟩, ?_, ?_⟩ <;> linarith
    · exact exterior_room_box hw hh hp.1
  · intro t ht p hp
    simp only [roundingField, List.mem_cons, List.not_mem_nil, or_false] at ht
    rw [ht, mem_segment_v] at hp
    rw [mem_box]
    rcases hp with ⟨a, b | b⟩ <;> refine ⟨⟨?_, ?_⟩, ?_, ?_⟩ <;> linarith
  · intro s hs p hp
    simp only [roundingField, List.mem_cons, List.not_mem_nil, or_false] at hs
    rw [hs, room_box (by linarith) (by linarith), mem_box] at hp
    rw [mem_box]
    refine ⟨⟨?_, ?_⟩, ?_, ?_⟩ <;> linarith [hp.1.1, hp.1.2, hp.2.1, hp.2.2]

theorem avoid_contained {w h e r : ℝ} (hw : 0 ≤ w) (he : 0 ≤ e) (heh : e ≤ h) (hr : 0 ≤ r)
    (hr1 : r ≤ 1) : Contained (avoidObstacleField w h e r) := by
  have hh : 0 ≤ h := he.trans heh
  have h2 : 0 ≤ r * w := mul_nonneg hr hw
  have h3 : r * w ≤ w := by nlinarith
  have h4 : (0:ℝ) ≤ 0.5 * h := by positivity
  have h5 : (0.5:ℝ) * h ≤ h := by linarith
  rw [Contained, avoid_domain hw hh]
  refine ⟨?_, ?_, ?_⟩
  · rintro p (hp | hp)
    · exact exterior_rect_box hw hh hp.1
    · rw [line_two, mem_segment_v] at hp
      rw [mem_box]
      rcases hp with ⟨a, b | b⟩ <;> refine ⟨⟨?_, ?_⟩, ?_, ?_⟩ <;> linarith
  · intro t ht p hp
    simp only [avoidObstacleField, List.mem_cons, List.not_mem_nil, or_false] at ht
    rw [ht, mem_segment_v] at hp
    rw [mem_box]
    rcases hp with ⟨a, b | b⟩ <;> refine ⟨⟨?_, ?_⟩, ?_, ?_⟩ <;> linarith
  · intro s hs p hp
    simp only [avoidObstacleField, List.mem_cons, List.not_mem_nil, or_false] at hs
    rw [mem_box]
    rcases hs with rfl | rfl
    · rw [rectangle_box h2 h4, mem_box] at hp
      refine ⟨⟨?_, ?_⟩, ?_, ?_⟩ <;> linarith [hp.1.1, hp.1.2, hp.2.1, hp.2.2]
    · rw [rectangle_box h2 hh, mem_box] at hp
      refine ⟨⟨?_, ?_⟩, ?_, ?_⟩ <;> linarith [hp.1.1, hp.1.2, hp.2.1, hp.2.2]

theorem closedRoom_contained {w h : ℝ} (hw : 0 ≤ w) (hh : 0 ≤ h) :
    Contained (closedRoomField w h) := by
  have e1 : (closedRoomField w h).domain = box 0 w 0 h := room_box hw hh
  refine ⟨?_, ?_, ?_⟩
  · rw [e1]
    exact fun p hp => exterior_room_box hw hh hp
  · intro t ht
    cases ht
  · intro s hs
    simp only [closedRoomField, List.mem_cons, List.not_mem_nil, or_false] at hs
    rw [hs]
    exact subset_refl _

/-! ## Free exits -/

theorem hallway_free {w h r : ℝ} (hh : 0 ≤ h) : FreeExits (hallwayField w h r) := by
  intro t ht hne p hp ho
  rw [hallway_walls] at ho
  simp only [mem_union, mem_segment_h] at ho
  simp only [hallwayField, hallwayParts, List.mem_cons, List.not_mem_nil, or_false] at ht
  rcases ht with rfl | rfl
  all_goals
    have h0 : 0 < h := lt_of_le_of_ne hh fun he => hne (by simp [← he])
    have := mem_openSegment_v h0 hp
    rcases ho with ho | ho <;> linarith [ho.1, this.2.1, this.2.2]

theorem rounding_free {w h r : ℝ} (hh : 0 ≤ h) : FreeExits (roundingField w h r) := by
  intro t ht hne p hp ho
  simp only [roundingField, List.mem_cons, List.not_mem_nil, or_false] at ht
  subst ht
  have h0 : 0 < h := lt_of_le_of_ne hh fun he => hne (by simp [← he])
  rcases ho with ho | ho
  · rw [line_two, mem_segment_h] at ho
    have := mem_openSegment_v (show h / 2 < h by linarith) hp
    linarith [ho.1, this.2.1, this.2.2]
  · refine ho.2 ?_
    rw [line_two]
    exact openSegment_subset_segment ℝ _ _ hp

theorem avoid_free {w h e r : ℝ} (hw : 0 < w) (he : 0 ≤ e) (hr1 : r < 1) :
    FreeExits (avoidObstacleField w h e r) := by
  intro t ht hne p hp ho
  simp only [avoidObstacleField, List.mem_cons, List.not_mem_nil, or_false] at ht
  subst ht
  have h0 : 0 < e := lt_of_le_of_ne he fun h' => hne (by simp [← h'])
  rcases ho with ho | ho
  · refine ho.2 ?_
    rw [line_two]
    exact openSegment_subset_segment ℝ _ _ hp
  · rw [line_two, mem_segment_v] at ho
    have := mem_openSegment_v h0 hp
    nlinarith [ho.1, this.1]

theorem roomExit_free {w h e l : ℝ} (he : 0 ≤ e) (heh : e ≤ h) (hl : 0 ≤ l)
    (hwl : 0 < w + l) : FreeExits (roomWithOneExitField w h e l) := by
  intro t ht hne p hp ho
  rw [roomExit_walls heh hl] at ho
  simp only [roomWithOneExitField, List.mem_cons, List.not_mem_nil, or_false] at ht
  subst ht
  have h0 : 0 < e := lt_of_le_of_ne he fun h' => hne (by simp [← h'])
  obtain ⟨a, b, c⟩ := mem_openSegment_v (show (h - e) / 2 < (h + e) / 2 by linarith) hp
  rcases ho with (ho | ho | ho) | (ho | ho)
  · linarith [ho.1]
  · linarith [ho.1]
  · linarith [ho.1]
  · linarith [ho.2.1]
  · linarith [ho.2.2]

theorem fourExits_free {e : ℝ} (he : 0 ≤ e) (he1 : e ≤ 10) : FreeExits (fourExitsField e) := by
  intro t ht hne p hp ho
  rw [fourExits_walls p he1] at ho
  simp only [fourExits_targets, List.mem_cons, List.not_mem_nil, or_false] at ht
  rcases ht with rfl | rfl | rfl | rfl
  · have h0 : 0 < e := lt_of_le_of_ne he fun h' => hne (by simp [← h'])
    obtain ⟨a, b, c⟩ := mem_openSegment_v (show (10:ℝ) < 10 + e by linarith) hp
    rcases ho with h | h | h | h | h | h | h | h | h | h | h | h | h | h <;>
      linarith [h.1, h.2.1, h.2.2]
  · have h0 : 0 < e := lt_of_le_of_ne he fun h' => hne (by simp [← h'])
    obtain ⟨a, b, c⟩ := mem_openSegment_h (show (6:ℝ) < 6 + e by linarith) hp
    rcases ho with h | h | h | h | h | h | h | h | h | h | h | h | h | h <;>
      linarith [h.1, h.2.1, h.2.2]
  · have h0 : 0 < e := lt_of_le_of_ne he fun h' => hne (by simp [← h'])
    rw [openSegment_symm] at hp
    obtain ⟨a, b, c⟩ := mem_openSegment_v (show (50:ℝ) < 50 + e by linarith) hp
    rcases ho with h | h | h | h | h | h | h | h | h | h | h | h | h | h <;>
      linarith [h.1, h.2.1, h.2.2]
  · have h0 : 0 < e := lt_of_le_of_ne he fun h' => hne (by simp [← h'])
    obtain ⟨a, b, c⟩ := mem_openSegment_h (show (87:ℝ) < 87 + e by linarith) hp
    rcases ho with h | h | h | h | h | h | h | h | h | h | h | h | h | h <;>
      linarith [h.1, h.2.1, h.2.2]

/-! ## Half planes -/

/-- A hull stays in a half plane. -/
theorem hull_half {s : Set Vec} {a b c : ℝ} (h : ∀ p ∈ s, a * p.1 + b * p.2 ≤ c) :
    ∀ p ∈ convexHull ℝ s, a * p.1 + b * p.2 ≤ c := by
  have hc : Convex ℝ {p : Vec | a * p.1 + b * p.2 ≤ c} := by
    intro x hx y hy u v hu hv huv
    simp only [mem_setOf_eq, Prod.fst_add, Prod.smul_fst, smul_eq_mul, Prod.snd_add,
      Prod.smul_snd] at hx hy ⊢
    calc a * (u * x.1 + v * y.1) + b * (u * x.2 + v * y.2)
        = u * (a * x.1 + b * x.2) + v * (a * y.1 + b * y.2) := by ring
      _ ≤ u * c + v * c := add_le_add (mul_le_mul_of_nonneg_left hx hu)
          (mul_le_mul_of_nonneg_left hy hv)
      _ = c := by rw [← add_mul, huv, one_mul]
  intro p hp
  exact convexHull_min (t := {p : Vec | a * p.1 + b * p.2 ≤ c}) h hc hp

/-- A point of a set on the edge of a half plane that contains the set lies on its boundary. -/
theorem frontier_of_half {s : Set Vec} {p : Vec} {a b c : ℝ} (hb : 0 < b) (hp : p ∈ s)
    (h : ∀ q ∈ s, a * q.1 + b * q.2 ≤ c) (he : a * p.1 + b * p.2 = c) : p ∈ frontier s := by
  refine ⟨subset_closure hp, fun hi => ?_⟩
  obtain ⟨ε, hε, hball⟩ := Metric.isOpen_iff.1 isOpen_interior p hi
  have hq : ((p.1, p.2 + ε / 2) : Vec) ∈ Metric.ball p ε := by
    rw [Metric.mem_ball, Prod.dist_eq]
    simp only [dist_self, Real.dist_eq]
    rw [add_sub_cancel_left, abs_of_pos (by linarith), max_eq_right (by linarith)]
    linarith
  have := h _ (interior_subset (hball hq))
  simp only at this
  nlinarith

end CrowdDynamics
