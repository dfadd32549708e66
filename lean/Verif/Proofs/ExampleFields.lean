import Verif.Spec.ExampleFields
import Mathlib.Analysis.Convex.Combination
import Mathlib.Tactic.Linarith
import Mathlib.Tactic.NormNum

/-!
# Lemmas about the shipped fields
-/

namespace CrowdDynamics

open Set

/-- A horizontal segment. -/
theorem mem_segment_h {p : Vec} {a b c : ℝ} :
    p ∈ segment ℝ ((a, c) : Vec) (b, c) ↔ p.2 = c ∧ ((a ≤ p.1 ∧ p.1 ≤ b) ∨ (b ≤ p.1 ∧ p.1 ≤ a)) := by
  rw [← Prod.image_mk_segment_left, segment_eq_uIcc]
  constructor
  · rintro ⟨x, hx, rfl⟩
    exact ⟨rfl, mem_uIcc.1 hx⟩
  · rintro ⟨h1, h2⟩
    exact ⟨p.1, mem_uIcc.2 h2, by rw [← h1]⟩

/-- A vertical segment. -/
theorem mem_segment_v {p : Vec} {a b c : ℝ} :
    p ∈ segment ℝ ((c, a) : Vec) (c, b) ↔ p.1 = c ∧ ((a ≤ p.2 ∧ p.2 ≤ b) ∨ (b ≤ p.2 ∧ p.2 ≤ a)) := by
  rw [← Prod.image_mk_segment_right, segment_eq_uIcc]
  constructor
  · rintro ⟨x, hx, rfl⟩
    exact ⟨rfl, mem_uIcc.1 hx⟩
  · rintro ⟨h1, h2⟩
    exact ⟨p.2, mem_uIcc.2 h2, by rw [← h1]⟩

/-- The box with the given corners. -/
def box (a b c d : ℝ) : Set Vec := Icc a b ×ˢ Icc c d

theorem mem_box {p : Vec} {a b c d : ℝ} :
    p ∈ box a b c d ↔ (a ≤ p.1 ∧ p.1 ≤ b) ∧ c ≤ p.2 ∧ p.2 ≤ d :=
  Iff.rfl

theorem box_convex (a b c d : ℝ) : Convex ℝ (box a b c d) := (convex_Icc a b).prod (convex_Icc c d)

/-- The box is the hull of its corners. -/
theorem hull_corners {a b c d : ℝ} (hab : a ≤ b) (hcd : c ≤ d) :
    convexHull ℝ ({a, b} ×ˢ {c, d} : Set Vec) = box a b c d := by
  rw [convexHull_prod, convexHull_pair, convexHull_pair, segment_eq_Icc hab, segment_eq_Icc hcd]
  rfl

/-- A set inside of the box with all corners has the box as its hull. -/
theorem hull_eq_box {s : Set Vec} {a b c d : ℝ} (hab : a ≤ b) (hcd : c ≤ d) (hs : s ⊆ box a b c d)
    (h1 : ((a, c) : Vec) ∈ s) (h2 : ((a, d) : Vec) ∈ s) (h3 : ((b, c) : Vec) ∈ s)
    (h4 : ((b, d) : Vec) ∈ s) : convexHull ℝ s = box a b c d := by
  apply subset_antisymm (convexHull_min hs (box_convex a b c d))
  rw [← hull_corners hab hcd]
  apply convexHull_mono
  rintro ⟨x, y⟩ ⟨hx, hy⟩
  simp only [mem_insert_iff, mem_singleton_iff] at hx hy
  rcases hx with rfl | rfl <;> rcases hy with rfl | rfl <;> assumption

/-- A polygon with the corners of a box. -/
theorem polygon_box {l : List Vec} {a b c d : ℝ} (hab : a ≤ b) (hcd : c ≤ d)
    (hs : ∀ p ∈ l, p ∈ box a b c d) (h1 : ((a, c) : Vec) ∈ l) (h2 : ((a, d) : Vec) ∈ l)
    (h3 : ((b, c) : Vec) ∈ l) (h4 : ((b, d) : Vec) ∈ l) : polygonRegion l = box a b c d :=
  hull_eq_box hab hcd hs h1 h2 h3 h4

theorem rectangle_box {x y w h : ℝ} (hw : 0 ≤ w) (hh : 0 ≤ h) :
    rectangle x y w h = box x (x + w) y (y + h) := by
  apply polygon_box (by linarith) (by linarith)
  · intro p hp
    simp only [rectangleRing, List.mem_cons, List.not_mem_nil, or_false] at hp
    rw [mem_box]
    rcases hp with rfl | rfl | rfl | rfl <;> refine ⟨⟨?_, ?_⟩, ?_, ?_⟩ <;> simp only <;> linarith
  all_goals simp [rectangleRing]

theorem room_box {w h : ℝ} (hw : 0 ≤ w) (hh : 0 ≤ h) :
    polygonRegion [(0, 0), (0, h), (w, h), (w, 0)] = box 0 w 0 h := by
  apply polygon_box hw hh
  · intro p hp
    simp only [List.mem_cons, List.not_mem_nil, or_false] at hp
    rw [mem_box]
    rcases hp with rfl | rfl | rfl | rfl <;> refine ⟨⟨?_, ?_⟩, ?_, ?_⟩ <;> simp only <;> linarith
  all_goals simp

/-- A point on the boundary of a box lies on one of its sides. -/
theorem frontier_box {p : Vec} {a b c d : ℝ} (hp : p ∈ frontier (box a b c d)) :
    ((a ≤ p.1 ∧ p.1 ≤ b) ∧ c ≤ p.2 ∧ p.2 ≤ d) ∧ (p.1 = a ∨ p.1 = b ∨ p.2 = c ∨ p.2 = d) := by
  have hc : IsClosed (box a b c d) := isClosed_Icc.prod isClosed_Icc
  have h := mem_box.1 (hc.frontier_subset hp)
  refine ⟨h, ?_⟩
  by_contra hn
  push Not at hn
  refine hp.2 ?_
  refine mem_interior.2 ⟨Ioo a b ×ˢ Ioo c d, ?_, isOpen_Ioo.prod isOpen_Ioo, ?_⟩
  · exact prod_mono Ioo_subset_Icc_self Ioo_subset_Icc_self
  · exact ⟨⟨lt_of_le_of_ne h.1.1 (Ne.symm hn.1), lt_of_le_of_ne h.1.2 hn.2.1⟩,
      lt_of_le_of_ne h.2.1 (Ne.symm hn.2.2.1), lt_of_le_of_ne h.2.2 hn.2.2.2⟩

/-- Horizontal open segments. -/
theorem mem_openSegment_h {p : Vec} {a b c : ℝ} (hab : a < b)
    (hp : p ∈ openSegment ℝ ((a, c) : Vec) (b, c)) : p.2 = c ∧ a < p.1 ∧ p.1 < b := by
  rw [← Prod.image_mk_openSegment_left, openSegment_eq_Ioo hab] at hp
  obtain ⟨x, hx, rfl⟩ := hp
  exact ⟨rfl, hx.1, hx.2⟩

/-- Vertical open segments. -/
theorem mem_openSegment_v {p : Vec} {a b c : ℝ} (hab : a < b)
    (hp : p ∈ openSegment ℝ ((c, a) : Vec) (c, b)) : p.1 = c ∧ a < p.2 ∧ p.2 < b := by
  rw [← Prod.image_mk_openSegment_right, openSegment_eq_Ioo hab] at hp
  obtain ⟨x, hx, rfl⟩ := hp
  exact ⟨rfl, hx.1, hx.2⟩

/-! ## Lines -/

theorem line_two (a b : Vec) : lineString [a, b] = segment ℝ a b := by
  simp only [lineString]
  exact union_eq_left.2 (singleton_subset_iff.2 (right_mem_segment ℝ a b))

theorem line_more (a b c : Vec) (l : List Vec) :
    lineString (a :: b :: c :: l) = segment ℝ a b ∪ lineString (b :: c :: l) := rfl

theorem mem_unionAll {l : List (Set Vec)} {p : Vec} : p ∈ unionAll l ↔ ∃ s ∈ l, p ∈ s := Iff.rfl

theorem exits_iff (f : Plan) (p : Vec) : p ∈ f.exits ↔ ∃ t ∈ f.targets, p ∈ segment ℝ t.1 t.2 := by
  simp only [Plan.exits, mem_unionAll, List.mem_map, line_two]
  constructor
  · rintro ⟨s, ⟨t, ht, rfl⟩, hp⟩
    exact ⟨t, ht, hp⟩
  · rintro ⟨t, ht, hp⟩
    exact ⟨_, ⟨t, ht, rfl⟩, hp⟩

/-! ## The domains -/

theorem hallway_walls (w h r : ℝ) : (hallwayField w h r).obstacles =
    segment ℝ ((0, 0) : Vec) (w, 0) ∪ segment ℝ ((0, h) : Vec) (w, h) := by
  simp only [hallwayField, hallwayParts, line_two]

theorem hallway_domain {w h r : ℝ} (hw : 0 ≤ w) (hh : 0 ≤ h) (hr : 0 ≤ r) (hr1 : r ≤ 1) :
    (hallwayField w h r).domain = box 0 w 0 h := by
  have h1 : 0 ≤ r * w := mul_nonneg hr hw
  have h2 : r * w ≤ w := by nlinarith
  apply hull_eq_box hw hh
  · rintro p ((hp | hp) | hp)
    · simp only [hallwayParts, line_two, mem_union, mem_segment_h] at hp
      rw [mem_box]
      rcases hp with ⟨a, b | b⟩ | ⟨a, b | b⟩ <;> refine ⟨⟨?_, ?_⟩, ?_, ?_⟩ <;> linarith
    · rw [exits_iff] at hp
      simp only [hallwayParts, List.mem_cons, List.not_mem_nil, or_false, exists_eq_or_imp,
        exists_eq_left, mem_segment_v] at hp
      rw [mem_box]
      rcases hp with ⟨a, b | b⟩ | ⟨a, b | b⟩ <;> refine ⟨⟨?_, ?_⟩, ?_, ?_⟩ <;> linarith
    · obtain ⟨s, hs, hp⟩ := hp
      simp only [hallwayParts, List.mem_cons, List.not_mem_nil, or_false] at hs
      rw [mem_box]
      rcases hs with rfl | rfl <;> rw [rectangle_box h1 hh, mem_box] at hp <;>
        refine ⟨⟨?_, ?_⟩, ?_, ?_⟩ <;> nlinarith [hp.1.1, hp.1.2, hp.2.1, hp.2.2]
  all_goals
    left; left
    simp [hallwayParts, line_two, mem_segment_h, hw]

/-- The hull of the room of `RoomWithOneExit`. -/
theorem room_hull {w h : ℝ} (hw : 0 ≤ w) (hh : 0 ≤ h) :
    convexHull ℝ (lineString [(w, 0), (0, 0), (0, h), (w, h)]) = box 0 w 0 h := by
  apply hull_eq_box hw hh
  · intro p hp
    simp only [line_more, line_two, mem_union, mem_segment_h, mem_segment_v] at hp
    rw [mem_box]
    rcases hp with ⟨a, b | b⟩ | ⟨a, b | b⟩ | ⟨a, b | b⟩ <;> refine ⟨⟨?_, ?_⟩, ?_, ?_⟩ <;> linarith
  all_goals
    simp [line_more, line_two, mem_segment_h, mem_segment_v, hw, hh]

theorem roomExit_domain {w h e l : ℝ} (hw : 0 ≤ w) (he : 0 ≤ e) (heh : e ≤ h) (hl : 0 ≤ l) :
    (roomWithOneExitField w h e l).domain = box 0 (w + l) 0 h := by
  have hh : 0 ≤ h := he.trans heh
  have h1 : 0 ≤ (h - e) / 2 := by linarith
  apply hull_eq_box (by linarith) hh
  · rintro p ((hp | hp) | hp)
    · simp only [line_more, line_two, mem_union, mem_segment_h, mem_segment_v,
        rectangle_box hl h1, mem_box] at hp
      rw [mem_box]
      rcases hp with (⟨a, b | b⟩ | ⟨a, b | b⟩ | ⟨a, b | b⟩) | (⟨⟨a, b⟩, c, d⟩ | ⟨⟨a, b⟩, c, d⟩) <;>
        refine ⟨⟨?_, ?_⟩, ?_, ?_⟩ <;> linarith
    · rw [exits_iff] at hp
      simp only [List.mem_cons, List.not_mem_nil, or_false, exists_eq_left, mem_segment_v] at hp
      rw [mem_box]
      rcases hp with ⟨a, b | b⟩ <;> refine ⟨⟨?_, ?_⟩, ?_, ?_⟩ <;> linarith
    · obtain ⟨s, hs, hp⟩ := hp
      simp only [List.mem_cons, List.not_mem_nil, or_false] at hs
      rw [hs, room_hull hw hh, mem_box] at hp
      rw [mem_box]
      refine ⟨⟨?_, ?_⟩, ?_, ?_⟩ <;> linarith [hp.1.1, hp.1.2, hp.2.1, hp.2.2]
  all_goals
    left; left
    simp only [line_more, line_two, mem_union, mem_segment_h, mem_segment_v,
        rectangle_box hl h1, mem_box]
  · left; left; exact ⟨trivial, Or.inr ⟨le_refl _, hw⟩⟩
  · left; right; left; exact ⟨trivial, Or.inl ⟨hh, le_refl _⟩⟩
  · right; right; refine ⟨⟨?_, ?_⟩, ?_, ?_⟩ <;> linarith
  · right; left; refine ⟨⟨?_, ?_⟩, ?_, ?_⟩ <;> linarith

/-- The walls of `FourExitsField`. -/
theorem fourExits_walls {e : ℝ} (p : Vec) (he1 : e ≤ 10) :
    p ∈ (fourExitsField e).obstacles ↔
      (p.1 = 0 ∧ 0 ≤ p.2 ∧ p.2 ≤ 10) ∨ (p.2 = 0 ∧ 0 ≤ p.1 ∧ p.1 ≤ 87) ∨
      (p.1 = 20 ∧ 0 ≤ p.2 ∧ p.2 ≤ 40) ∨ (p.2 = 20 ∧ 20 ≤ p.1 ∧ p.1 ≤ 40) ∨
      (p.1 = 60 ∧ 0 ≤ p.2 ∧ p.2 ≤ 20) ∨ (p.1 = 0 ∧ 10 + e ≤ p.2 ∧ p.2 ≤ 80) ∨
      (p.2 = 80 ∧ 0 ≤ p.1 ∧ p.1 ≤ 6) ∨ (p.2 = 60 ∧ 0 ≤ p.1 ∧ p.1 ≤ 40) ∨
      (p.2 = 80 ∧ 6 + e ≤ p.1 ∧ p.1 ≤ 100) ∨ (p.1 = 100 ∧ 50 + e ≤ p.2 ∧ p.2 ≤ 80) ∨
      (p.2 = 60 ∧ 60 ≤ p.1 ∧ p.1 ≤ 100) ∨ (p.1 = 70 ∧ 40 ≤ p.2 ∧ p.2 ≤ 60) ∨
      (p.1 = 100 ∧ 0 ≤ p.2 ∧ p.2 ≤ 50) ∨ (p.2 = 0 ∧ 87 + e ≤ p.1 ∧ p.1 ≤ 100) := by
  have key : ∀ {a b x : ℝ}, a ≤ b → ((a ≤ x ∧ x ≤ b ∨ b ≤ x ∧ x ≤ a) ↔ a ≤ x ∧ x ≤ b) := by
    intro a b x hab
    exact ⟨fun h => h.elim id fun h => ⟨by linarith [h.1], by linarith [h.2]⟩, Or.inl⟩
  have key' : ∀ {a b x : ℝ}, b ≤ a → ((a ≤ x ∧ x ≤ b ∨ b ≤ x ∧ x ≤ a) ↔ b ≤ x ∧ x ≤ a) := by
    intro a b x hab
    exact ⟨fun h => h.elim (fun h => ⟨by linarith [h.1], by linarith [h.2]⟩) id, Or.inr⟩
  simp only [fourExitsField, mem_unionAll, List.mem_cons, List.not_mem_nil, or_false,
    exists_eq_or_imp, exists_eq_left, line_more, line_two, mem_union, mem_segment_h, mem_segment_v]
  rw [key' (show (0:ℝ) ≤ 10 by norm_num), key (show (0:ℝ) ≤ 87 by norm_num),
    key (show (0:ℝ) ≤ 40 by norm_num), key (show (20:ℝ) ≤ 40 by norm_num),
    key (show (0:ℝ) ≤ 20 by norm_num), key (show 10 + e ≤ 80 by linarith),
    key (show (0:ℝ) ≤ 6 by norm_num), key (show (0:ℝ) ≤ 40 by norm_num),
    key (show 6 + e ≤ 100 by linarith), key' (show 50 + e ≤ 80 by linarith),
    key' (show (60:ℝ) ≤ 100 by norm_num), key' (show (40:ℝ) ≤ 60 by norm_num),
    key' (show (0:ℝ) ≤ 50 by norm_num), key' (show 87 + e ≤ 100 by linarith)]
  simp only [or_assoc]

end CrowdDynamics
