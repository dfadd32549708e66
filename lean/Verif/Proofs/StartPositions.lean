import Verif.Model.StartPositions
import Verif.Proofs.ExampleFields
import Verif.Proofs.Vector2D

/-!
# Lemmas about starting positions
-/

namespace CrowdDynamics

open Set

lemma fst_gap {p q : Vec} {r : ℝ} (h : r ≤ p.1 - q.1 ∨ r ≤ q.1 - p.1) : r ≤ length (p - q) := by
  refine le_trans ?_ (abs_fst_le_length (p - q))
  rcases h with h | h
  · exact h.trans (le_abs_self _)
  · exact (h.trans (by simp)).trans (neg_le_abs _)

lemma snd_gap {p q : Vec} {r : ℝ} (h : r ≤ p.2 - q.2 ∨ r ≤ q.2 - p.2) : r ≤ length (p - q) := by
  refine le_trans ?_ (abs_snd_le_length (p - q))
  rcases h with h | h
  · exact h.trans (le_abs_self _)
  · exact (h.trans (by simp)).trans (neg_le_abs _)

lemma length_same_fst {p : Vec} {y : ℝ} : length (p - (p.1, y)) = |p.2 - y| := by
  unfold length
  simp [Real.sqrt_sq_eq_abs]

lemma length_same_snd {p : Vec} {x : ℝ} : length (p - (x, p.2)) = |p.1 - x| := by
  unfold length
  simp [Real.sqrt_sq_eq_abs]

/-- In the hallway the samples keep 0.3 from both walls. -/
lemma hallway_samples {w h r : ℝ} (hw : 0 ≤ w) (hh : 0 ≤ h) (hr : 0 ≤ r) (hr1 : r ≤ 1) (k : ℤ)
    (hk : k = 0 ∨ k = 1) {p : Vec} (hp : p ∈ (hallwayField w h r).samples k) :
    p ∈ box 0 w 0.3 (h - 0.3) := by
  have h1 : 0 ≤ r * w := mul_nonneg hr hw
  have h2 : r * w ≤ w := by nlinarith
  have key : ∀ spawn ⊆ box 0 w 0 h,
      convexHull ℝ {p | p ∈ spawn ∧ ∀ q ∈ (hallwayField w h r).obstacles, 0.3 ≤ length (p - q)} ⊆
        box 0 w 0.3 (h - 0.3) := by
    intro spawn hs
    refine convexHull_min ?_ (box_convex _ _ _ _)
    rintro p ⟨hp, hq⟩
    obtain ⟨⟨a, b⟩, c, d⟩ := mem_box.1 (hs hp)
    rw [hallway_walls] at hq
    have e1 := hq (p.1, 0) (.inl (mem_segment_h.2 ⟨rfl, .inl ⟨a, b⟩⟩))
    have e2 := hq (p.1, h) (.inr (mem_segment_h.2 ⟨rfl, .inl ⟨a, b⟩⟩))
    rw [length_same_fst, sub_zero, abs_of_nonneg c] at e1
    rw [length_same_fst, abs_of_nonpos (by linarith)] at e2
    exact mem_box.2 ⟨⟨a, b⟩, e1, by linarith⟩
  have s0 : rectangle 0 0 (r * w) h ⊆ box 0 w 0 h := by
    rw [rectangle_box h1 hh]
    intro p hp
    obtain ⟨⟨a, b⟩, c, d⟩ := mem_box.1 hp
    exact mem_box.2 ⟨⟨a, by linarith⟩, c, by linarith⟩
  have s1 : rectangle ((1 - r) * w) 0 (r * w) h ⊆ box 0 w 0 h := by
    rw [rectangle_box h1 hh]
    intro p hp
    obtain ⟨⟨a, b⟩, c, d⟩ := mem_box.1 hp
    exact mem_box.2 ⟨⟨by nlinarith, by nlinarith⟩, c, by linarith⟩
  rcases hk with rfl | rfl
  · exact key _ s0 hp
  · exact key _ s1 hp

lemma closedRoom_walls (w h : ℝ) (q : Vec) : q ∈ (closedRoomField w h).obstacles ↔
    q ∈ segment ℝ ((0, 0) : Vec) (0, h) ∨ q ∈ segment ℝ ((0, h) : Vec) (w, h) ∨
      q ∈ segment ℝ ((w, h) : Vec) (w, 0) ∨ q ∈ segment ℝ ((w, 0) : Vec) (0, 0) := by
  simp only [closedRoomField, polygonExterior, List.take, List.cons_append, List.nil_append,
    line_more, line_two, mem_union]

lemma closedRoom_samples {w h : ℝ} (hw : 0 ≤ w) (hh : 0 ≤ h) {p : Vec}
    (hp : p ∈ (closedRoomField w h).samples 0) : p ∈ box 0.3 (w - 0.3) 0.3 (h - 0.3) := by
  have key : convexHull ℝ {p | p ∈ polygonRegion [(0, 0), (0, h), (w, h), (w, 0)] ∧
      ∀ q ∈ (closedRoomField w h).obstacles, 0.3 ≤ length (p - q)} ⊆
        box 0.3 (w - 0.3) 0.3 (h - 0.3) := by
    refine convexHull_min ?_ (box_convex _ _ _ _)
    rintro p ⟨hp, hq⟩
    rw [room_box hw hh] at hp
    obtain ⟨⟨a, b⟩, c, d⟩ := mem_box.1 hp
    have e1 := hq (p.1, 0) ((closedRoom_walls w h _).2
      (.inr (.inr (.inr (mem_segment_h.2 ⟨rfl, .inr ⟨a, b⟩⟩)))))
    have e2 := hq (p.1, h) ((closedRoom_walls w h _).2
      (.inr (.inl (mem_segment_h.2 ⟨rfl, .inl ⟨a, b⟩⟩))))
    have e3 := hq (0, p.2) ((closedRoom_walls w h _).2
      (.inl (mem_segment_v.2 ⟨rfl, .inl ⟨c, d⟩⟩)))
    have e4 := hq (w, p.2) ((closedRoom_walls w h _).2
      (.inr (.inr (.inl (mem_segment_v.2 ⟨rfl, .inr ⟨c, d⟩⟩)))))
    rw [length_same_fst, sub_zero, abs_of_nonneg c] at e1
    rw [length_same_fst, abs_of_nonpos (by linarith)] at e2
    rw [length_same_snd, sub_zero, abs_of_nonneg a] at e3
    rw [length_same_snd, abs_of_nonpos (by linarith)] at e4
    exact mem_box.2 ⟨⟨e3, by linarith⟩, e1, by linarith⟩
  exact key hp

lemma roomExit_samples {w h e l : ℝ} (hw : 0 ≤ w) (hh : 0 ≤ h) {p : Vec}
    (hp : p ∈ (roomWithOneExitField w h e l).samples 0) : p ∈ box 0.3 w 0.3 (h - 0.3) := by
  have key : convexHull ℝ {p | p ∈ convexHull ℝ (lineString [(w, 0), (0, 0), (0, h), (w, h)]) ∧
      ∀ q ∈ (roomWithOneExitField w h e l).obstacles, 0.3 ≤ length (p - q)} ⊆
        box 0.3 w 0.3 (h - 0.3) := by
    refine convexHull_min ?_ (box_convex _ _ _ _)
    rintro p ⟨hp, hq⟩
    rw [room_hull hw hh] at hp
    obtain ⟨⟨a, b⟩, c, d⟩ := mem_box.1 hp
    simp only [roomWithOneExitField, line_more, line_two] at hq
    have e1 := hq (p.1, 0) (.inl (.inl (mem_segment_h.2 ⟨rfl, .inr ⟨a, b⟩⟩)))
    have e2 := hq (p.1, h) (.inl (.inr (.inr (mem_segment_h.2 ⟨rfl, .inl ⟨a, b⟩⟩))))
    have e3 := hq (0, p.2) (.inl (.inr (.inl (mem_segment_v.2 ⟨rfl, .inl ⟨c, d⟩⟩))))
    rw [length_same_fst, sub_zero, abs_of_nonneg c] at e1
    rw [length_same_fst, abs_of_nonpos (by linarith)] at e2
    rw [length_same_snd, sub_zero, abs_of_nonneg a] at e3
    exact mem_box.2 ⟨⟨e3, b⟩, e1, by linarith⟩
  exact key hp

/-- A position between the inner corner and the middle of the door can be drawn. -/
lemma roomExit_corner : ((9.85, 2.65) : Vec) ∈ (roomWithOneExitField 10 10 1.25 2).samples 0 := by
  have hw : (0 : ℝ) ≤ 10 := by norm_num
  have obs : ∀ q ∈ (roomWithOneExitField 10 10 1.25 2).obstacles,
      (q.2 = 0 ∨ q.1 = 0 ∨ q.2 = 10) ∨ 10 ≤ q.1 ∧ (q.2 ≤ 4.375 ∨ 5.625 ≤ q.2) := by
    intro q hq
    simp only [roomWithOneExitField, line_more, line_two, mem_union, mem_segment_h, mem_segment_v,
      rectangle_box (by norm_num : (0 : ℝ) ≤ 2) (by norm_num : (0 : ℝ) ≤ (10 - 1.25) / 2),
      mem_box] at hq
    rcases hq with (h | h | h) | h | h
    · exact .inl (.inl h.1)
    · exact .inl (.inr (.inl h.1))
    · exact .inl (.inr (.inr h.1))
    · exact .inr ⟨h.1.1, .inr (by linarith [h.2.1])⟩
    · exact .inr ⟨h.1.1, .inl (by linarith [h.2.2])⟩
  show _ ∈ convexHull ℝ {p | p ∈ convexHull ℝ (lineString [(10, 0), (0, 0), (0, 10), (10, 10)]) ∧
      ∀ q ∈ (roomWithOneExitField 10 10 1.25 2).obstacles, 0.3 ≤ length (p - q)}
  rw [room_hull hw hw]
  have hA : ((9.7, 0.3) : Vec) ∈ {p | p ∈ box 0 10 0 10 ∧
      ∀ q ∈ (roomWithOneExitField 10 10 1.25 2).obstacles, 0.3 ≤ length (p - q)} := by
    refine ⟨mem_box.2 (by norm_num), fun q hq => ?_⟩
    rcases obs q hq with (h | h | h) | h
    · exact snd_gap (.inl (by rw [h]; norm_num))
    · exact fst_gap (.inl (by rw [h]; norm_num))
    · exact snd_gap (.inr (by rw [h]; norm_num))
    · exact fst_gap (.inr (by have := h.1; show (0.3 : ℝ) ≤ q.1 - 9.7; linarith))
  have hB : ((10, 5) : Vec) ∈ {p | p ∈ box 0 10 0 10 ∧
      ∀ q ∈ (roomWithOneExitField 10 10 1.25 2).obstacles, 0.3 ≤ length (p - q)} := by
    refine ⟨mem_box.2 (by norm_num), fun q hq => ?_⟩
    rcases obs q hq with (h | h | h) | ⟨-, h | h⟩
    · exact snd_gap (.inl (by rw [h]; norm_num))
    · exact fst_gap (.inl (by rw [h]; norm_num))
    · exact snd_gap (.inr (by rw [h]; norm_num))
    · exact snd_gap (.inl (by show (0.3 : ℝ) ≤ 5 - q.2; linarith))
    · exact snd_gap (.inr (by show (0.3 : ℝ) ≤ q.2 - 5; linarith))
  refine segment_subset_convexHull hA hB ⟨1 / 2, 1 / 2, by norm_num, by norm_num, by norm_num, ?_⟩
  ext <;> simp <;> norm_num

end CrowdDynamics
