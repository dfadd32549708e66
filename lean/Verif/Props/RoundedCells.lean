import Verif.Proofs.RoundedCells

/-!
# Properties C164, C165: cells and capacities in floating point
-/

namespace CrowdDynamics

open Spec

/-! ## C164: the block list -/

/-- **C164** In floating point two points have the same key exactly if they lie in the same
cell: floor division makes no rounding error. -/
theorem C164_same_key (c : ℝ) (p q : List ℝ) (hc : Binary64 c) (hc0 : 0 < c) (hp : OnMap c p)
    (hq : OnMap c q) : blockTransformF fl64 p c = blockTransformF fl64 q c ↔ SameCell c p q := by
  rw [blockTransformF_eq hc hc0 hp, blockTransformF_eq hc hc0 hq, cast_list_injective.eq_iff]
  unfold blockTransform SameCell
  rw [← List.forall₂_eq_eq_eq, List.forall₂_map_left_iff, List.forall₂_map_right_iff]

/-- **C164** In floating point the keys searched by `nearest(p, r)` are exactly those of the
cells whose index differs by at most `r` in every coordinate. -/
theorem C164_searched_keys (c : ℝ) (p q : List ℝ) (r : ℤ) (hc : Binary64 c) (hc0 : 0 < c)
    (hp : OnMap c p) (hq : OnMap c q) (hr : |r| ≤ 2 ^ 49) :
    blockTransformF fl64 q c ∈ nearestBlocksF fl64 (blockTransformF fl64 p c) r ↔
      CellsWithin c r q p := nearestBlocksF_mem hc hc0 hp hq hr

/-- **C164** No point whose coordinates differ by at most `r` cell sizes is missed because of
rounding errors. -/
theorem C164_complete (c : ℝ) (p q : List ℝ) (r : ℤ) (hc : Binary64 c) (hc0 : 0 < c)
    (hp : OnMap c p) (hq : OnMap c q) (hr : |r| ≤ 2 ^ 49)
    (hclose : List.Forall₂ (fun a b => |a - b| ≤ r * c) q p) :
    blockTransformF fl64 q c ∈ nearestBlocksF fl64 (blockTransformF fl64 p c) r :=
  (nearestBlocksF_mem hc hc0 hp hq hr).2 (hclose.imp fun _ _ h => floor_close hc0 r h)

/-- **C164** The floor division of floats is the exact one, also in the capacity of a door. -/
theorem C164_floor_division (x y : ℝ) (hx : Binary64 x) (hy : Binary64 y) (hy0 : y ≠ 0)
    (hq : |x / y| ≤ 2 ^ 49) : pyFloorDivF fl64 x y = (⌊x / y⌋ : ℤ) :=
  pyFloorDivF_fl64 hx hy hy0 hq

example := C164_floor_division (-5) (1 / 2) ⟨-5, 0, by norm_num, by norm_num, by norm_num⟩
  ⟨1, -1, by norm_num, by norm_num, by norm_num⟩ (by norm_num) (by rw [abs_le]; norm_num)

/-- Two points on both sides of the border between two cells of side `fl64 (1/10)`. -/
example : OnMap (fl64 (1 / 10)) [fl64 (3 / 10), -5] ∧ Binary64 (fl64 (1 / 10)) := by
  have h1 : (1 : ℝ) / 16 ≤ fl64 (1 / 10) := by
    have h := fl64_two_zpow (e := -4) (by norm_num)
    have h2 : fl64 ((2 : ℝ) ^ (-4 : ℤ)) ≤ fl64 (1 / 10) := fl64_mono (by norm_num)
    rw [h] at h2; norm_num at h2 ⊢; exact h2
  have h3 : fl64 (3 / 10) ≤ 1 := by
    have h := fl64_int (n := 1) (by norm_num)
    have h2 : fl64 (3 / 10) ≤ fl64 ((1 : ℤ) : ℝ) := fl64_mono (by norm_num)
    rw [h] at h2; simpa using h2
  refine ⟨?_, binary64_fl64 _⟩
  intro a ha
  simp only [List.mem_cons, List.not_mem_nil, or_false] at ha
  have hb : |a| ≤ 5 := by
    rcases ha with rfl | rfl
    · rw [abs_of_nonneg (fl64_nonneg (by norm_num))]; linarith
    · norm_num
  refine ⟨?_, ?_⟩
  · rcases ha with rfl | rfl
    · exact binary64_fl64 _
    · exact ⟨-5, 0, by norm_num, by norm_num, by norm_num⟩
  · rw [abs_div, abs_of_pos (by linarith : 0 < fl64 (1 / 10)), div_le_iff₀ (by linarith)]
    linarith

example : List.Forall₂ (fun a b : ℝ => |a - b| ≤ ((1 : ℤ) : ℝ) * (1 / 2)) [1 / 4, -1] [1 / 2, -1 / 2] := by
  refine List.Forall₂.cons ?_ (List.Forall₂.cons ?_ List.Forall₂.nil) <;> norm_num [abs_le]

/-! ## C165: doors of decimal width -/

/-- The full statement: a door that is `k` agents wide has capacity `k`, when both widths are
written in the program as decimal numbers (and therefore rounded). -/
def C165_statement : Prop :=
  ∀ (w : ℝ) (k : ℕ), 1 / 10 ≤ w → w ≤ 10 → 1 ≤ k → k ≤ 100 →
    narrowExitCapacityF fl64 (fl64 (k * w)) (fl64 w) none 1 = k

/-- **C165** False of the code: the capacity of a door of width 0.6 for agents of width 0.2 is
2, not 3. -/
theorem C165_decimal_fails : ¬ C165_statement := by
  intro h
  have h1 := h (1 / 5) 3 (by norm_num) (by norm_num) (by norm_num) (by norm_num)
  have e1 : fl64 (((3 : ℕ) : ℝ) * (1 / 5)) = 5404319552844595 * 2 ^ (-53 : ℤ) := by
    have := fl64_eq_of_near (x := ((3 : ℕ) : ℝ) * (1 / 5)) (m := 5404319552844595) (e := -53)
      (by rw [abs_of_pos (by norm_num)]; norm_num) (by rw [abs_of_pos (by norm_num)]; norm_num)
      (by norm_num) (by rw [abs_lt]; norm_num)
    rw [this]; norm_num
  have e2 : fl64 (1 / 5) = 7205759403792794 * 2 ^ (-55 : ℤ) := by
    have := fl64_eq_of_near (x := 1 / 5) (m := 7205759403792794) (e := -55)
      (by rw [abs_of_pos (by norm_num)]; norm_num) (by rw [abs_of_pos (by norm_num)]; norm_num)
      (by norm_num) (by rw [abs_lt]; norm_num)
    rw [this]; norm_num
  rw [narrowExitCapacityF_none (binary64_fl64 _) (binary64_fl64 _) (by rw [e2]; positivity)
    (by rw [e1, e2, abs_of_pos (by positivity)]; norm_num)] at h1
  unfold narrowExitCapacity pyFloorDiv at h1
  rw [if_neg (by rw [e1, e2]; norm_num)] at h1
  simp only [one_mul] at h1
  have e3 : ⌊fl64 (((3 : ℕ) : ℝ) * (1 / 5)) / fl64 (1 / 5)⌋ = 2 := by
    rw [Int.floor_eq_iff, e1, e2]; norm_num
  rw [e3] at h1
  norm_num at h1

/-- **C165** (partial) The capacity is `k` or `k - 1`; it is `k` if both widths are floats, and
in exact arithmetic. Missing: exactness for decimal widths, which is false. -/
theorem C165_decimal_partial (w : ℝ) (k : ℕ) (hw : 1 / 10 ≤ w) (hw2 : w ≤ 10) (hk : 1 ≤ k)
    (hk2 : k ≤ 100) :
    (narrowExitCapacityF fl64 (fl64 (k * w)) (fl64 w) none 1 = k ∨
      narrowExitCapacityF fl64 (fl64 (k * w)) (fl64 w) none 1 = k - 1) ∧
    (Binary64 w → Binary64 (k * w) →
      narrowExitCapacityF fl64 (k * w) w none 1 = k) ∧
    narrowExitCapacity (k * w) w none 1 = k := by
  have hk' : (1 : ℝ) ≤ k := by exact_mod_cast hk
  have hk2' : (k : ℝ) ≤ 100 := by exact_mod_cast hk2
  have hw0 : 0 < w := by linarith
  have hkw : w ≤ k * w := by nlinarith
  have hex : narrowExitCapacity (k * w) w none 1 = k := by
    unfold narrowExitCapacity pyFloorDiv
    rw [if_neg (not_lt.2 hkw)]
    simp only [one_mul]
    rw [mul_div_assoc, div_self hw0.ne', mul_one]
    simp
  refine ⟨?_, ?_, hex⟩
  · have hsmall : (2 : ℝ) ^ (-1022 : ℤ) ≤ 1 / 10 := by
      have : (2 : ℝ) ^ (-1022 : ℤ) ≤ 2 ^ (-4 : ℤ) := zpow_le_zpow_right₀ (by norm_num) (by norm_num)
      norm_num at this ⊢
      linarith
    have hb1 := fl64_err_rel (x := w) (by rw [abs_of_pos hw0]; linarith)
    have hb2 := fl64_err_rel (x := k * w) (by rw [abs_of_pos (by linarith)]; linarith)
    rw [abs_of_pos hw0] at hb1
    rw [abs_of_pos (by linarith : 0 < k * w)] at hb2
    have hmono : fl64 w ≤ fl64 (k * w) := fl64_mono hkw
    obtain ⟨W, hW⟩ : ∃ W, fl64 w = W := ⟨_, rfl⟩
    obtain ⟨D, hD⟩ : ∃ D, fl64 (k * w) = D := ⟨_, rfl⟩
    have hBW : Binary64 W := hW ▸ binary64_fl64 w
    have hBD : Binary64 D := hD ▸ binary64_fl64 (k * w)
    rw [hW] at hb1 hmono
    rw [hD] at hb2 hmono
    rw [hW, hD]
    rw [abs_le] at hb1 hb2
    norm_num at hb1 hb2
    have hWpos : 0 < W := by linarith
    have hl : (k : ℝ) - 1 ≤ D / W := by
      rw [le_div_iff₀ hWpos]
      nlinarith
    have hu : D / W < k + 1 := by
      rw [div_lt_iff₀ hWpos]
      nlinarith
    rw [narrowExitCapacityF_none hBD hBW hWpos (by
      rw [abs_of_nonneg (by linarith)]; norm_num; linarith)]
    unfold narrowExitCapacity pyFloorDiv
    rw [if_neg (not_lt.2 hmono)]
    simp only [one_mul]
    rcases le_or_gt (k : ℝ) (D / W) with hc | hc
    · left
      have : ⌊D / W⌋ = (k : ℤ) := by
        rw [Int.floor_eq_iff]; push_cast; exact ⟨hc, hu⟩
      rw [this]; simp
    · right
      have : ⌊D / W⌋ = (k : ℤ) - 1 := by
        rw [Int.floor_eq_iff]; push_cast; constructor <;> linarith
      rw [this]; push_cast; ring
  · intro hBw hBk
    rw [narrowExitCapacityF_none hBk hBw hw0 (by
      rw [mul_div_assoc, div_self hw0.ne', mul_one, abs_of_nonneg (by linarith)]
      norm_num; linarith)]
    exact hex

/-- A door of four agents of half a metre. -/
example : Binary64 (1 / 2) ∧ Binary64 (((4 : ℕ) : ℝ) * (1 / 2)) :=
  ⟨⟨1, -1, by norm_num, by norm_num, by norm_num⟩, ⟨2, 0, by norm_num, by norm_num, by norm_num⟩⟩

end CrowdDynamics
