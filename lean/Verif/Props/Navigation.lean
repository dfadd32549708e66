import Verif.Proofs.Navigation

/-!
# Properties C56, C57, C76: navigation on a grid
-/

namespace CrowdDynamics

open Spec

/-! ## C56: the mesh grid and its indices -/

/-- **C56** The grid has the shape `(⌈height/step⌉ + 1, ⌈width/step⌉ + 1)`; the node in row `i` and
column `j` is `(minx + j*step, miny + i*step)`. The last nodes are at or beyond `maxx`, `maxy`. -/
theorem C56_grid (step minx miny maxx maxy : ℝ) (hs : 0 < step) (hx : minx ≤ maxx)
    (hy : miny ≤ maxy) :
    ((meshgrid step minx miny maxx maxy).shape.1 : ℤ) = ⌈(maxy - miny) / step⌉ + 1 ∧
    ((meshgrid step minx miny maxx maxy).shape.2 : ℤ) = ⌈(maxx - minx) / step⌉ + 1 ∧
    (∀ i j, i < (meshgrid step minx miny maxx maxy).shape.1 →
      j < (meshgrid step minx miny maxx maxy).shape.2 →
      (meshgrid step minx miny maxx maxy).x.val i j = minx + j * step ∧
      (meshgrid step minx miny maxx maxy).y.val i j = miny + i * step) ∧
    maxx ≤ minx + (((meshgrid step minx miny maxx maxy).shape.2 : ℝ) - 1) * step ∧
    maxy ≤ miny + (((meshgrid step minx miny maxx maxy).shape.1 : ℝ) - 1) * step := by
  have hx0 : 0 ≤ ⌈(maxx - minx) / step⌉ := Int.ceil_nonneg (div_nonneg (sub_nonneg.2 hx) hs.le)
  have hy0 : 0 ≤ ⌈(maxy - miny) / step⌉ := Int.ceil_nonneg (div_nonneg (sub_nonneg.2 hy) hs.le)
  have e1 : ((meshgrid step minx miny maxx maxy).shape.1 : ℤ) = ⌈(maxy - miny) / step⌉ + 1 := by
    simp only [meshgrid, arange_length hs hy]; omega
  have e2 : ((meshgrid step minx miny maxx maxy).shape.2 : ℤ) = ⌈(maxx - minx) / step⌉ + 1 := by
    simp only [meshgrid, arange_length hs hx]; omega
  refine ⟨e1, e2, fun i j hi hj => ⟨arange_getD hj, arange_getD hi⟩, ?_, ?_⟩
  · have : ((meshgrid step minx miny maxx maxy).shape.2 : ℝ) - 1 = (⌈(maxx - minx) / step⌉ : ℝ) := by
      have : ((meshgrid step minx miny maxx maxy).shape.2 : ℝ) =
        ((⌈(maxx - minx) / step⌉ + 1 : ℤ) : ℝ) := by exact_mod_cast e2
      rw [this]; push_cast; ring
    rw [this]
    have h := Int.le_ceil ((maxx - minx) / step)
    rw [div_le_iff₀ hs] at h
    linarith
  · have : ((meshgrid step minx miny maxx maxy).shape.1 : ℝ) - 1 = (⌈(maxy - miny) / step⌉ : ℝ) := by
      have : ((meshgrid step minx miny maxx maxy).shape.1 : ℝ) =
        ((⌈(maxy - miny) / step⌉ + 1 : ℤ) : ℝ) := by exact_mod_cast e1
      rw [this]; push_cast; ring
    rw [this]
    have h := Int.le_ceil ((maxy - miny) / step)
    rw [div_le_iff₀ hs] at h
    linarith

example : (0 : ℝ) < 0.1 ∧ (-1 : ℝ) ≤ 2 := by norm_num

/-- **C56** A position inside of the bounds has a valid index, `(column, row)`, and its node is to
the lower left and less than one step away in each coordinate. -/
theorem C56_index (step minx miny maxx maxy : ℝ) (hs : 0 < step) (p : Vec)
    (hx : minx ≤ p.1) (hx' : p.1 ≤ maxx) (hy : miny ≤ p.2) (hy' : p.2 ≤ maxy) :
    ∃ i j : ℕ, (meshgrid step minx miny maxx maxy).index p = ((j : ℤ), (i : ℤ)) ∧
      i < (meshgrid step minx miny maxx maxy).shape.1 ∧
      j < (meshgrid step minx miny maxx maxy).shape.2 ∧
      (meshgrid step minx miny maxx maxy).x.val i j ≤ p.1 ∧
      p.1 < (meshgrid step minx miny maxx maxy).x.val i j + step ∧
      (meshgrid step minx miny maxx maxy).y.val i j ≤ p.2 ∧
      p.2 < (meshgrid step minx miny maxx maxy).y.val i j + step := by
  obtain ⟨e1, e2, hv, -, -⟩ := C56_grid step minx miny maxx maxy hs (hx.trans hx') (hy.trans hy')
  have key : ∀ a b x : ℝ, a ≤ x → x ≤ b → ∃ k : ℕ, truncInt ((x - a) / step) = k ∧
      (k : ℤ) < ⌈(b - a) / step⌉ + 1 ∧ a + k * step ≤ x ∧ x < a + k * step + step := by
    intro a b x h h'
    have h0 : 0 ≤ (x - a) / step := div_nonneg (sub_nonneg.2 h) hs.le
    refine ⟨⌊(x - a) / step⌋.toNat, ?_, ?_, ?_, ?_⟩
    · rw [truncInt_of_nonneg h0, Int.toNat_of_nonneg (Int.floor_nonneg.2 h0)]
    · rw [Int.toNat_of_nonneg (Int.floor_nonneg.2 h0), Int.lt_add_one_iff]
      have : (⌊(x - a) / step⌋ : ℝ) ≤ ⌈(b - a) / step⌉ :=
        (Int.floor_le _).trans ((div_le_div_of_nonneg_right (by linarith) hs.le).trans
          (Int.le_ceil _))
      exact_mod_cast this
    · have h1 := Int.floor_le ((x - a) / step)
      rw [le_div_iff₀ hs] at h1
      have : ((⌊(x - a) / step⌋.toNat : ℕ) : ℝ) = (⌊(x - a) / step⌋ : ℝ) := by
        exact_mod_cast Int.toNat_of_nonneg (Int.floor_nonneg.2 h0)
      rw [this]; linarith
    · have h1 := Int.lt_floor_add_one ((x - a) / step)
      rw [div_lt_iff₀ hs] at h1
      have : ((⌊(x - a) / step⌋.toNat : ℕ) : ℝ) = (⌊(x - a) / step⌋ : ℝ) := by
        exact_mod_cast Int.toNat_of_nonneg (Int.floor_nonneg.2 h0)
      rw [this]; linarith
  obtain ⟨j, ej, hj, hj1, hj2⟩ := key minx maxx p.1 hx hx'
  obtain ⟨i, ei, hi, hi1, hi2⟩ := key miny maxy p.2 hy hy'
  have hi' : i < (meshgrid step minx miny maxx maxy).shape.1 := by omega
  have hj' : j < (meshgrid step minx miny maxx maxy).shape.2 := by omega
  obtain ⟨v1, v2⟩ := hv i j hi' hj'
  refine ⟨i, j, ?_, hi', hj', ?_⟩
  · simp only [meshgrid, ej, ei]
  · rw [v1, v2]
    exact ⟨hj1, hj2, hi1, hi2⟩

example : ∃ p : Vec, (0 : ℝ) ≤ p.1 ∧ p.1 ≤ 10 ∧ (0 : ℝ) ≤ p.2 ∧ p.2 ≤ 5 :=
  ⟨(3, 5), by norm_num⟩

/-- **C56** Exactly which positions have a valid index: less than one step below the lower bound
(because the division is truncated towards zero) and before the last node plus one step. -/
theorem C56_valid_iff (step minx miny maxx maxy : ℝ) (hs : 0 < step) (hx : minx ≤ maxx)
    (hy : miny ≤ maxy) (p : Vec) :
    ((0 ≤ ((meshgrid step minx miny maxx maxy).index p).1 ∧
        ((meshgrid step minx miny maxx maxy).index p).1 <
          (meshgrid step minx miny maxx maxy).shape.2) ∧
      (0 ≤ ((meshgrid step minx miny maxx maxy).index p).2 ∧
        ((meshgrid step minx miny maxx maxy).index p).2 <
          (meshgrid step minx miny maxx maxy).shape.1)) ↔
    (minx - step < p.1 ∧ p.1 < minx + (⌈(maxx - minx) / step⌉ + 1) * step) ∧
    (miny - step < p.2 ∧ p.2 < miny + (⌈(maxy - miny) / step⌉ + 1) * step) := by
  obtain ⟨e1, e2, -, -, -⟩ := C56_grid step minx miny maxx maxy hs hx hy
  have hx0 : 0 ≤ ⌈(maxx - minx) / step⌉ := Int.ceil_nonneg (div_nonneg (sub_nonneg.2 hx) hs.le)
  have hy0 : 0 ≤ ⌈(maxy - miny) / step⌉ := Int.ceil_nonneg (div_nonneg (sub_nonneg.2 hy) hs.le)
  have key : ∀ (a x : ℝ) (n : ℕ) (m : ℤ), (n : ℤ) = m + 1 → 0 ≤ m →
      ((0 ≤ truncInt ((x - a) / step) ∧ truncInt ((x - a) / step) < n) ↔
        a - step < x ∧ x < a + (m + 1) * step) := by
    intro a x n m hn hm
    rw [truncInt_inside (by omega), lt_div_iff₀ hs, div_lt_iff₀ hs]
    have : (n : ℝ) = m + 1 := by exact_mod_cast hn
    rw [this]
    constructor
    · rintro ⟨h1, h2⟩; exact ⟨by linarith, by linarith⟩
    · rintro ⟨h1, h2⟩; exact ⟨by linarith, by linarith⟩
  exact and_congr (key minx p.1 _ _ e2 hx0) (key miny p.2 _ _ e1 hy0)

example := C56_valid_iff 0.1 0 0 10 5 (by norm_num) (by norm_num) (by norm_num) (3, 5)

/-- **C56** One update of the node `Navigation` on grids made by `meshgrid`: agents whose target is
not one of the field's targets are unchanged; the others keep everything but their direction;
inside of the bounds it becomes the entry of the direction map of their target at the cell of
C56_index, and outside of the grid it stays. -/
theorem C56_navigation {n : ℕ} (nan : Vec) (step minx miny maxx maxy : ℝ) (hs : 0 < step)
    (hx : minx ≤ maxx) (hy : miny ≤ maxy) (m : ℕ)
    (nav : ℕ → Except PyErr (MeshGrid × Grid (Option ℝ) × Grid (Option Vec)))
    (dmap : ℕ → Grid (Option ℝ)) (dirs : ℕ → ℕ → ℕ → Option Vec)
    (hnav : ∀ t < m, nav t = .ok (meshgrid step minx miny maxx maxy, dmap t,
      ⟨(meshgrid step minx miny maxx maxy).shape.1, (meshgrid step minx miny maxx maxy).shape.2,
        dirs t⟩)) (a : Crowd n) :
    ∃ b, navigationUpdate nan nav m a = .ok b ∧ ∀ k,
      b k = { a k with targetDirection := (b k).targetDirection } ∧
      ((∀ t < m, (a k).target ≠ (t : ℤ)) → b k = a k) ∧
      ∀ t < m, (a k).target = (t : ℤ) →
        (minx ≤ (a k).position.1 → (a k).position.1 ≤ maxx → miny ≤ (a k).position.2 →
          (a k).position.2 ≤ maxy →
          ∃ i j : ℕ, (minx + j * step ≤ (a k).position.1 ∧
              (a k).position.1 < minx + j * step + step) ∧
            (miny + i * step ≤ (a k).position.2 ∧ (a k).position.2 < miny + i * step + step) ∧
            (b k).targetDirection = (dirs t i j).getD nan) ∧
        (¬ ((minx - step < (a k).position.1 ∧
              (a k).position.1 < minx + (⌈(maxx - minx) / step⌉ + 1) * step) ∧
            (miny - step < (a k).position.2 ∧
              (a k).position.2 < miny + (⌈(maxy - miny) / step⌉ + 1) * step)) →
          b k = a k) := by
  obtain ⟨b, e, hb⟩ := navLoop nan nav
    (fun t => (meshgrid step minx miny maxx maxy, dmap t,
      ⟨(meshgrid step minx miny maxx maxy).shape.1, (meshgrid step minx miny maxx maxy).shape.2,
        dirs t⟩)) (List.range m) List.nodup_range
    (fun t ht => hnav t (List.mem_range.1 ht)) a
  refine ⟨b, e, fun k => ?_⟩
  obtain ⟨h1, h2⟩ := hb k
  refine ⟨?_, fun h => h1 fun t ht => h t (List.mem_range.1 ht), fun t ht htk => ⟨?_, ?_⟩⟩
  · by_cases hk : ∃ t < m, (a k).target = (t : ℤ)
    · obtain ⟨t, ht, htk⟩ := hk
      rw [h2 t (List.mem_range.2 ht) htk]
    · push Not at hk
      rw [h1 fun t ht => hk t (List.mem_range.1 ht)]
  · intro p1 p2 p3 p4
    obtain ⟨i, j, ei, hi, hj, n1, n2, n3, n4⟩ :=
      C56_index step minx miny maxx maxy hs (a k).position p1 p2 p3 p4
    obtain ⟨-, -, hv, -, -⟩ := C56_grid step minx miny maxx maxy hs hx hy
    obtain ⟨v1, v2⟩ := hv i j hi hj
    rw [v1] at n1 n2
    rw [v2] at n3 n4
    refine ⟨i, j, ⟨n1, n2⟩, ⟨n3, n4⟩, ?_⟩
    rw [h2 t (List.mem_range.2 ht) htk]
    simp only [ei, getdefaultRow]
    rw [if_pos ((isInside_iff _ _).2 ⟨⟨by simp, by simpa using hi⟩, by simp, by simpa using hj⟩)]
    simp
  · intro hout
    rw [h2 t (List.mem_range.2 ht) htk]
    simp only [getdefaultRow]
    rw [if_neg]
    rw [isInside_iff]
    rintro ⟨q1, q2⟩
    exact hout ((C56_valid_iff step minx miny maxx maxy hs hx hy _).1 ⟨q2, q1⟩)

/-- Such a field exists: one target, and the direction map points to the right. -/
example : ∃ (nav : ℕ → Except PyErr (MeshGrid × Grid (Option ℝ) × Grid (Option Vec)))
    (dirs : ℕ → ℕ → ℕ → Option Vec), ∀ t < 1, nav t = .ok (meshgrid 0.1 0 0 10 5,
      ⟨1, 1, fun _ _ => none⟩, ⟨(meshgrid 0.1 0 0 10 5).shape.1, (meshgrid 0.1 0 0 10 5).shape.2,
        dirs t⟩) :=
  ⟨fun _ => .ok (_, _, ⟨_, _, fun _ _ => some (1, 0)⟩), fun _ _ _ => some (1, 0), fun _ _ => rfl⟩

/-! ## C57: obstacle handling -/

/-- **C57** At or beyond the radius (and on obstacles) the result is the target direction: exactly
itself, if that is a unit vector. -/
theorem C57_far (dmapObs : Grid ℝ) (dirObs dirTargets : Grid (Option Vec)) (radius strength : ℝ)
    (i j : ℕ) (h : radius ≤ -dmapObs.val i j ∨ -dmapObs.val i j ≤ 0) (e : Vec)
    (he : dirTargets.val i j = some e) (hu : Spec.len e = 1) :
    (obstacleHandling dmapObs dirObs dirTargets radius strength).val i j = some e := by
  have := cell_far (d := dmapObs.val i j) (strength := strength) h.symm (dirObs.val i j) e
  simp only [obstacleHandling, he]
  rcases this with ⟨h0, _⟩ | ⟨_, h1⟩
  · rw [h0] at hu; norm_num [Spec.len] at hu
  · rw [h1, dir_of_unit hu]

example : ∃ (d : Grid ℝ) (t : Grid (Option Vec)) (e : Vec), (0.5 : ℝ) ≤ -d.val 0 0 ∧
    t.val 0 0 = some e ∧ Spec.len e = 1 := by
  refine ⟨⟨1, 1, fun _ _ => -1⟩, ⟨1, 1, fun _ _ => some (3 / 5, 4 / 5)⟩, (3 / 5, 4 / 5),
    by norm_num, rfl, ?_⟩
  unfold Spec.len
  rw [Real.sqrt_eq_iff_mul_self_eq (by positivity) (by norm_num)]
  norm_num

/-- **C57** Within the radius the result is the direction of the mixture of the direction away from
the obstacle and the target direction; it is undefined only if the mixture is zero. The weight of
the obstacle is between `strength` and 1 and decreases with the distance. -/
theorem C57_near (dmapObs : Grid ℝ) (dirObs dirTargets : Grid (Option Vec)) (radius strength : ℝ)
    (hs0 : 0 < strength) (hs1 : strength < 1) (i j : ℕ) (h0 : 0 < -dmapObs.val i j)
    (h1 : -dmapObs.val i j < radius) (e1 e2 : Vec) (he1 : dirObs.val i j = some e1)
    (he2 : dirTargets.val i j = some e2) :
    IsDirOf (mixture strength radius (-dmapObs.val i j) e1 e2)
      ((obstacleHandling dmapObs dirObs dirTargets radius strength).val i j) ∧
    strength < obstacleWeight strength radius (-dmapObs.val i j) ∧
    obstacleWeight strength radius (-dmapObs.val i j) < 1 ∧
    (∀ x y, x < y → obstacleWeight strength radius y < obstacleWeight strength radius x) := by
  refine ⟨?_, (weight_bounds hs0 hs1 h0 h1).1, (weight_bounds hs0 hs1 h0 h1).2, fun x y hxy =>
    weight_antitone hs0 hs1 (h0.trans h1) hxy⟩
  simp only [obstacleHandling, he1, he2]
  exact cell_near ⟨h0, h1⟩ e1 e2

example : ∃ (d : Grid ℝ), (0 : ℝ) < -d.val 0 0 ∧ -d.val 0 0 < 0.5 :=
  ⟨⟨1, 1, fun _ _ => -0.25⟩, by norm_num⟩

/-- **C57** Every entry of the result is a unit vector or undefined. -/
theorem C57_unit (dmapObs : Grid ℝ) (dirObs dirTargets : Grid (Option Vec)) (radius strength : ℝ)
    (i j : ℕ) (e : Vec)
    (he : (obstacleHandling dmapObs dirObs dirTargets radius strength).val i j = some e) :
    Spec.len e = 1 := by
  simp only [obstacleHandling] at he
  cases h2 : dirTargets.val i j with
  | none =>
    rw [h2] at he
    unfold obstacleHandlingCell at he
    cases h1 : dirObs.val i j <;> rw [h1] at he <;> simp only at he <;> split_ifs at he <;>
      simp at he
  | some e2 =>
    rw [h2] at he
    by_cases hc : 0 < -dmapObs.val i j ∧ -dmapObs.val i j < radius
    · cases h1 : dirObs.val i j with
      | none =>
        rw [h1] at he
        unfold obstacleHandlingCell at he
        rw [if_pos hc] at he
        simp at he
      | some e1 =>
        rw [h1] at he
        have := cell_near (strength := strength) hc e1 e2
        rw [he] at this
        exact isDirOf_unit this
    · have := cell_far (d := dmapObs.val i j) (radius := radius) (strength := strength)
        (by by_contra h'; push Not at h'; exact hc h') (dirObs.val i j) e2
      rw [he] at this
      exact isDirOf_unit this

/-- What C57 says about the variant for single agents. -/
def C57_continuous_statement : Prop :=
  ∀ (dmapObs : Grid ℝ) (dirObs : Grid Vec) (radius strength : ℝ) (i j : ℕ) (e : Vec),
    0 < strength → strength < 1 → i < dmapObs.rows → j < dmapObs.cols →
    0 < -dmapObs.val i j → -dmapObs.val i j < radius →
    obstacleHandlingContinuousRow dmapObs dirObs radius strength (i, j) e =
      dir (mixture strength radius (-dmapObs.val i j) (dirObs.val i j) e)

/-- **C57** (partial) The variant for single agents leaves agents outside of the grid, on obstacles
and beyond the radius alone; otherwise it uses the mixture with the vector whose components
are both the second component of the target direction, and so it is right only if the components
are equal. -/
theorem C57_continuous_partial (dmapObs : Grid ℝ) (dirObs : Grid Vec) (radius strength : ℝ)
    (index : ℤ × ℤ) (e : Vec) :
    (¬ ((0 ≤ index.1 ∧ index.1 < dmapObs.rows) ∧ (0 ≤ index.2 ∧ index.2 < dmapObs.cols)) →
      obstacleHandlingContinuousRow dmapObs dirObs radius strength index e = e) ∧
    ∀ i j : ℕ, index = ((i : ℤ), (j : ℤ)) → i < dmapObs.rows → j < dmapObs.cols →
      (radius ≤ -dmapObs.val i j ∨ -dmapObs.val i j ≤ 0 →
        obstacleHandlingContinuousRow dmapObs dirObs radius strength index e = e) ∧
      (0 < -dmapObs.val i j → -dmapObs.val i j < radius →
        obstacleHandlingContinuousRow dmapObs dirObs radius strength index e =
          dir (mixture strength radius (-dmapObs.val i j) (dirObs.val i j) (e.2, e.2))) := by
  refine ⟨fun h => ?_, ?_⟩
  · unfold obstacleHandlingContinuousRow
    simp only [if_pos h]
  · rintro i j rfl hi hj
    have hin : ¬ ¬ ((0 ≤ (i : ℤ) ∧ (i : ℤ) < dmapObs.rows) ∧
        (0 ≤ (j : ℤ) ∧ (j : ℤ) < dmapObs.cols)) := by push Not; omega
    unfold obstacleHandlingContinuousRow
    simp only [if_neg hin, Int.toNat_natCast]
    refine ⟨fun h => ?_, fun h0 h1 => ?_⟩
    · rw [if_neg]
      rintro ⟨h0, h1⟩
      rcases h with h | h <;> linarith
    · rw [if_pos ⟨h0, h1⟩, normalize_eq_dir]
      congr 1
      unfold mixture obstacleWeight
      ext <;> simp

/-- **C57** (partial) In the result of the variant for single agents the direction of an agent
depends on its own direction and cell only; it is unchanged if the agent is outside of the grid, on
an obstacle, beyond the radius or has no index, and otherwise it is that of
`C57_continuous_partial`. -/
theorem C57_array_partial (dmapObs : Grid ℝ) (dirObs : Grid Vec) (radius strength : ℝ)
    (directions : List Vec) (indices : List (ℤ × ℤ)) :
    (obstacleHandlingContinuous dmapObs dirObs directions indices radius strength).length =
      directions.length ∧
    ∀ (k : ℕ) (e : Vec), directions[k]? = some e →
      (∀ i j : ℕ, indices[k]? = some ((i : ℤ), (j : ℤ)) → i < dmapObs.rows → j < dmapObs.cols →
        0 < -dmapObs.val i j → -dmapObs.val i j < radius →
        (obstacleHandlingContinuous dmapObs dirObs directions indices radius strength)[k]? =
          some (dir (mixture strength radius (-dmapObs.val i j) (dirObs.val i j) (e.2, e.2)))) ∧
      ((∀ i j : ℕ, indices[k]? = some ((i : ℤ), (j : ℤ)) → i < dmapObs.rows → j < dmapObs.cols →
        radius ≤ -dmapObs.val i j ∨ -dmapObs.val i j ≤ 0) →
        (obstacleHandlingContinuous dmapObs dirObs directions indices radius strength)[k]? =
          some e) := by
  unfold obstacleHandlingContinuous
  refine ⟨List.length_mapIdx, fun k e he => ⟨fun i j hi h1 h2 h3 h4 => ?_, fun h => ?_⟩⟩
  · rw [List.getElem?_mapIdx, he]
    simp only [Option.map_some, hi]
    rw [((C57_continuous_partial dmapObs dirObs radius strength _ e).2 i j rfl h1 h2).2 h3 h4]
  · rw [List.getElem?_mapIdx, he]
    simp only [Option.map_some]
    cases hk : indices[k]? with
    | none => rfl
    | some index =>
      simp only
      have hp := C57_continuous_partial dmapObs dirObs radius strength index e
      by_cases hin : (0 ≤ index.1 ∧ index.1 < dmapObs.rows) ∧
          (0 ≤ index.2 ∧ index.2 < dmapObs.cols)
      · obtain ⟨⟨a1, a2⟩, a3, a4⟩ := hin
        have hix : index = ((index.1.toNat : ℤ), (index.2.toNat : ℤ)) := by
          ext <;> simp [a1, a3]
        have b1 : index.1.toNat < dmapObs.rows := by omega
        have b2 : index.2.toNat < dmapObs.cols := by omega
        rw [(hp.2 _ _ hix b1 b2).1 (h _ _ (by rw [hk]; exact congrArg some hix) b1 b2)]
      · rw [hp.1 hin]

/-- The first agent is near an obstacle, the second one is outside of the grid. -/
example : (obstacleHandlingContinuous ⟨1, 1, fun _ _ => -1⟩ ⟨1, 1, fun _ _ => (0, -1)⟩
    [(1, 0), (0, 1)] [(0, 0), (5, 0)] 2 (1 / 4))[1]? = some (0, 1) := by
  refine ((C57_array_partial _ _ _ _ _ _).2 1 (0, 1) rfl).2 ?_
  intro i j hij hi
  simp only [List.getElem?_cons_succ, List.getElem?_cons_zero, Option.some.injEq, Prod.mk.injEq] at hij
  simp only at hi
  omega

/-- **C57** is false of the variant for single agents: an agent that walks in the direction
`(1, 0)` at half the radius from an obstacle on its right is sent straight away from the
obstacle. -/
theorem C57_continuous_fails : ¬ C57_continuous_statement := by
  intro h
  have h1 := h ⟨1, 1, fun _ _ => -1⟩ ⟨1, 1, fun _ _ => (0, -1)⟩ 2 (1 / 4) 0 0 (1, 0) (by norm_num)
    (by norm_num) (by simp) (by simp) (by norm_num) (by norm_num)
  have h2 := ((C57_continuous_partial ⟨1, 1, fun _ _ => -1⟩ ⟨1, 1, fun _ _ => (0, -1)⟩ 2 (1 / 4)
    (((0 : ℕ) : ℤ), ((0 : ℕ) : ℤ)) (1, 0)).2 0 0 rfl (by simp) (by simp)).2 (by norm_num)
    (by norm_num)
  rw [h2] at h1
  have hw : obstacleWeight (1 / 4) 2 (- -1) = 1 / 2 := by
    unfold obstacleWeight
    rw [show (- -1 : ℝ) / 2 = 1 / 2 by norm_num, ← Real.sqrt_eq_rpow,
      Real.sqrt_eq_iff_mul_self_eq (by norm_num) (by norm_num)]
    norm_num
  have h3 := congrArg Prod.fst h1
  simp only [dir, mixture, hw] at h3
  have hpos : Spec.len ((1 / 2 : ℝ) • -((0 : ℝ), (-1 : ℝ)) + (1 - 1 / 2 : ℝ) • ((1 : ℝ), (0 : ℝ))) ≠
      0 := by
    norm_num [Spec.len]
  have hpos' := inv_ne_zero hpos
  simp only [Prod.smul_fst, Prod.fst_add, Prod.fst_neg, smul_eq_mul] at h3
  norm_num at h3
  norm_num at hpos
  exact hpos h3

/-! ## C76: direction maps -/

/-- **C76** Every entry of a direction map is undefined or a unit vector. -/
theorem C76_unit (dmap : Grid (Option ℝ)) (dm : Grid (Option Vec)) (h : directionMap dmap = .ok dm)
    (i j : ℕ) (e : Vec) (he : dm.val i j = some e) : Spec.len e = 1 := by
  unfold directionMap at h
  split_ifs at h
  cases h
  simp only at he
  cases hu : gradient1 dmap.rows (fun k => dmap.val k j) i with
  | none => rw [hu] at he; simp at he
  | some u =>
    cases hv : gradient1 dmap.cols (fun k => dmap.val i k) j with
    | none => rw [hu, hv] at he; simp at he
    | some v =>
      rw [hu, hv] at he
      have := dir_of_div (v, u)
      simp only [Option.bind_eq_bind, Option.bind_some] at he
      rw [add_comm (u ^ 2)] at he
      rw [he] at this
      exact isDirOf_unit this

/-- **C76** For a distance map that is an affine function of the cell, as it is for a straight
exit, the direction map is at every cell, also at the border, the exact direction of its
gradient, in the order `(x, y)`. -/
theorem C76_affine (dmap : Grid (Option ℝ)) (hr : 2 ≤ dmap.rows) (hc : 2 ≤ dmap.cols)
    (a b c : ℝ) (hab : (a, b) ≠ (0 : Vec))
    (h : ∀ i j, i < dmap.rows → j < dmap.cols → dmap.val i j = some (a * j + b * i + c)) :
    ∃ dm, directionMap dmap = .ok dm ∧ dm.rows = dmap.rows ∧ dm.cols = dmap.cols ∧
      ∀ i j, i < dmap.rows → j < dmap.cols → dm.val i j = some (dir (a, b)) := by
  unfold directionMap
  rw [if_neg (by omega)]
  refine ⟨_, rfl, rfl, rfl, fun i j hi hj => ?_⟩
  have key : ∀ (n : ℕ) (f : ℕ → Option ℝ) (s t : ℝ), 2 ≤ n →
      (∀ k < n, f k = some (s * k + t)) → ∀ k < n, gradient1 n f k = some s := by
    intro n f s t hn hf k hk
    unfold gradient1
    split_ifs with h0 h1
    · rw [hf 1 (by omega), hf 0 (by omega)]
      simp
    · rw [hf k hk, hf (k - 1) (by omega)]
      have : ((k - 1 : ℕ) : ℝ) = k - 1 := by rw [Nat.cast_sub (by omega)]; simp
      simp only [Option.bind_eq_bind, Option.bind_some, this]
      congr 1; ring
    · rw [hf (k + 1) (by omega), hf (k - 1) (by omega)]
      have : ((k - 1 : ℕ) : ℝ) = k - 1 := by rw [Nat.cast_sub (by omega)]; simp
      simp only [Option.bind_eq_bind, Option.bind_some, this]
      congr 1; push_cast; ring
  have e1 := key dmap.rows (fun k => dmap.val k j) b (a * j + c) hr
    (fun k hk => by rw [h k j hk hj]; congr 1; ring) i hi
  have e2 := key dmap.cols (fun k => dmap.val i k) a (b * i + c) hc
    (fun k hk => by rw [h i k hi hk]; congr 1; ring) j hj
  simp only [e1, e2, Option.bind_eq_bind, Option.bind_some]
  rw [add_comm (b ^ 2)]
  rcases dir_of_div (a, b) with ⟨h0, _⟩ | ⟨_, h1⟩
  · exact absurd h0 hab
  · exact h1

example : ∃ dmap : Grid (Option ℝ), 2 ≤ dmap.rows ∧ 2 ≤ dmap.cols ∧
    ∀ i j, i < dmap.rows → j < dmap.cols →
      dmap.val i j = some ((0.1 : ℝ) * j + (-0.2 : ℝ) * i + (-5 : ℝ)) :=
  ⟨⟨30, 40, fun i j => some ((0.1 : ℝ) * j + (-0.2 : ℝ) * i + (-5 : ℝ))⟩, by norm_num, by norm_num,
    fun _ _ _ _ => rfl⟩

/-- The full statement of C76: where the direction to the target is defined, the merged
direction is defined, too. -/
def C76_statement : Prop :=
  ∀ (dmapObs : Grid ℝ) (dirObs dirTargets : Grid (Option Vec)) (radius strength : ℝ) (i j : ℕ)
    (e : Vec), 0 < radius → 0 < strength → strength < 1 →
    directionMap ⟨dmapObs.rows, dmapObs.cols, fun i j => some (dmapObs.val i j)⟩ = .ok dirObs →
    dirTargets.val i j = some e → Spec.len e = 1 →
    (obstacleHandling dmapObs dirObs dirTargets radius strength).val i j ≠ none

/-- **C76** (partial) It is defined beyond the radius, and within it if the direction to the
obstacles is defined and is not the direction to the target with weights that cancel. -/
theorem C76_defined_partial (dmapObs : Grid ℝ) (dirObs dirTargets : Grid (Option Vec))
    (radius strength : ℝ) (i j : ℕ) (e : Vec) (he : dirTargets.val i j = some e)
    (hu : Spec.len e = 1)
    (h : (radius ≤ -dmapObs.val i j ∨ -dmapObs.val i j ≤ 0) ∨
      ∃ e1, dirObs.val i j = some e1 ∧ mixture strength radius (-dmapObs.val i j) e1 e ≠ 0) :
    (obstacleHandling dmapObs dirObs dirTargets radius strength).val i j ≠ none := by
  by_cases hc : 0 < -dmapObs.val i j ∧ -dmapObs.val i j < radius
  · rcases h with (h | h) | ⟨e1, h1, h2⟩
    · linarith [hc.2]
    · linarith [hc.1]
    · simp only [obstacleHandling, he, h1]
      rcases cell_near (strength := strength) hc e1 e with ⟨h3, _⟩ | ⟨_, h3⟩
      · exact absurd h3 h2
      · rw [h3]; simp
  · rw [C57_far dmapObs dirObs dirTargets radius strength i j
      (by by_contra h'; push Not at h'; exact hc ⟨h'.2, h'.1⟩) e he hu]
    simp

example := C76_defined_partial ⟨1, 1, fun _ _ => -1⟩ ⟨1, 1, fun _ _ => none⟩
  ⟨1, 1, fun _ _ => some (3 / 5, 4 / 5)⟩ 0.5 0.3 0 0 (3 / 5, 4 / 5) rfl (by
    unfold Spec.len
    rw [Real.sqrt_eq_iff_mul_self_eq (by positivity) (by norm_num)]
    norm_num) (.inl (.inl (by norm_num)))

/-- **C76** is false of the code: on the centre line of a corridor that is narrower than twice the
radius the distance to the walls has no slope, and the direction of an agent who wants to walk
along the corridor becomes undefined (NaN). -/
theorem C76_corridor_fails : ¬ C76_statement := by
  intro h
  set d : Grid ℝ := ⟨3, 3, fun i _ => if i = 1 then -0.2 else -0.1⟩ with hd
  have hdir : ∃ dm, directionMap ⟨d.rows, d.cols, fun i j => some (d.val i j)⟩ = .ok dm ∧
      dm.val 1 1 = none := by
    unfold directionMap
    rw [if_neg (by simp [hd])]
    refine ⟨_, rfl, ?_⟩
    simp [hd, gradient1]
  obtain ⟨dm, e, hn⟩ := hdir
  refine h d dm ⟨3, 3, fun _ _ => some (1, 0)⟩ 0.5 0.3 1 1 (1, 0) (by norm_num) (by norm_num)
    (by norm_num) e rfl (by norm_num [Spec.len]) ?_
  simp only [obstacleHandling, hn, obstacleHandlingCell]
  rw [if_pos (by constructor <;> simp [hd] <;> norm_num)]
  rfl

end CrowdDynamics
