import Verif.Proofs.GuidanceCases
import Verif.Proofs.Guidance
import Verif.Props.Field

/-!
# Properties C114 and C116: choice of the target, and what the direction map says
-/

namespace CrowdDynamics

open Spec

/-! ## C114: the target -/

/-- **C114** `navigation_to_target(k)` navigates to the target number `k`, counted from the end if
`k` is negative: the result is that of `static_potential` for this target, the domain and the
obstacles. -/
theorem C114_number (lib : FieldLib) (fields : ℕ → Field) (id : ℕ) (asked : Set ℕ)
    (hid : id ∈ asked) (c : Caches) (hc : SoundCaches lib fields asked c) (ext : List Vec)
    (ints : List (List Vec)) (hd : (fields id).domain = some (ext, ints)) (k : ℤ) (i : ℕ) (t : Geom)
    (hk : Place (fields id).targets.length k i) (ht : (fields id).targets[i]? = some t)
    (step radius strength : ℝ) :
    (Field.navigationToTarget lib fields id (.int k) step radius strength c).1 =
      staticPotential lib.toPathLib (polygonBounds ext) (.polygon ext ints) t
        (fields id).obstacles step radius strength := by
  rw [(nav_sound hc hid _ step radius strength).1]
  have hsel : selectTargets lib (fields id) (.int k) = .ok t := pyListGet_place hk ht
  refine freshNav_static hd ?_ hsel step radius strength
  intro h
  rw [h] at ht
  cases ht

/-- The last of two targets, as number 1 and as number −1. -/
example : ∃ f : Field, (∃ d, f.domain = some d) ∧ Place f.targets.length 1 1 ∧
    Place f.targets.length (-1) 1 ∧ f.targets[1]? = some (.lineString [(9, 0), (9, 9)]) :=
  ⟨⟨some ([(0, 0), (9, 0), (9, 9), (0, 9), (0, 0)], []), none,
    [.lineString [(0, 0), (0, 9)], .lineString [(9, 0), (9, 9)]], []⟩, ⟨_, rfl⟩,
    ⟨by simp, .inl rfl⟩, ⟨by simp, .inr (by simp)⟩, rfl⟩

/-- **C114** `navigation_to_target('closest')` navigates to the union of all targets. -/
theorem C114_closest (lib : FieldLib) (fields : ℕ → Field) (id : ℕ) (asked : Set ℕ)
    (hid : id ∈ asked) (c : Caches) (hc : SoundCaches lib fields asked c) (ext : List Vec)
    (ints : List (List Vec)) (hd : (fields id).domain = some (ext, ints))
    (ht : (fields id).targets ≠ []) (step radius strength : ℝ) :
    (Field.navigationToTarget lib fields id .closest step radius strength c).1 =
      staticPotential lib.toPathLib (polygonBounds ext) (.polygon ext ints)
        (lib.union (fields id).targets) (fields id).obstacles step radius strength := by
  rw [(nav_sound hc hid _ step radius strength).1]
  have hsel : selectTargets lib (fields id) .closest = .ok (lib.union (fields id).targets) :=
    if_neg ht
  exact freshNav_static hd ht hsel step radius strength

example : ∃ f : Field, (∃ d, f.domain = some d) ∧ f.targets ≠ [] :=
  ⟨⟨some ([(0, 0), (9, 0), (9, 9), (0, 9), (0, 0)], []), none,
    [.lineString [(0, 0), (0, 9)]], []⟩, ⟨_, rfl⟩, by simp⟩

/-- **C114** Exceptions: no targets at all; a number that is no index of the list; an index that is
neither a number nor `'closest'`; the union of no targets. -/
theorem C114_refused (lib : FieldLib) (fields : ℕ → Field) (id : ℕ) (asked : Set ℕ)
    (hid : id ∈ asked) (c : Caches) (hc : SoundCaches lib fields asked c)
    (step radius strength : ℝ) :
    ((fields id).targets = [] → ∀ index,
      (Field.navigationToTarget lib fields id index step radius strength c).1 =
        .error .crowdDynamics) ∧
    ((fields id).targets ≠ [] →
      (∀ k, (¬ ∃ i, Place (fields id).targets.length k i) →
        (Field.navigationToTarget lib fields id (.int k) step radius strength c).1 =
          .error .index) ∧
      (Field.navigationToTarget lib fields id .other step radius strength c).1 =
        .error .invalidType) ∧
    (∀ k, (¬ ∃ i, Place (fields id).targets.length k i) →
      (Field.shortestPathTarget lib fields id step (.int k) radius c).1 = .error .index) ∧
    (Field.shortestPathTarget lib fields id step .other radius c).1 = .error .invalidType ∧
    ((fields id).targets = [] →
      (Field.shortestPathTarget lib fields id step .closest radius c).1 = .error .type) := by
  have hi : ∀ k, (¬ ∃ i, Place (fields id).targets.length k i) →
      freshPath lib (fields id) step (.int k) radius = .error .index := by
    intro k hk
    have : selectTargets lib (fields id) (.int k) = .error .index := pyListGet_outside hk
    unfold freshPath
    rw [this]
    rfl
  refine ⟨fun h index => ?_, fun h => ⟨fun k hk => ?_, ?_⟩, fun k hk => ?_, ?_, fun h => ?_⟩
  · rw [(nav_sound hc hid _ step radius strength).1]
    unfold freshNav
    rw [if_pos h]
  · rw [(nav_sound hc hid _ step radius strength).1]
    unfold freshNav
    rw [if_neg h, hi k hk]
    rfl
  · rw [(nav_sound hc hid _ step radius strength).1]
    unfold freshNav
    rw [if_neg h]
    rfl
  · rw [(path_sound hc hid step _ radius).1, hi k hk]
  · rw [(path_sound hc hid step _ radius).1]
    rfl
  · rw [(path_sound hc hid step _ radius).1]
    have : selectTargets lib (fields id) .closest = .error .type := if_pos h
    unfold freshPath
    rw [this]
    rfl

/-- Number 2 and number −3 of two targets. -/
example : (¬ ∃ i, Place 2 2 i) ∧ ¬ ∃ i, Place 2 (-3) i := by
  unfold Place
  constructor <;> rintro ⟨i, h1, h2⟩ <;> omega

/-! ## C116: the direction map -/

/-- **C116** If `static_potential` returns for target `t` and obstacles `o` without holes, then the
solver was asked for the distances to the cells of `t`, with the cells of the widened obstacles
masked, and for the distances to the cells of `o`. At every inner cell away from the obstacles the
result is the direction in which the (negative) distance to the target increases fastest; near
the obstacles it is the direction of the mixture with the direction away from the obstacle. For
the cells that are either drawn for an obstacle or masked, but not both, the direction to the
target is taken from the cell that scipy calls the nearest. -/
theorem C116_map (lib : PathLib) (bounds : ℝ × ℝ × ℝ × ℝ) (domain t o : Geom)
    (step radius strength : ℝ) (ht : HoleFree t) (ho : HoleFree o)
    (hb : HoleFree (lib.buffered o radius domain)) (m : MeshGrid) (dist : Grid (Option ℝ))
    (dm : Grid (Option Vec)) (hs : 0 < strength) (hs1 : strength < 1)
    (h : staticPotential lib bounds domain t (some o) step radius strength = .ok (m, dist, dm)) :
    m = meshgrid step bounds.1 bounds.2.1 bounds.2.2.1 bounds.2.2.2 ∧
    ∃ (contour contourObs : Grid ℝ) (mask noMask walls : Grid Bool) (distObs : Grid (Option ℝ))
      (toTarget : Grid (Option Vec)),
      IsContour lib.draw m.index m.shape t contour ∧
      IsMask lib.draw m.index m.shape (lib.buffered o radius domain) mask ∧
      lib.fmm contour mask step = some dist ∧
      IsContour lib.draw m.index m.shape o contourObs ∧ (∀ i j, noMask.val i j = false) ∧
      lib.fmm contourObs noMask step = some distObs ∧
      IsMask lib.draw m.index m.shape o walls ∧
      (∀ i j e, Uphill dist i j e → toTarget.val i j = some e) ∧
      ∀ i j i' j' e, ((i', j') = if xor (walls.val i j) (lib.masked dist i j) then
          lib.nearest toTarget i j else (i, j)) → Uphill dist i' j' e →
        ∀ x, distObs.val i j = some x →
          ((radius ≤ -x ∨ -x ≤ 0) → dm.val i j = some e) ∧
          (0 < -x → -x < radius → ∀ e', Uphill distObs i j e' →
            IsDirOf (mixture strength radius (-x) e' e) (dm.val i j)) := by
  unfold staticPotential at h
  obtain ⟨r, h1, h⟩ := bind_ok h
  obtain ⟨q, h2, h⟩ := bind_ok h
  have hm : meshgrid step bounds.1 bounds.2.1 bounds.2.2.1 bounds.2.2.2 = m := by
    simp only [Except.ok.injEq, Prod.mk.injEq] at h; exact h.1
  have hdist : r.2 = dist := by simp only [Except.ok.injEq, Prod.mk.injEq] at h; exact h.2.1
  have hdm : obstacleHandling q.2 q.1 r.1 radius strength = dm := by
    simp only [Except.ok.injEq, Prod.mk.injEq] at h; exact h.2.2
  refine ⟨hm.symm, ?_⟩
  rw [hm] at h1 h2
  have hstep : m.step = step := by rw [← hm]; rfl
  -- the way to the targets
  unfold shortestPath at h1
  simp only at h1
  obtain ⟨d1, e1, h1⟩ := bind_ok h1
  obtain ⟨raw, e2, h1⟩ := bind_ok h1
  obtain ⟨walls, e3, h1⟩ := bind_ok h1
  cases h1
  -- the obstacles
  unfold directionMapObstacles at h2
  simp only at h2
  obtain ⟨d2, e4, h2⟩ := bind_ok h2
  obtain ⟨dirObs, e5, h2⟩ := bind_ok h2
  cases h2
  simp only at hdist hdm
  subst hdist
  obtain ⟨contour, mask, f1, -, f2, f3⟩ := distanceMap_ok e1
  obtain ⟨contourObs, noMask, g1, g2, -, g3⟩ := distanceMap_ok e4
  rw [hstep] at f3 g3
  refine ⟨contour, contourObs, mask, noMask, walls, d2, raw, drawn_contour ht f1,
    drawn_mask hb (f2 _ rfl), f3, drawn_contour ho g1, fun i j => by rw [g2 rfl], g3,
    drawn_mask ho e3, fun i j e he => directionMap_uphill e2 he, ?_⟩
  intro i j i' j' e hsrc he x hx
  have hraw : raw.val i' j' = some e := directionMap_uphill e2 he
  have hlen : Spec.len e = 1 := he.2.2.2.2.choose_spec.choose_spec.choose_spec.choose_spec.2.2.2.2.2
  have hfill : (fillMissing (lib.nearest raw) (fun i j => xor (walls.val i j)
      (lib.masked d1 i j)) raw).val i j = some e := by
    unfold fillMissing
    simp only
    split_ifs at hsrc ⊢
    · rw [← hsrc]; exact hraw
    · cases hsrc; exact hraw
  have hx' : (d2.val i j).getD 0 = x := by rw [hx]; rfl
  rw [← hdm]
  refine ⟨fun hfar => ?_, fun h0 h1 e' he' => ?_⟩
  · refine C57_far _ _ _ radius strength i j ?_ e hfill hlen
    simp only [hx']
    exact hfar
  · have := C57_near ⟨d2.rows, d2.cols, fun i j => (d2.val i j).getD 0⟩ dirObs _ radius strength hs
      hs1 i j (by simp only [hx']; exact h0) (by simp only [hx']; exact h1) e' e
      (directionMap_uphill e5 he') hfill
    simp only [hx'] at this
    exact this.1

/-- A square of side 3 with a wall and an exit, for which the map is returned; the distances of
the made-up solver increase to the upper right. -/
example : ∃ m dist dm, staticPotential simpleLib.toPathLib (0, 0, 3, 3)
      (.polygon [(0, 0), (3, 0), (3, 3), (0, 3), (0, 0)] []) (.lineString [(3, 0), (3, 3)])
      (some (.lineString [(0, 0), (0, 3)])) 1 0.5 0.3 = .ok (m, dist, dm) ∧
    Uphill dist 1 2 (1 / √2, 1 / √2) := by
  have hbox : polygonBounds [((0 : ℝ), (0 : ℝ)), (3, 0), (3, 3), (0, 3), (0, 0)] =
      (0, 0, 3, 3) := by
    simp [polygonBounds]
  let f : Field := ⟨some ([(0, 0), (3, 0), (3, 3), (0, 3), (0, 0)], []),
    some (.lineString [(0, 0), (0, 3)]), [.lineString [(3, 0), (3, 3)]], []⟩
  have hr : ∃ r, (Field.navigationToTarget simpleLib (fun _ => f) 0 (.int 0) 1 0.5 0.3
      emptyCaches).1 = .ok r := by
    refine C77_obstacles_partial simpleLib _ 0 {0} (by simp) emptyCaches soundCaches_empty _ _ _
      (.lineString [(3, 0), (3, 3)]) _ 1 0.5 0.3 (fun c _ _ => ⟨_, rfl, rfl, rfl⟩) one_pos rfl
      properBox_three (by simp [f]) ?_ (simpleLib_drawable _ properBox_three _ _) rfl
      (simpleLib_drawable _ properBox_three _ _) (simpleLib_drawable _ properBox_three _ _)
    simp [selectTargets, pyListGet, npIndex, f]
  obtain ⟨⟨m, dist, dm⟩, hr⟩ := hr
  rw [C114_number simpleLib (fun _ => f) 0 {0} (by simp) emptyCaches soundCaches_empty _ _ rfl 0 0
    (.lineString [(3, 0), (3, 3)]) ⟨by simp [f], .inl rfl⟩ rfl, hbox] at hr
  refine ⟨m, dist, dm, hr, ?_⟩
  obtain ⟨hm, c, -, mask, -, -, -, -, h1, -, h2, -⟩ := C116_map _ _ _ _ _ _ _ _ (.lineString _)
    (.lineString _) (.lineString _) m dist dm (by norm_num) (by norm_num) hr
  obtain ⟨s1, s2, -⟩ := C56_grid 1 0 0 3 3 one_pos (by norm_num) (by norm_num)
  rw [← hm] at s1 s2
  norm_num at s1 s2
  have hd : dist = ⟨c.rows, c.cols, fun i j => some ((i : ℝ) + j)⟩ := by
    simp only [simpleLib, Option.some.injEq] at h2
    exact h2.symm
  have e2 : √(2 : ℝ) * √2 = 2 := Real.mul_self_sqrt (by norm_num)
  have p2 : 0 < √(2 : ℝ) := by positivity
  refine ⟨by norm_num, ?_, by norm_num, ?_, 4, 2, 4, 2, ?_, ?_, ?_, ?_, ⟨1 / √2, by positivity, ?_⟩,
    ?_⟩
  · rw [hd]; simp only; rw [h1.1]; omega
  · rw [hd]; simp only; rw [h1.2.1]; omega
  · rw [hd]; norm_num
  · rw [hd]; norm_num
  · rw [hd]; norm_num
  · rw [hd]; norm_num
  · norm_num [Prod.ext_iff]
  · unfold Spec.len
    rw [Real.sqrt_eq_iff_mul_self_eq (by positivity) (by norm_num)]
    field_simp
    nlinarith

end CrowdDynamics
