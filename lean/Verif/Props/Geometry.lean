import Verif.Proofs.DrawCases
import Verif.Proofs.Geometry

/-!
# Properties C58–C60: geometries as segments, arrays and pixels
-/

namespace CrowdDynamics

open Spec

/-! ## C58: line segments -/

/-- **C58** A line string contributes its consecutive pairs of vertices, so `n` vertices give
`n - 1` segments, and these cover exactly the points of the line string. -/
theorem C58_linestring (c : List Vec) :
    ∃ segs, geomToLinesegment (.lineString c) = .ok segs ∧ segs.length = c.length - 1 ∧
      (∀ i s, segs[i]? = some s ↔ c[i]? = some s.1 ∧ c[i + 1]? = some s.2) ∧
      ∀ p, OnLineString c p ↔ ∃ s ∈ segs, p ∈ segment ℝ s.1 s.2 := by
  refine ⟨consecutive c, by simp [geomToLinesegment, segmentsOf_eq], consecutive_length c,
    consecutive_getElem? c, fun p => ⟨?_, ?_⟩⟩
  · rintro ⟨i, u, v, hu, hv, hp⟩
    exact ⟨(u, v), List.mem_of_getElem? ((consecutive_getElem? c i (u, v)).2 ⟨hu, hv⟩), hp⟩
  · rintro ⟨s, hs, hp⟩
    obtain ⟨i, hi⟩ := List.mem_iff_getElem?.1 hs
    obtain ⟨hu, hv⟩ := (consecutive_getElem? c i s).1 hi
    exact ⟨i, s.1, s.2, hu, hv, hp⟩

/-- **C58** The segments of any nesting of supported geometries are the edges of the geometry
with its holes filled, in order; in particular the function never raises for these. -/
theorem C58_shells (g : Geom) (h : Supported g) :
    geomToLinesegment g = .ok (outline (fillHoles g)) := geomToLinesegment_shells h

example : Supported (.multi [.point (1, 1), .multi [.lineString [(0, 0), (1, 0)]],
    .polygon [(0, 0), (4, 0), (0, 4), (0, 0)] [[(1, 1), (2, 1), (1, 2), (1, 1)]]]) := by
  refine .multi _ ?_
  simp only [List.mem_cons, List.not_mem_nil, or_false, forall_eq_or_imp, forall_eq]
  refine ⟨.point _, .multi _ ?_, .polygon _ _⟩
  simp only [List.mem_cons, List.not_mem_nil, or_false, forall_eq]
  exact .lineString _

/-- **C58** The obstacles are these segments; no obstacles at all if there is no geometry. -/
theorem C58_obstacles (g : Geom) (h : Supported g) :
    geomToLinearObstacles none = .ok [] ∧
    geomToLinearObstacles (some g) =
      .ok ((outline (fillHoles g)).map fun s => ⟨s.1, s.2⟩) := by
  refine ⟨rfl, ?_⟩
  simp only [geomToLinearObstacles, geomToLinesegment_shells h]
  rfl

example := C58_obstacles (.multi [.lineString [(0, 0), (1, 0)],
    .polygon [(0, 0), (4, 0), (0, 4), (0, 0)] [[(1, 1), (2, 1), (1, 2), (1, 1)]]]) (by
  refine .multi _ ?_
  simp only [List.mem_cons, List.not_mem_nil, or_false, forall_eq_or_imp, forall_eq]
  exact ⟨.lineString _, .polygon _ _⟩)

/-- The full statement of C58: all edges, also those of holes, are among the segments. -/
def C58_statement : Prop :=
  ∀ g, Supported g → ∃ segs, geomToLinesegment g = .ok segs ∧ ∀ s ∈ outline g, s ∈ segs

/-- **C58** (partial: no holes) The segments are all edges, in order. -/
theorem C58_holefree_partial (g : Geom) (h : HoleFree g) :
    geomToLinesegment g = .ok (outline g) := by
  rw [geomToLinesegment_shells (HoleFree.supported h), HoleFree.fill h]

example : HoleFree (.multi [.lineString [(0, 0), (1, 0), (1, 1)],
    .polygon [(0, 0), (4, 0), (0, 4), (0, 0)] []]) := by
  refine .multi _ ?_
  simp only [List.mem_cons, List.not_mem_nil, or_false, forall_eq_or_imp, forall_eq]
  exact ⟨.lineString _, .polygon _⟩

/-- **C58** is false of the code: the edges of the hole of a polygon are missing. -/
theorem C58_hole_fails : ¬ C58_statement := by
  intro h
  obtain ⟨segs, e, hs⟩ := h (.polygon [(0, 0), (4, 0), (4, 4), (0, 4), (0, 0)]
    [[(1, 1), (2, 1), (2, 2), (1, 2), (1, 1)]]) (.polygon _ _)
  simp only [geomToLinesegment, Except.ok.injEq] at e
  have := hs ((1, 1), (2, 1)) (by simp [outline, consecutive])
  rw [← e] at this
  norm_num [segmentsOf, Prod.ext_iff] at this

/-! ## C59: `geom_to_array` -/

/-- The full statement of C59. -/
def C59_statement : Prop :=
  (∀ g, Supported g → ∃ a, geomToArray g = .ok a) ∧
    ∀ g g' a, Supported g → Supported g' → geomToArray g = .ok a → geomToArray g' = .ok a → g = g'

/-- **C59** (partial: single geometries) Points, line strings and polygons, also with holes, can
be encoded, and different ones have different arrays. -/
theorem C59_single_partial (g : Geom) (h : Single g) :
    ∃ a, geomToArray g = .ok a ∧ ∀ g', Single g' → geomToArray g' = .ok a → g = g' := by
  have hp : ∀ p, geomToArray (.point p) = .ok [.flag .point, .coord p] := fun p => rfl
  have hl : ∀ c, geomToArray (.lineString c) = .ok (.flag .lineString :: c.map .coord) := by
    intro c; simp [geomToArray, geomToArrayParts, npConcatenate, bind, Except.bind]
  have hx : ∀ e rs, ∃ f s, polygonRows e rs = .flag f :: s ∧ f ≠ .point ∧ f ≠ .lineString := by
    intro e rs; cases rs <;> exact ⟨_, _, rfl, by simp, by simp⟩
  match g, h with
  | .point p, _ =>
    refine ⟨_, hp p, fun g' h' e => ?_⟩
    match g', h' with
    | .point q, _ => rw [hp] at e; simp at e; rw [e]
    | .lineString c, _ => rw [hl] at e; simp at e
    | .polygon ext rs, _ =>
      obtain ⟨f, s, e1, e2, e3⟩ := hx ext rs
      rw [geomToArray_polygon, e1] at e
      simp at e
      exact absurd e.1 e2
  | .lineString c, _ =>
    refine ⟨_, hl c, fun g' h' e => ?_⟩
    match g', h' with
    | .point q, _ => rw [hp] at e; simp at e
    | .lineString c', _ =>
      rw [hl] at e
      simp only [Except.ok.injEq, List.cons.injEq, true_and] at e
      rw [coord_map_injective e]
    | .polygon ext rs, _ =>
      obtain ⟨f, s, e1, e2, e3⟩ := hx ext rs
      rw [geomToArray_polygon, e1] at e
      simp at e
      exact absurd e.1 e3
  | .polygon ext rs, _ =>
    refine ⟨_, geomToArray_polygon ext rs, fun g' h' e => ?_⟩
    obtain ⟨f, s, e1, e2, e3⟩ := hx ext rs
    match g', h' with
    | .point q, _ => rw [hp, e1] at e; simp at e; exact absurd e.1.symm e2
    | .lineString c', _ => rw [hl, e1] at e; simp at e; exact absurd e.1.symm e3
    | .polygon ext' rs', _ =>
      rw [geomToArray_polygon] at e
      simp only [Except.ok.injEq] at e
      obtain ⟨h1, h2⟩ := polygonRows_injective _ _ _ _ e
      rw [h1, h2]

example : Single (.polygon [(0, 0), (4, 0), (0, 4), (0, 0)] [[(1, 1), (2, 1), (1, 2), (1, 1)]]) :=
  trivial

/-- **C59** is false of the code: no multi-part geometry at all can be encoded. -/
theorem C59_multi_fails :
    (∀ parts, geomToArray (.multi parts) = .error .value) ∧ ¬ C59_statement := by
  have key : ∀ parts, geomToArray (.multi parts) = .error .value := fun _ => rfl
  refine ⟨key, fun h => ?_⟩
  obtain ⟨a, e⟩ := h.1 (.multi [.point (1, 2), .point (3, 4)]) (.multi _ (by
    simp only [List.mem_cons, List.not_mem_nil, or_false, forall_eq_or_imp, forall_eq]
    exact ⟨.point _, .point _⟩))
  rw [key] at e
  cases e

/-! ## C60: `draw_geom` -/

/-- The full statement of C60. -/
def C60_statement : Prop :=
  ∀ (lib : DrawLib) (zero value : ℝ) (ix : Vec → ℤ × ℤ) (g : Geom) (old new : Grid ℝ),
    Supported g → drawGeom lib zero ix value g old = .ok new →
      ∀ i j, i < old.rows → j < old.cols → new.val i j = old.val i j ∨ new.val i j = value

/-- **C60** (partial: no holes) Exactly the pixels of the geometry get the value, all other cells
keep theirs, and the call raises (an `IndexError`) exactly if some pixel is outside of the
grid. -/
theorem C60_holefree_partial {α : Type} (lib : DrawLib) (zero value : α) (ix : Vec → ℤ × ℤ)
    (g : Geom) (h : HoleFree g) (old : Grid α) :
    ((∀ p ∈ pixels lib ix g, ∃ i j, PixelAt old.rows old.cols p i j) →
      ∃ new, drawGeom lib zero ix value g old = .ok new ∧
        new.rows = old.rows ∧ new.cols = old.cols ∧
        ∀ i j, ((∃ p ∈ pixels lib ix g, PixelAt old.rows old.cols p i j) → new.val i j = value) ∧
          ((¬ ∃ p ∈ pixels lib ix g, PixelAt old.rows old.cols p i j) →
            new.val i j = old.val i j)) ∧
    ((¬ ∀ p ∈ pixels lib ix g, ∃ i j, PixelAt old.rows old.cols p i j) →
      drawGeom lib zero ix value g old = .error .index) := by
  rw [drawGeom_eq lib zero ix value h]
  refine ⟨fun hf => ⟨painted old (pixels lib ix g) value, if_pos hf, rfl, rfl, fun i j =>
    ⟨fun hh => if_pos hh, fun hh => if_neg hh⟩⟩, fun hf => if_neg hf⟩

example := C60_holefree_partial boxLib (0 : ℝ) 1 (fun p => (⌊p.1⌋, ⌊p.2⌋))
  (.lineString [(0, 0), (3, 0)]) (.lineString _) ⟨5, 5, fun _ _ => -1⟩

/-- **C60** (partial) Whatever is drawn, the shape stays and every cell has its old value, the
given value, or zero. -/
theorem C60_among_partial {α : Type} (lib : DrawLib) (zero value : α) (ix : Vec → ℤ × ℤ)
    (g : Geom) (h : Supported g) (old new : Grid α)
    (hd : drawGeom lib zero ix value g old = .ok new) :
    new.rows = old.rows ∧ new.cols = old.cols ∧
      ∀ i j, new.val i j = old.val i j ∨ new.val i j = value ∨ new.val i j = zero :=
  drawGeom_among lib zero ix value h old old new ⟨rfl, rfl, fun _ _ => .inl rfl⟩ hd

example := C60_among_partial boxLib (0 : ℝ) 1 _ _ (.polygon _ _) _ _ ring_drawn.choose_spec

/-- **C60** is false of the code: every cell filled for a hole of a polygon becomes zero, whatever
value it had and whatever value is drawn. -/
theorem C60_hole_zero {α : Type} (lib : DrawLib) (zero value : α) (ix : Vec → ℤ × ℤ)
    (ext ring : List Vec) (rest : List (List Vec)) (old new : Grid α)
    (hd : drawGeom lib zero ix value (.polygon ext (ring :: rest)) old = .ok new) (i j : ℕ)
    (h : ∃ p ∈ lib.polygon (ring.map ix), PixelAt old.rows old.cols p i j) :
    new.val i j = zero := by
  have hfold : ∀ (l : List (List Vec)) (g g' : Grid α), g.rows = old.rows → g.cols = old.cols →
      (g.val i j = zero ∨ ring ∈ l) →
      l.foldlM (fun g r => paint g (lib.polygon (r.map ix)) zero) g = .ok g' →
      g'.val i j = zero := by
    intro l
    induction l with
    | nil =>
      intro g g' _ _ hz e
      cases e
      simpa using hz
    | cons r t ih =>
      intro g g' hr hc hz e
      rw [List.foldlM_cons, paint_eq] at e
      split_ifs at e with hf
      · refine ih (painted g (lib.polygon (r.map ix)) zero) g' hr hc ?_ e
        by_cases hz0 : g.val i j = zero
        · left
          simp only [painted]
          split_ifs
          · rfl
          · exact hz0
        · rcases hz with hz | hz
          · exact absurd hz hz0
          · rcases List.mem_cons.1 hz with rfl | hz
            · left
              simp only [painted]
              rw [if_pos (by rw [hr, hc]; exact h)]
            · exact .inr hz
      · cases e
  simp only [drawGeom] at hd
  cases e1 : paint old (lib.polygon (ext.map ix)) value with
  | error err => rw [e1] at hd; cases hd
  | ok g1 =>
    rw [e1] at hd
    replace hd : (paint g1 (lib.perimeter (ext.map ix)) value >>= _) = _ := hd
    cases e2 : paint g1 (lib.perimeter (ext.map ix)) value with
    | error err => rw [e2] at hd; cases hd
    | ok g2 =>
      rw [e2] at hd
      have s1 : g1.rows = old.rows ∧ g1.cols = old.cols := by
        rw [paint_eq] at e1; split_ifs at e1; cases e1; exact ⟨rfl, rfl⟩
      have s2 : g2.rows = g1.rows ∧ g2.cols = g1.cols := by
        rw [paint_eq] at e2; split_ifs at e2; cases e2; exact ⟨rfl, rfl⟩
      exact hfold _ g2 new (s2.1.trans s1.1) (s2.2.trans s1.2) (.inr (by simp)) hd

example := C60_hole_zero boxLib (0 : ℝ) 1 _ _ _ _ _ _ ring_drawn.choose_spec 2 2 ring_pixel

/-- **C60** is false of the code: a target with a hole drawn on the grid of `-1`s, as
`distance_map` does, leaves a zero. -/
theorem C60_hole_fails : ¬ C60_statement := by
  intro hall
  obtain ⟨new, e⟩ := ring_drawn
  have hz := C60_hole_zero boxLib (0 : ℝ) 1 _ _ _ _ _ _ e 2 2 ring_pixel
  have := hall boxLib 0 1 _ _ _ _ (.polygon _ _) e 2 2 (by simp) (by simp)
  rw [hz] at this
  norm_num at this

end CrowdDynamics
