import Mathlib.Tactic.NormNum
import Mathlib.Tactic.IntervalCases
import Mathlib.Data.List.GetD
import Mathlib.Algebra.BigOperators.Field
import Verif.Spec.Quantities
import Verif.Proofs.Quantities
import Verif.Proofs.Guidance

/-!
# Properties of the densities: C61, C85
-/

namespace CrowdDynamics

open Spec

open Classical

/-! ## C61 -/

/-- C61, full statement: `density_classical` conserves the number of points, and
`density_voronoi_2` averages the areas of the Voronoi cells of the points in each cell. -/
def C61_statement : Prop :=
  (∀ (floats : Bool) (points : List Vec) (cellSize : ℝ), points ≠ [] → 0 < cellSize →
    ∃ g, densityClassical floats points cellSize = .ok g ∧
      gridTotal g * cellSize ^ 2 = points.length) ∧
  (∀ (oob : ℕ → ℝ) (vor : Voronoi) (radius : ℝ) (order : List Vec → List ℕ) (cellSize : ℝ),
    ValidVoronoi vor → (∀ l, (order l).Perm (List.range l.length)) →
    vor.pointRegion.length = vor.points.length → vor.points ≠ [] → 0 < cellSize →
    ∃ g regs verts, densityVoronoi2 oob vor radius order cellSize = .ok g ∧
      voronoiFinite vor radius order = .ok (regs, verts) ∧
      AveragesAreas cellSize vor.points
        (fun k => polygonArea ((regs.getD k []).map fun v => verts.getD v 0)) g)

/-- **C61** `density_classical` never returns: the grid has no place for the points with the largest
coordinates. -/
theorem C61_classical_never (floats : Bool) (points : List Vec) (cellSize : ℝ) :
    ∃ e, densityClassical floats points cellSize = .error e ∧
      (points ≠ [] → floats = true → e = .index) := by
  cases points with
  | nil => exact ⟨.value, rfl, fun h => absurd rfl h⟩
  | cons p rest =>
    cases floats with
    | false => exact ⟨.type, rfl, fun _ h => by simp at h⟩
    | true =>
      refine ⟨.index, ?_, fun _ _ => rfl⟩
      unfold densityClassical
      simp only [List.map_cons]
      obtain ⟨l, hl⟩ : ∃ l : List (ℤ × ℤ), rest.map (fun p : Vec =>
        (⌊p.1 / cellSize⌋, ⌊p.2 / cellSize⌋)) = l := ⟨_, rfl⟩
      obtain ⟨x, hx⟩ : ∃ x, ⌊p.1 / cellSize⌋ = x := ⟨_, rfl⟩
      obtain ⟨y, hy⟩ : ∃ x, ⌊p.2 / cellSize⌋ = x := ⟨_, rfl⟩
      rw [hl, hx, hy]
      have mx := listMax_mem x (l.map Prod.fst)
      have hmn := listMin_le x (l.map Prod.fst) _ mx
      have hmy := listMin_le y (l.map Prod.snd) _ (listMax_mem y (l.map Prod.snd))
      obtain ⟨q, hq, hqx⟩ : ∃ q ∈ (x, y) :: l, q.1 = listMax x (l.map Prod.fst) := by
        rcases List.mem_cons.1 mx with h | h
        · exact ⟨_, List.mem_cons_self, h.symm⟩
        · obtain ⟨q, hq, hqe⟩ := List.mem_map.1 h
          exact ⟨q, List.mem_cons_of_mem _ hq, hqe⟩
      have hz : gridZeros (listMax x (l.map Prod.fst) - listMin x (l.map Prod.fst))
          (listMax y (l.map Prod.snd) - listMin y (l.map Prod.snd)) =
          .ok ⟨(listMax x (l.map Prod.fst) - listMin x (l.map Prod.fst)).toNat,
            (listMax y (l.map Prod.snd) - listMin y (l.map Prod.snd)).toNat, fun _ _ => 0⟩ :=
        if_pos ⟨by omega, by omega⟩
      rw [if_pos trivial, hz]
      simp only [bind, Except.bind]
      rw [classicalLoop_fails]
      refine ⟨q, hq, ?_⟩
      unfold npIndex
      simp only
      rw [if_neg (by omega), if_neg (by omega)]

example : densityClassical true [(0.5, 0.5), (3.5, 0.5), (1.5, 2.5)] 1 = .error .index := by
  obtain ⟨e, h, he⟩ := C61_classical_never true [(0.5, 0.5), (3.5, 0.5), (1.5, 2.5)] 1
  rw [h, he (by simp) rfl]

/-- **C61** The full statement is false of the code. -/
theorem C61_fails : ¬ C61_statement := by
  rintro ⟨h, -⟩
  obtain ⟨g, hg, -⟩ := h true [(0.5, 0.5)] 1 (by simp) one_pos
  obtain ⟨e, he, -⟩ := C61_classical_never true [(0.5, 0.5)] 1
  rw [he] at hg
  simp at hg

/-- **C61** (partial) What `_core_2` does for points without negative coordinates: it averages
`area[point_region[k]]`, whatever that is. Missing from the full statement: that these are the areas
of the cells of the points, and negative coordinates. -/
theorem C61_core_partial (oob : ℕ → ℝ) (points : List Vec) (cellSize : ℝ) (area : List ℝ)
    (pointRegion : List ℕ) (hn : points ≠ []) (hs : 0 < cellSize)
    (hp : ∀ p ∈ points, 0 ≤ p.1 ∧ 0 ≤ p.2) :
    ∃ g, core2 oob points cellSize area pointRegion = .ok g ∧
      AveragesAreas cellSize points (fun k => if pointRegion.getD k 0 < area.length then
        area.getD (pointRegion.getD k 0) 0 else oob (pointRegion.getD k 0)) g := by
  cases points with
  | nil => exact absurd rfl hn
  | cons p rest =>
    have htr : ∀ q ∈ p :: rest, truncInt (q.1 / cellSize) = ⌊q.1 / cellSize⌋ ∧
        truncInt (q.2 / cellSize) = ⌊q.2 / cellSize⌋ := fun q hq =>
      ⟨truncInt_nonneg (div_nonneg (hp q hq).1 hs.le),
        truncInt_nonneg (div_nonneg (hp q hq).2 hs.le)⟩
    have hmap : (p :: rest).map (fun p : Vec => (truncInt (p.1 / cellSize),
        truncInt (p.2 / cellSize))) = (p :: rest).map (cellOf cellSize) :=
      List.map_congr_left fun q hq => by
        rw [(htr q hq).1, (htr q hq).2, cellOf]
    unfold core2
    rw [hmap]
    simp only [List.map_cons]
    obtain ⟨l, hl⟩ : ∃ l : List (ℤ × ℤ), rest.map (cellOf cellSize) = l := ⟨_, rfl⟩
    obtain ⟨xMin, hxMin⟩ : ∃ m, listMin (cellOf cellSize p).1
      ((rest.map (cellOf cellSize)).map Prod.fst) = m := ⟨_, rfl⟩
    obtain ⟨yMin, hyMin⟩ : ∃ m, listMin (cellOf cellSize p).2
      ((rest.map (cellOf cellSize)).map Prod.snd) = m := ⟨_, rfl⟩
    obtain ⟨xMax, hxMax⟩ : ∃ m, listMax (cellOf cellSize p).1
      ((rest.map (cellOf cellSize)).map Prod.fst) = m := ⟨_, rfl⟩
    obtain ⟨yMax, hyMax⟩ : ∃ m, listMax (cellOf cellSize p).2
      ((rest.map (cellOf cellSize)).map Prod.snd) = m := ⟨_, rfl⟩
    have hb : ∀ q ∈ p :: rest, xMin ≤ (cellOf cellSize q).1 ∧ yMin ≤ (cellOf cellSize q).2 ∧
        (cellOf cellSize q).1 ≤ xMax ∧ (cellOf cellSize q).2 ≤ yMax := by
      intro q hq
      have h1 : (cellOf cellSize q).1 ∈ (cellOf cellSize p).1 ::
          (rest.map (cellOf cellSize)).map Prod.fst := by
        rcases List.mem_cons.1 hq with rfl | hq
        · exact List.mem_cons_self
        · exact List.mem_cons_of_mem _ (List.mem_map.2 ⟨_, List.mem_map.2 ⟨q, hq, rfl⟩, rfl⟩)
      have h2 : (cellOf cellSize q).2 ∈ (cellOf cellSize p).2 ::
          (rest.map (cellOf cellSize)).map Prod.snd := by
        rcases List.mem_cons.1 hq with rfl | hq
        · exact List.mem_cons_self
        · exact List.mem_cons_of_mem _ (List.mem_map.2 ⟨_, List.mem_map.2 ⟨q, hq, rfl⟩, rfl⟩)
      rw [← hxMin, ← hyMin, ← hxMax, ← hyMax]
      exact ⟨listMin_le _ _ _ h1, listMin_le _ _ _ h2, le_listMax _ _ _ h1, le_listMax _ _ _ h2⟩
    rw [hxMin, hyMin, hxMax, hyMax]
    refine ⟨_, rfl, xMin, yMin, ?_, ?_⟩
    · intro q hq
      obtain ⟨h1, h2, h3, h4⟩ := hb q hq
      refine ⟨h1, h2, ?_, ?_⟩
      · simp only
        omega
      · simp only
        omega
    · intro a b hpos
      simp only
      have hs := coreStep_sum
        (fun k => (((cellOf cellSize p :: rest.map (cellOf cellSize)).getD k (0, 0)).1 - xMin,
          ((cellOf cellSize p :: rest.map (cellOf cellSize)).getD k (0, 0)).2 - yMin))
        (fun k => (area[pointRegion.getD k 0]?).getD (oob (pointRegion.getD k 0)))
        (p :: rest).length a b
      simp only at hs
      rw [hs.1, hs.2]
      have hfil : (Finset.range (p :: rest).length).filter (fun k =>
          (((cellOf cellSize p :: rest.map (cellOf cellSize)).getD k (0, 0)).1 - xMin,
          ((cellOf cellSize p :: rest.map (cellOf cellSize)).getD k (0, 0)).2 - yMin) =
            ((a : ℤ), (b : ℤ))) = pointsIn cellSize (p :: rest) (xMin + a, yMin + b) := by
        unfold pointsIn
        refine Finset.filter_congr fun k hk => ?_
        have hk' := Finset.mem_range.1 hk
        have e : (cellOf cellSize p :: rest.map (cellOf cellSize)).getD k (0, 0) =
            cellOf cellSize ((p :: rest).getD k 0) := by
          rw [← List.map_cons, List.getD_eq_getElem _ _ (by simpa using hk'),
            List.getD_eq_getElem _ _ hk', List.getElem_map]
        rw [e, Prod.ext_iff, Prod.ext_iff]
        simp only
        constructor
        · rintro ⟨h1, h2⟩
          exact ⟨by omega, by omega⟩
        · rintro ⟨h1, h2⟩
          exact ⟨by omega, by omega⟩
      have hval : (fun k => (area[pointRegion.getD k 0]?).getD (oob (pointRegion.getD k 0))) =
          fun k => if pointRegion.getD k 0 < area.length then
            area.getD (pointRegion.getD k 0) 0 else oob (pointRegion.getD k 0) := by
        funext k
        by_cases h : pointRegion.getD k 0 < area.length
        · rw [if_pos h, List.getElem?_eq_getElem h, List.getD_eq_getElem _ _ h]
          rfl
        · rw [if_neg h, List.getElem?_eq_none (by omega)]
          rfl
      rw [hfil, hval, if_pos hpos]

example : ∃ g, core2 (fun _ => 0) [(0.5, 0.5), (3.5, 0.5)] 1 [2, 3] [0, 1] = .ok g ∧
    AveragesAreas 1 [(0.5, 0.5), (3.5, 0.5)] (fun k => if [0, 1].getD k 0 < 2 then
      [2, 3].getD ([0, 1].getD k 0) 0 else 0) g :=
  C61_core_partial (fun _ => 0) [(0.5, 0.5), (3.5, 0.5)] 1 [2, 3] [0, 1] (by simp) one_pos (by
    intro p hp
    simp only [List.mem_cons, List.not_mem_nil, or_false] at hp
    rcases hp with rfl | rfl <;> norm_num)

/-- **C61** (partial) `density_voronoi_2` averages the right areas if the regions of the diagram are
numbered like the points. Missing: other numberings, negative coordinates. -/
theorem C61_voronoi2_partial (oob : ℕ → ℝ) (vor : Voronoi) (radius : ℝ)
    (order : List Vec → List ℕ) (cellSize : ℝ) (hv : ValidVoronoi vor)
    (ho : ∀ l, (order l).Perm (List.range l.length))
    (hid : vor.pointRegion = List.range vor.points.length) (hn : vor.points ≠ [])
    (hs : 0 < cellSize) (hp : ∀ p ∈ vor.points, 0 ≤ p.1 ∧ 0 ≤ p.2) :
    ∃ g regs verts, densityVoronoi2 oob vor radius order cellSize = .ok g ∧
      voronoiFinite vor radius order = .ok (regs, verts) ∧
      AveragesAreas cellSize vor.points
        (fun k => polygonArea ((regs.getD k []).map fun v => verts.getD v 0)) g := by
  obtain ⟨regs, extra, h1, h2, -⟩ := regionLoop_ok hv radius order ho vor.pointRegion 0
    (fun k => by rw [Nat.zero_add]) [] vor.vertices le_rfl
  rw [List.nil_append] at h1
  obtain ⟨g, hg, x0, y0, hin, havg⟩ := C61_core_partial oob vor.points cellSize (regs.map fun r =>
    polygonArea (r.map fun v => (vor.vertices ++ extra).getD v 0)) vor.pointRegion hn hs hp
  refine ⟨g, regs, _, ?_, h1, x0, y0, hin, ?_⟩
  · unfold densityVoronoi2 voronoiFinite
    rw [h1]
    exact hg
  · intro a b hpos
    have hlen : regs.length = vor.points.length := by rw [h2, hid, List.length_range]
    have e : ∑ k ∈ pointsIn cellSize vor.points (x0 + a, y0 + b),
          (if vor.pointRegion.getD k 0 < (regs.map fun r =>
            polygonArea (r.map fun v => (vor.vertices ++ extra).getD v 0)).length then
            (regs.map fun r => polygonArea (r.map fun v =>
              (vor.vertices ++ extra).getD v 0)).getD (vor.pointRegion.getD k 0) 0
            else oob (vor.pointRegion.getD k 0)) =
        ∑ k ∈ pointsIn cellSize vor.points (x0 + a, y0 + b),
          polygonArea ((regs.getD k []).map fun v => (vor.vertices ++ extra).getD v 0) := by
      refine Finset.sum_congr rfl fun k hk => ?_
      have hk' : k < vor.points.length :=
        Finset.mem_range.1 (Finset.mem_of_mem_filter k hk)
      have hpr : vor.pointRegion.getD k 0 = k := by
        rw [hid, List.getD_eq_getElem _ _ (by simpa using hk')]
        simp
      rw [hpr, if_pos (by rw [List.length_map, hlen]; exact hk'),
        List.getD_eq_getElem _ _ (by rw [List.length_map, hlen]; exact hk'), List.getElem_map,
        List.getD_eq_getElem _ _ (by rw [hlen]; exact hk')]
    have := havg a b (by rw [e]; exact hpos)
    rw [this, e]

example : ∃ g regs verts,
    densityVoronoi2 (fun _ => 0) (demoVor [0, 1, 2] [[-1, 0], [-1, 0], [-1, 0]]) 8
      (fun l => List.range l.length) 2 = .ok g ∧
    voronoiFinite (demoVor [0, 1, 2] [[-1, 0], [-1, 0], [-1, 0]]) 8
      (fun l => List.range l.length) = .ok (regs, verts) ∧
    AveragesAreas 2 (demoVor [0, 1, 2] [[-1, 0], [-1, 0], [-1, 0]]).points
      (fun k => polygonArea ((regs.getD k []).map fun v => verts.getD v 0)) g :=
  C61_voronoi2_partial _ _ _ _ _ demoVor_valid (fun _ => List.Perm.refl _) rfl (by simp [demoVor])
    two_pos (by simp [demoVor])

/-- **C61** For a diagram numbered as scipy does it the density is wrong, whatever the number behind
the end of the array is: the areas are stored by point but read by region. -/
theorem C61_voronoi2_fails (oob : ℕ → ℝ) :
    ∃ (vor : Voronoi) (order : List Vec → List ℕ) (g : Grid ℝ) (regs : List (List ℕ))
      (verts : List Vec),
      ValidVoronoi vor ∧ (∀ l, (order l).Perm (List.range l.length)) ∧
      vor.pointRegion.length = vor.points.length ∧ vor.points ≠ [] ∧
      densityVoronoi2 oob vor 8 order 2 = .ok g ∧
      voronoiFinite vor 8 order = .ok (regs, verts) ∧
      ¬ AveragesAreas 2 vor.points
        (fun k => polygonArea ((regs.getD k []).map fun v => verts.getD v 0)) g := by
  have a0 : polygonArea [(2, 1.5), (2, -6.5), (-6, 1.5)] = 32 := by
    norm_num [polygonArea, List.range']
  have a1 : polygonArea [(2, 1.5), (2, -6.5), (6.8, 7.9)] = 19.2 := by
    norm_num [polygonArea, List.range', abs_of_pos, abs_of_neg]
  have a2 : polygonArea [(2, 1.5), (-6, 1.5), (6.8, 7.9)] = 25.6 := by
    norm_num [polygonArea, List.range', abs_of_pos, abs_of_neg]
  have f1 : ⌊(3 : ℝ) / 2⌋ = 1 := by rw [Int.floor_eq_iff]; norm_num
  have f2 : ⌊(4 : ℝ) / 2⌋ = 2 := by rw [Int.floor_eq_iff]; norm_num
  have t1 : truncInt ((3 : ℝ) / 2) = 1 := by rw [truncInt_nonneg (by norm_num), f1]
  have t2 : truncInt ((4 : ℝ) / 2) = 2 := by rw [truncInt_nonneg (by norm_num), f2]
  have t0 : truncInt 0 = 0 := by rw [truncInt_nonneg le_rfl]; simp
  have hcore : ∃ g, core2 oob [(0, 0), (4, 0), (0, 3)] 2 [32, 19.2, 25.6] [1, 2, 3] = .ok g ∧
      g.rows = 3 ∧ g.cols = 2 ∧ g.val 0 0 = 1 / 19.2 := by
    refine ⟨_, rfl, ?_, ?_, ?_⟩
    · simp [listMin, listMax, t0, t1, t2]
    · simp [listMin, listMax, t0, t1, t2]
    · simp [listMin, t0, t1, t2, List.range_succ, coreStep]
      norm_num
  obtain ⟨g, hg, hr, hc, hval⟩ := hcore
  refine ⟨demoVor [1, 2, 3] [[], [-1, 0], [-1, 0], [-1, 0]], fun l => List.range l.length, g, _, _,
    demoVor_valid', fun _ => List.Perm.refl _, rfl, by simp [demoVor], ?_, demo_finite, ?_⟩
  · unfold densityVoronoi2
    rw [demo_finite]
    simp only [bind, Except.bind, List.map_cons, List.map_nil, List.getD_cons_zero,
      List.getD_cons_succ, a0, a1, a2]
    exact hg
  · rintro ⟨x0, y0, hin, havg⟩
    have h1 := hin (0, 0) (by simp [demoVor])
    have h2 := hin (4, 0) (by simp [demoVor])
    have h3 := hin (0, 3) (by simp [demoVor])
    rw [hr, hc] at h1 h2 h3
    simp only [cellOf, f1, f2, zero_div, Int.floor_zero] at h1 h2 h3
    obtain rfl : x0 = 0 := by omega
    obtain rfl : y0 = 0 := by omega
    have hpts : pointsIn 2 (demoVor [1, 2, 3] [[], [-1, 0], [-1, 0], [-1, 0]]).points
        (0 + ((0 : ℕ) : ℤ), 0 + ((0 : ℕ) : ℤ)) = {0} := by
      ext k
      unfold pointsIn
      rw [Finset.mem_filter, Finset.mem_range, Finset.mem_singleton]
      constructor
      · rintro ⟨hk, he⟩
        simp only [demoVor, List.length_cons, List.length_nil] at hk he
        interval_cases k
        · rfl
        · simp [cellOf, f2] at he
        · simp [cellOf, f1] at he
      · rintro rfl
        simp [cellOf, demoVor]
    have := havg 0 0
    rw [hpts, Finset.sum_singleton, Finset.card_singleton, hval] at this
    simp only [List.map_cons, List.map_nil, List.getD_cons_zero, List.getD_cons_succ, a0] at this
    have := this (by norm_num)
    norm_num at this

/-- **C61** Negative coordinates are rounded towards zero, so points of different cells are counted
together. -/
theorem C61_negative_fails (oob : ℕ → ℝ) :
    ∃ g, core2 oob [(-0.5, 0.5), (0.5, 0.5)] 1 [2, 3] [0, 1] = .ok g ∧
      ¬ AveragesAreas 1 [(-0.5, 0.5), (0.5, 0.5)] (fun k => [2, 3].getD k 0) g := by
  have t1 : truncInt (-0.5 / 1) = 0 := by
    unfold truncInt
    rw [if_neg (by norm_num), Int.ceil_eq_iff]
    norm_num
  have t2 : truncInt (0.5 / 1) = 0 := by
    unfold truncInt
    rw [if_pos (by norm_num), Int.floor_eq_iff]
    norm_num
  refine ⟨_, rfl, ?_⟩
  rintro ⟨x0, y0, hin, -⟩
  have h1 := hin (-0.5, 0.5) (by simp)
  have h2 := hin (0.5, 0.5) (by simp)
  have f1 : ⌊(-0.5 : ℝ) / 1⌋ = -1 := by rw [Int.floor_eq_iff]; norm_num
  have f2 : ⌊(0.5 : ℝ) / 1⌋ = 0 := by rw [Int.floor_eq_iff]; norm_num
  simp only [cellOf, f1, f2, List.map_cons, List.map_nil, t1, t2, listMax, listMin, List.foldl_cons,
    List.foldl_nil, max_self, min_self] at h1 h2
  omega

/-- **C61** (partial) `density_voronoi_1` conserves the number of cells if no coordinate is negative
and some point has a column number not above the row numbers of all points. Missing: all other
points; the number of columns is computed from the wrong minimum. -/
theorem C61_voronoi1_partial (points : List Vec) (cellSize : ℝ) (cells : List VCell)
    (hlen : 3 ≤ points.length) (hs : 0 < cellSize) (hp : ∀ p ∈ points, 0 ≤ p.1 ∧ 0 ≤ p.2)
    (hcells : ∀ c ∈ cells, GoodCell cellSize points c)
    (hij : ∃ p ∈ points, ∀ q ∈ points, ⌊p.1 / cellSize⌋ ≤ ⌊q.2 / cellSize⌋) :
    ∃ g, densityVoronoi1 points cellSize cells = .ok g ∧
      gridTotal g * cellSize ^ 2 = cells.length := by
  cases points with
  | nil => simp at hlen
  | cons p rest =>
    unfold densityVoronoi1
    rw [if_neg (by push Not; exact ⟨hlen, hs⟩)]
    simp only
    obtain ⟨x0, hx0⟩ : ∃ x, listMin p.1 (rest.map Prod.fst) = x := ⟨_, rfl⟩
    obtain ⟨x1, hx1⟩ : ∃ x, listMax p.1 (rest.map Prod.fst) = x := ⟨_, rfl⟩
    obtain ⟨y0, hy0⟩ : ∃ x, listMin p.2 (rest.map Prod.snd) = x := ⟨_, rfl⟩
    obtain ⟨y1, hy1⟩ : ∃ x, listMax p.2 (rest.map Prod.snd) = x := ⟨_, rfl⟩
    rw [hx0, hx1, hy0, hy1]
    have hb : ∀ q ∈ p :: rest, x0 ≤ q.1 ∧ q.1 ≤ x1 ∧ y0 ≤ q.2 ∧ q.2 ≤ y1 := by
      intro q hq
      have h1 : q.1 ∈ p.1 :: rest.map Prod.fst := by
        rw [← List.map_cons]; exact List.mem_map.2 ⟨q, hq, rfl⟩
      have h2 : q.2 ∈ p.2 :: rest.map Prod.snd := by
        rw [← List.map_cons]; exact List.mem_map.2 ⟨q, hq, rfl⟩
      rw [← hx0, ← hx1, ← hy0, ← hy1]
      exact ⟨listMin_le _ _ _ h1, le_listMax _ _ _ h1, listMin_le _ _ _ h2, le_listMax _ _ _ h2⟩
    have hx0m : ∃ q ∈ p :: rest, q.1 = x0 := by
      have := listMin_mem p.1 (rest.map Prod.fst)
      rw [← List.map_cons (f := Prod.fst), hx0] at this
      exact List.mem_map.1 this
    have hy0m : ∃ q ∈ p :: rest, q.2 = y0 := by
      have := listMin_mem p.2 (rest.map Prod.snd)
      rw [← List.map_cons (f := Prod.snd), hy0] at this
      exact List.mem_map.1 this
    obtain ⟨qx, hqx, hqxe⟩ := hx0m
    obtain ⟨qy, hqy, hqye⟩ := hy0m
    have hx0n : 0 ≤ x0 := hqxe ▸ (hp qx hqx).1
    have hy0n : 0 ≤ y0 := hqye ▸ (hp qy hqy).2
    have dm : ∀ {x y : ℝ}, x ≤ y → truncInt (x / cellSize) ≤ truncInt (y / cellSize) := fun h =>
      truncInt_mono (div_le_div_of_nonneg_right h hs.le)
    have himin : truncInt (x0 / cellSize) ≤ truncInt (y0 / cellSize) := by
      obtain ⟨r, hr, hrq⟩ := hij
      rw [truncInt_nonneg (div_nonneg hy0n hs.le)]
      have h1 := hrq qy hqy
      rw [hqye] at h1
      refine le_trans (le_trans (dm (hb r hr).1) ?_) h1
      rw [truncInt_nonneg (div_nonneg (hp r hr).1 hs.le)]
    have hx01 : truncInt (x0 / cellSize) ≤ truncInt (x1 / cellSize) := dm (hqxe ▸ (hb qx hqx).2.1)
    have hy01 : truncInt (y0 / cellSize) ≤ truncInt (y1 / cellSize) := dm (hqye ▸ (hb qy hqy).2.2.2)
    have hz : gridZeros (truncInt (x1 / cellSize) - truncInt (x0 / cellSize) + 1)
        (truncInt (y1 / cellSize) - truncInt (x0 / cellSize) + 1) =
        .ok ⟨(truncInt (x1 / cellSize) - truncInt (x0 / cellSize) + 1).toNat,
          (truncInt (y1 / cellSize) - truncInt (x0 / cellSize) + 1).toNat, fun _ _ => 0⟩ :=
      if_pos ⟨by omega, by omega⟩
    obtain ⟨g, hg, -, -, ht⟩ := voronoiLoop_ok cellSize hs (truncInt (x0 / cellSize))
      (truncInt (x1 / cellSize)) (truncInt (y0 / cellSize)) (truncInt (y1 / cellSize)) cells
      ⟨(truncInt (x1 / cellSize) - truncInt (x0 / cellSize) + 1).toNat,
          (truncInt (y1 / cellSize) - truncInt (x0 / cellSize) + 1).toNat, fun _ _ => 0⟩
      (by
        intro c hc
        obtain ⟨minx, miny, maxx, maxy, h1, h2, h3, ⟨q1, m1, l1⟩, ⟨q2, m2, l2⟩, ⟨q3, m3, l3⟩,
          ⟨q4, m4, l4⟩, h4, h5⟩ := hcells c hc
        refine ⟨minx, miny, maxx, maxy, h1, ((hp q1 m1).1).trans l1, h2, ((hp q3 m3).2).trans l3,
          h3, dm (((hb q1 m1).1).trans l1), dm (l2.trans (hb q2 m2).2.1),
          dm (((hb q3 m3).2.2.1).trans l3), dm (l4.trans (hb q4 m4).2.2.2), h4, h5⟩)
      (by simp only; omega) (by simp only; omega)
    refine ⟨{ g with val := fun a b => g.val a b / cellSize ^ 2 }, ?_, ?_⟩
    · rw [hz]
      simp only [bind, Except.bind]
      rw [hg]
    · have h0 : gridTotal ⟨(truncInt (x1 / cellSize) - truncInt (x0 / cellSize) + 1).toNat,
          (truncInt (y1 / cellSize) - truncInt (x0 / cellSize) + 1).toNat, fun _ _ => (0 : ℝ)⟩ = 0 := by
        simp [gridTotal]
      rw [h0, zero_add] at ht
      rw [← ht]
      unfold gridTotal
      simp only [← Finset.sum_div]
      field_simp

example : ∃ g, densityVoronoi1 [(0.5, 0.5), (1.5, 0.5), (0.5, 1.5)] 1
      [⟨some (0.5, 0.5, 0.75, 0.75), 0.0625, fun _ _ => 0.0625⟩] = .ok g ∧
    gridTotal g * 1 ^ 2 = 1 := by
  have h := C61_voronoi1_partial [(0.5, 0.5), (1.5, 0.5), (0.5, 1.5)] 1
    [⟨some (0.5, 0.5, 0.75, 0.75), 0.0625, fun _ _ => 0.0625⟩] (by simp) one_pos
    (by
      intro p hp
      simp only [List.mem_cons, List.not_mem_nil, or_false] at hp
      rcases hp with rfl | rfl | rfl <;> norm_num)
    (by
      intro c hc
      rw [List.mem_singleton] at hc
      subst hc
      have f1 : ⌊(0.5 : ℝ) / 1⌋ = 0 := by rw [Int.floor_eq_iff]; norm_num
      have f2 : ⌊(0.75 : ℝ) / 1⌋ = 0 := by rw [Int.floor_eq_iff]; norm_num
      refine ⟨0.5, 0.5, 0.75, 0.75, rfl, by norm_num, by norm_num,
        ⟨(0.5, 0.5), by simp, le_rfl⟩, ⟨(1.5, 0.5), by simp, by norm_num⟩,
        ⟨(0.5, 0.5), by simp, le_rfl⟩, ⟨(0.5, 1.5), by simp, by norm_num⟩, by norm_num, ?_⟩
      rw [f1, f2]
      simp)
    ⟨(0.5, 0.5), by simp, by
      intro q hq
      have f1 : ⌊(0.5 : ℝ) / 1⌋ = 0 := by rw [Int.floor_eq_iff]; norm_num
      have f2 : ⌊(1.5 : ℝ) / 1⌋ = 1 := by rw [Int.floor_eq_iff]; norm_num
      simp only [List.mem_cons, List.not_mem_nil, or_false] at hq
      rcases hq with rfl | rfl | rfl <;> simp only [f1, f2] <;> norm_num⟩
  simpa using h

/-- **C61** A Voronoi cell that does not meet the bounding box of the points makes
`density_voronoi_1` raise: if the cells before it are good, the exception is a `ValueError` (there are
no four bounds to unpack). -/
theorem C61_empty_cell_fails (points : List Vec) (cellSize : ℝ) (before after : List VCell)
    (c : VCell) (hlen : 3 ≤ points.length) (hs : 0 < cellSize)
    (hp : ∀ p ∈ points, 0 ≤ p.1 ∧ 0 ≤ p.2)
    (hcells : ∀ c ∈ before, GoodCell cellSize points c)
    (hij : ∃ p ∈ points, ∀ q ∈ points, ⌊p.1 / cellSize⌋ ≤ ⌊q.2 / cellSize⌋) (hc : c.bounds = none) :
    densityVoronoi1 points cellSize (before ++ c :: after) = .error .value := by
  obtain ⟨g, hg, -⟩ := C61_voronoi1_partial points cellSize before hlen hs hp hcells hij
  cases points with
  | nil => simp at hlen
  | cons p rest =>
    unfold densityVoronoi1 at hg ⊢
    rw [if_neg (by push Not; exact ⟨hlen, hs⟩)] at hg ⊢
    simp only at hg ⊢
    obtain ⟨z, hz, hg⟩ := bind_ok hg
    obtain ⟨g', hg', -⟩ := bind_ok hg
    rw [hz]
    simp only [bind, Except.bind]
    have key : ∀ (l : List VCell) (z : Grid ℝ) (g' : Grid ℝ) (a b : ℤ),
        voronoiLoop cellSize a b l z = .ok g' →
        voronoiLoop cellSize a b (l ++ c :: after) z = .error .value := by
      intro l
      induction l with
      | nil =>
        intro z g' a b _
        rw [List.nil_append, voronoiLoop, hc]
      | cons d l ih =>
        intro z g' a b h
        rw [voronoiLoop] at h
        rw [List.cons_append, voronoiLoop]
        cases hb : d.bounds with
        | none => rfl
        | some v =>
          obtain ⟨x0, y0, x1, y1⟩ := v
          rw [hb] at h
          simp only at h ⊢
          obtain ⟨w, hw, h⟩ := bind_ok h
          rw [hw]
          exact ih w g' a b h
    rw [key _ _ _ _ _ hg']

/-- An empty first cell. -/
example : densityVoronoi1 [(0.5, 0.5), (1.5, 0.5), (0.5, 1.5)] 1 [⟨none, 0, fun _ _ => 0⟩] =
    .error .value := by
  refine C61_empty_cell_fails [(0.5, 0.5), (1.5, 0.5), (0.5, 1.5)] 1 [] [] _ (by simp) one_pos ?_
    (by simp) ⟨(0.5, 0.5), by simp, ?_⟩ rfl
  · intro p hp
    simp only [List.mem_cons, List.not_mem_nil, or_false] at hp
    rcases hp with rfl | rfl | rfl <;> norm_num
  · intro q hq
    have f1 : ⌊(0.5 : ℝ) / 1⌋ = 0 := by rw [Int.floor_eq_iff]; norm_num
    have f2 : ⌊(1.5 : ℝ) / 1⌋ = 1 := by rw [Int.floor_eq_iff]; norm_num
    simp only [List.mem_cons, List.not_mem_nil, or_false] at hq
    rcases hq with rfl | rfl | rfl <;> simp only [f1, f2] <;> norm_num

/-- **C61** If all points lie in columns beyond all their rows, `density_voronoi_1` always raises:
the number of columns of the grid is negative. -/
theorem C61_voronoi1_fails (points : List Vec) (cellSize : ℝ) (cells : List VCell)
    (hlen : 3 ≤ points.length) (hs : 0 < cellSize) (hp : ∀ p ∈ points, 0 ≤ p.1 ∧ 0 ≤ p.2)
    (hij : ∀ p ∈ points, ∀ q ∈ points, ⌊q.2 / cellSize⌋ + 1 < ⌊p.1 / cellSize⌋) :
    densityVoronoi1 points cellSize cells = .error .value := by
  cases points with
  | nil => simp at hlen
  | cons p rest =>
    unfold densityVoronoi1
    rw [if_neg (by push Not; exact ⟨hlen, hs⟩)]
    simp only
    have hx0m : ∃ q ∈ p :: rest, q.1 = listMin p.1 (rest.map Prod.fst) := by
      have := listMin_mem p.1 (rest.map Prod.fst)
      rw [← List.map_cons (f := Prod.fst)] at this
      exact List.mem_map.1 this
    have hy1m : ∃ q ∈ p :: rest, q.2 = listMax p.2 (rest.map Prod.snd) := by
      have := listMax_mem p.2 (rest.map Prod.snd)
      rw [← List.map_cons (f := Prod.snd)] at this
      exact List.mem_map.1 this
    obtain ⟨qx, hqx, hqxe⟩ := hx0m
    obtain ⟨qy, hqy, hqye⟩ := hy1m
    have h := hij qx hqx qy hqy
    rw [← hqxe, ← hqye, truncInt_nonneg (div_nonneg (hp qx hqx).1 hs.le),
      truncInt_nonneg (div_nonneg (hp qy hqy).2 hs.le)]
    unfold gridZeros
    rw [if_neg (by omega)]
    rfl

example : densityVoronoi1 [(5, 0), (6, 0), (5, 1)] 1 [] = .error .value :=
  C61_voronoi1_fails _ 1 _ (by simp) one_pos
    (by
      intro p hp
      simp only [List.mem_cons, List.not_mem_nil, or_false] at hp
      rcases hp with rfl | rfl | rfl <;> norm_num)
    (by
      intro p hp q hq
      simp only [List.mem_cons, List.not_mem_nil, or_false] at hp hq
      rcases hp with rfl | rfl | rfl <;> rcases hq with rfl | rfl | rfl <;>
        simp only [div_one, Int.floor_zero, Int.floor_one, Int.floor_ofNat] <;> norm_num)

/-! ## C85 -/

/-- **C85** `voronoi_finite_polygons_2d` returns one region for every point, in the order of the
points, and keeps all vertices: regions that were finite are unchanged, and every other region has
its finite corners and one new vertex for every ridge that goes to infinity. -/
theorem C85_regions (vor : Voronoi) (radius : ℝ) (order : List Vec → List ℕ)
    (hv : ValidVoronoi vor) (ho : ∀ l, (order l).Perm (List.range l.length)) :
    ∃ regs extra, voronoiFinite vor radius order = .ok (regs, vor.vertices ++ extra) ∧
      regs.length = vor.pointRegion.length ∧
      ∀ (p r : ℕ) (vs : List ℤ), vor.pointRegion[p]? = some r → vor.regions[r]? = some vs →
        ∃ region, regs[p]? = some region ∧
          FiniteRegion vor p vs (vor.vertices ++ extra).length region := by
  obtain ⟨regs, extra, h1, h2, h3⟩ := regionLoop_ok hv radius order ho vor.pointRegion 0
    (fun k => by rw [Nat.zero_add]) [] vor.vertices le_rfl
  refine ⟨regs, extra, ?_, h2, fun p r vs hp hr => ?_⟩
  · rw [voronoiFinite, h1, List.nil_append]
  · have := h3 p r vs hp hr
    rwa [Nat.zero_add] at this

example : ∃ regs extra, voronoiFinite (demoVor [1, 2, 3] [[], [-1, 0], [-1, 0], [-1, 0]]) 8
      (fun l => List.range l.length) = .ok (regs, [(2, 1.5)] ++ extra) ∧ regs.length = 3 ∧
    ∃ region, regs[1]? = some region ∧ FiniteRegion
      (demoVor [1, 2, 3] [[], [-1, 0], [-1, 0], [-1, 0]]) 1 [-1, 0]
      ([(2, 1.5)] ++ extra).length region := by
  obtain ⟨regs, extra, h1, h2, h3⟩ := C85_regions _ 8 _ demoVor_valid'
    fun l => List.Perm.refl (List.range l.length)
  exact ⟨regs, extra, h1, h2, h3 1 2 [-1, 0] rfl rfl⟩

/-- **C85** The new vertex of an open ridge between neighbours on the convex hull lies on the ridge:
from the finite end it goes perpendicular to the line through the two points, by the radius, to the
side without points. -/
theorem C85_far_point (points : List Vec) (radius : ℝ) (p1 p2 : ℕ) (vertex a b : Vec) (s : ℝ)
    (hs : s = 1 ∨ s = -1) (ha : points[p1]? = some a) (hb : points[p2]? = some b) (hab : a ≠ b)
    (hr : 0 < radius) (h : ∀ q ∈ points, 0 ≤ s * cross (b - a) (q - a))
    (h' : ∃ q ∈ points, 0 < s * cross (b - a) (q - a)) :
    dot (b - a) (farPoint points radius p1 p2 vertex - vertex) = 0 ∧
    s * cross (b - a) (farPoint points radius p1 p2 vertex - vertex) < 0 ∧
    dot (farPoint points radius p1 p2 vertex - vertex)
      (farPoint points radius p1 p2 vertex - vertex) = radius ^ 2 := by
  have hpos : 0 < (b - a).1 ^ 2 + (b - a).2 ^ 2 := by
    rcases eq_or_ne (b - a).1 0 with h1 | h1
    · rcases eq_or_ne (b - a).2 0 with h2 | h2
      · exact absurd (sub_eq_zero.1 (Prod.ext h1 h2)).symm hab
      · positivity
    · positivity
  have hL : 0 < length (b - a) := Real.sqrt_pos.2 hpos
  have hL2 : length (b - a) ^ 2 = (b - a).1 ^ 2 + (b - a).2 ^ 2 := Real.sq_sqrt hpos.le
  have hs2 : s * s = 1 := by rcases hs with rfl | rfl <;> norm_num
  rw [farPoint_eq points radius p1 p2 vertex a b s hs ha hb hab h h']
  obtain ⟨L, hLe⟩ : ∃ L, length (b - a) = L := ⟨_, rfl⟩
  obtain ⟨u, hu⟩ : ∃ u, b - a = u := ⟨_, rfl⟩
  rw [hLe] at hL hL2 ⊢
  rw [hu] at hL2 hpos ⊢
  rw [sub_sub_cancel_left]
  simp only [dot, cross, Prod.fst_neg, Prod.snd_neg, Prod.smul_fst, Prod.smul_snd, smul_eq_mul]
  refine ⟨by ring, ?_, ?_⟩
  · have : s * (u.1 * -(s * radius / L * u.1) - u.2 * -(s * radius / L * -u.2)) =
        -((s * s) * (radius / L) * (u.1 ^ 2 + u.2 ^ 2)) := by ring
    rw [this, hs2, one_mul]
    have := mul_pos (div_pos hr hL) hpos
    linarith
  · have : -(s * radius / L * -u.2) * -(s * radius / L * -u.2) +
        -(s * radius / L * u.1) * -(s * radius / L * u.1) =
        (s * s) * (radius ^ 2 / L ^ 2) * (u.1 ^ 2 + u.2 ^ 2) := by ring
    rw [this, hs2, one_mul, ← hL2]
    field_simp

example : dot ((4, 0) - (0, 0) : Vec)
    (farPoint [(0, 0), (4, 0), (0, 3)] 8 0 1 (2, 1.5) - (2, 1.5)) = 0 := by
  refine (C85_far_point [(0, 0), (4, 0), (0, 3)] 8 0 1 (2, 1.5) (0, 0) (4, 0) 1 (Or.inl rfl) rfl rfl
    (by simp) (by norm_num) ?_ ⟨(0, 3), by simp, by norm_num [cross]⟩).1
  intro q hq
  simp only [List.mem_cons, List.not_mem_nil, or_false] at hq
  rcases hq with rfl | rfl | rfl <;> norm_num [cross]

end CrowdDynamics
