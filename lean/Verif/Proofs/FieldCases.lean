import Verif.Proofs.Field
import Verif.Spec.Field
import Verif.Props.Sampling
import Verif.Props.Navigation

/-!
# Cases and helper lemmas for `Verif.Props.Field`
-/

namespace CrowdDynamics

open Spec

theorem meshgrid_two {ext : List Vec} (hb : ProperBox ext) {step : ℝ} (hs : 0 < step) {m : MeshGrid}
    (hm : m = meshgrid step (polygonBounds ext).1 (polygonBounds ext).2.1
      (polygonBounds ext).2.2.1 (polygonBounds ext).2.2.2) : 2 ≤ m.shape.1 ∧ 2 ≤ m.shape.2 := by
  obtain ⟨⟨p, hp, q, hq, hpq⟩, ⟨p', hp', q', hq', hpq'⟩⟩ := hb
  have b1 := polygonBounds_le ext p hp
  have b2 := polygonBounds_le ext q hq
  have b3 := polygonBounds_le ext p' hp'
  have b4 := polygonBounds_le ext q' hq'
  have hx : (polygonBounds ext).1 < (polygonBounds ext).2.2.1 := by linarith [b1.1, b2.2.2.1]
  have hy : (polygonBounds ext).2.1 < (polygonBounds ext).2.2.2 := by linarith [b3.2.1, b4.2.2.2]
  obtain ⟨g1, g2, -⟩ := C56_grid step _ _ _ _ hs hx.le hy.le
  rw [← hm] at g1 g2
  have c1 : 0 < ⌈((polygonBounds ext).2.2.2 - (polygonBounds ext).2.1) / step⌉ :=
    Int.ceil_pos.2 (div_pos (by linarith) hs)
  have c2 : 0 < ⌈((polygonBounds ext).2.2.1 - (polygonBounds ext).1) / step⌉ :=
    Int.ceil_pos.2 (div_pos (by linarith) hs)
  omega

/-- A library whose solver always succeeds and whose drawing functions draw the origin. -/
noncomputable def simpleLib : FieldLib :=
  ⟨⟨⟨fun _ _ => [(0, 0)], fun _ => [(0, 0)], fun _ => [(0, 0)]⟩,
    fun c _ _ => some ⟨c.rows, c.cols, fun i j => some (i + j)⟩, fun g _ _ => g,
    fun _ _ _ => (0, 0), fun _ _ _ => false⟩, fun l => .multi l⟩

theorem simpleLib_drawable (ext : List Vec) (hb : ProperBox ext) (a b : Vec) :
    Drawable simpleLib ext 1 (.lineString [a, b]) := by
  intro m hm
  have h2 := meshgrid_two hb one_pos hm
  refine ⟨.lineString _, fun p hp => ?_⟩
  have : p = (0, 0) := by simpa [pixels, consecutive, simpleLib] using hp
  subst this
  exact ⟨0, 0, ⟨by omega, by simp⟩, ⟨by omega, by simp⟩⟩

theorem properBox_square : ProperBox [((0 : ℝ), (0 : ℝ)), (1, 0), (1, 1), (0, 1), (0, 0)] := by
  refine ⟨⟨(0, 0), by simp, (1, 0), by simp, by norm_num⟩, (0, 0), by simp, (1, 1), by simp,
    by norm_num⟩

theorem pyListGet_nat {α : Type} {l : List α} {k : ℕ} {a : α} (h : l[k]? = some a) :
    pyListGet l k = .ok a := by
  have hk : k < l.length := (List.getElem?_eq_some_iff.1 h).1
  have : npIndex l.length (k : ℤ) = some k := by
    unfold npIndex
    rw [if_pos ⟨by omega, by omega⟩]
    simp
  unfold pyListGet
  rw [this]
  simp [h]

/-- A triangular spawn. -/
def triSpawn : Geom := .polygon [(0, 0), (10, 0), (10, 10), (0, 0)] []

/-- A short wall inside of the triangle. -/
def triWall : Geom := .lineString [(5, 4), (6, 4)]

/-- The corners of the triangle. -/
def triCorners : List Vec := [(0, 0), (10, 0), (10, 10)]

/-- The point sets of the triangle and of the wall. -/
def triRegion : Geom → Set Vec
  | .lineString _ => segment ℝ (5, 4) (6, 4)
  | _ => convexHull ℝ {v | v ∈ triCorners}

/-- The library for the triangle. -/
def triLib : HullLib :=
  ⟨fun _ _ _ => triCorners, fun _ => triCorners, fun _ => [((0, 0), (10, 0), (10, 10))]⟩

theorem triContract : HullContract triRegion triLib triSpawn triWall 1 := by
  refine ⟨?_, ?_, ?_⟩
  · apply Set.Subset.antisymm
    · apply convexHull_mono
      intro v hv
      have hv' : v ∈ triCorners := hv
      refine ⟨subset_convexHull ℝ _ hv', fun q hq => ?_⟩
      obtain ⟨a, b, ha, hb, hab, rfl⟩ := hq
      unfold Spec.dist Spec.len
      apply Real.le_sqrt_of_sq_le
      simp only [triCorners, List.mem_cons, List.not_mem_nil, or_false] at hv'
      have e : b = 1 - a := by linarith
      subst e
      rcases hv' with rfl | rfl | rfl <;> simp <;> nlinarith
    · exact convexHull_min (fun v hv => hv.1) (convex_convexHull ℝ _)
  · intro t ht
    simp only [triLib, List.mem_singleton] at ht
    subst ht
    simp [triLib, triCorners]
  · simp [triLib, triArea]

/-- The same triangle, and a wall at some distance of it. -/
def farRegion : Geom → Set Vec
  | .lineString _ => segment ℝ (20, 4) (20, 6)
  | _ => convexHull ℝ {v | v ∈ triCorners}

theorem farFree : freeRegion farRegion triSpawn triWall 1 = convexHull ℝ {v | v ∈ triCorners} := by
  apply Set.Subset.antisymm
  · exact fun p hp => hp.1
  · intro p hp
    refine ⟨hp, fun q hq => ?_⟩
    have h10 : p ∈ {v : Vec | v.1 ≤ 10} := by
      refine convexHull_min ?_ (convex_halfSpace_le (f := fun v : Vec => v.1)
        (LinearMap.fst ℝ ℝ ℝ).isLinear 10) hp
      intro v hv
      have hv' : v ∈ triCorners := hv
      simp only [triCorners, List.mem_cons, List.not_mem_nil, or_false] at hv'
      rcases hv' with rfl | rfl | rfl <;> simp
    obtain ⟨a, b, ha, hb, hab, rfl⟩ := hq
    unfold Spec.dist Spec.len
    apply Real.le_sqrt_of_sq_le
    change p.1 ≤ 10 at h10
    have e : b = 1 - a := by linarith
    subst e
    simp
    nlinarith [sq_nonneg (p.2 - (a * 4 + (1 - a) * 6))]

end CrowdDynamics
