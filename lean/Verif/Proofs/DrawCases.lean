import Verif.Proofs.Geometry

/-!
A square with a hole of one pixel, drawn on a grid of `-1`s.
-/

namespace CrowdDynamics

open Spec

/-- A drawing library that fills axis parallel rectangles (between the first and the third
corner) correctly. -/
def boxLib : DrawLib where
  line a b := [a, b]
  polygon vs := match vs with
    | a :: _ :: c :: _ => (List.range (c.1 - a.1 + 1).toNat).flatMap fun x =>
        (List.range (c.2 - a.2 + 1).toNat).map fun y => (a.1 + x, a.2 + y)
    | _ => []
  perimeter vs := vs

/-- The drawing of the square with a hole ends. -/
theorem ring_drawn : ∃ new, drawGeom boxLib (0 : ℝ) (fun p => (⌊p.1⌋, ⌊p.2⌋)) (1 : ℝ)
      (.polygon [(0, 0), (4, 0), (4, 4), (0, 4), (0, 0)]
        [[(2, 2), (2, 2), (2, 2), (2, 2)]]) ⟨5, 5, fun _ _ => -1⟩ = .ok new := by
  have fits : ∀ px : List (ℤ × ℤ), (∀ p ∈ px, 0 ≤ p.1 ∧ p.1 < 5 ∧ 0 ≤ p.2 ∧ p.2 < 5) →
      Fits 5 5 px := by
    intro px h p hp
    obtain ⟨h1, h2, h3, h4⟩ := h p hp
    exact ⟨p.2.toNat, p.1.toNat, ⟨by omega, by omega⟩, by omega, by omega⟩
  have e4 : ⌊(4 : ℝ)⌋ = 4 := by norm_num
  have e2 : ⌊(2 : ℝ)⌋ = 2 := by norm_num
  have e0 : ⌊(0 : ℝ)⌋ = 0 := by norm_num
  simp only [drawGeom, List.map_cons, List.map_nil, e4, e2, e0, List.foldlM_cons,
    List.foldlM_nil]
  have hp : ∀ g : Grid ℝ, g.rows = 5 → g.cols = 5 → ∀ px : List (ℤ × ℤ),
      (∀ p ∈ px, 0 ≤ p.1 ∧ p.1 < 5 ∧ 0 ≤ p.2 ∧ p.2 < 5) → ∀ v, paint g px v =
        .ok (painted g px v) := by
    intro g hr hc px h v
    rw [paint_eq, hr, hc, if_pos (fits px h)]
  have p1 := hp ⟨5, 5, fun _ _ => -1⟩ rfl rfl
    (boxLib.polygon [(0, 0), (4, 0), (4, 4), (0, 4), (0, 0)]) (by decide) 1
  have p2 := fun g hr hc => hp g hr hc
    (boxLib.perimeter [(0, 0), (4, 0), (4, 4), (0, 4), (0, 0)]) (by decide) 1
  have p3 := fun g hr hc => hp g hr hc
    (boxLib.polygon [(2, 2), (2, 2), (2, 2), (2, 2)]) (by decide) 0
  simp only [bind, Except.bind, p1]
  rw [p2 (painted _ _ _) rfl rfl]
  simp only
  rw [p3 (painted _ _ _) rfl rfl]
  exact ⟨_, rfl⟩

/-- The pixel of the hole. -/
theorem ring_pixel : ∃ p ∈ boxLib.polygon ([((2 : ℝ), (2 : ℝ)), (2, 2), (2, 2), (2, 2)].map
    fun p => (⌊p.1⌋, ⌊p.2⌋)), PixelAt 5 5 p 2 2 := by
  refine ⟨(2, 2), ?_, ⟨by simp, by simp⟩, by simp, by simp⟩
  have e2 : ⌊(2 : ℝ)⌋ = 2 := by norm_num
  simp only [List.map_cons, List.map_nil, e2]
  decide

end CrowdDynamics
