import Verif.Spec.Guidance
import Verif.Spec.Steering
import Verif.Proofs.Field
import Verif.Props.Navigation
import Verif.Props.Geometry

/-!
# Helper lemmas about direction maps and the choice of targets
-/

namespace CrowdDynamics

open Spec

lemma pyListGet_place {α : Type} {l : List α} {k : ℤ} {i : ℕ} (h : Place l.length k i) {x : α}
    (hx : l[i]? = some x) : pyListGet l k = .ok x := by
  unfold pyListGet
  rw [(npIndex_iff _ _ _).2 h]
  simp [hx]

lemma pyListGet_outside {α : Type} {l : List α} {k : ℤ} (h : ¬ ∃ i, Place l.length k i) :
    pyListGet l k = .error .index := by
  unfold pyListGet
  have : npIndex l.length k = none := by
    cases e : npIndex l.length k with
    | none => rfl
    | some i => exact absurd ⟨i, (npIndex_iff _ _ _).1 e⟩ h
  rw [this]
  rfl

/-- The cached and the direct computation agree. -/
lemma freshNav_static {lib : FieldLib} {f : Field} {index : TargetIndex} {t : Geom}
    {ext : List Vec} {ints : List (List Vec)} (hd : f.domain = some (ext, ints))
    (ht : f.targets ≠ []) (hsel : selectTargets lib f index = .ok t) (step radius strength : ℝ) :
    freshNav lib f index step radius strength =
      staticPotential lib.toPathLib (polygonBounds ext) (.polygon ext ints) t f.obstacles step
        radius strength := by
  unfold freshNav staticPotential freshPath freshObs freshMesh Field.domainGeom
  rw [if_neg ht, hsel, hd]
  simp only [bind, Except.bind]

lemma unitAlong_dir {g d : Vec} (h : UnitAlong g d) : g ≠ 0 ∧ d = dir g := by
  obtain ⟨⟨c, hc, rfl⟩, hl⟩ := h
  have e := length_smul c g
  rw [length_eq, length_eq, hl, abs_of_pos hc] at e
  have hg : len g ≠ 0 := by
    intro h0; rw [h0] at e; norm_num at e
  refine ⟨fun h0 => hg (by rw [h0]; simp [len]), ?_⟩
  unfold dir
  have : c = 1 / len g := by field_simp; linarith
  rw [this, one_div]

/-- The direction map at a cell with defined neighbours. -/
lemma directionMap_uphill {dmap : Grid (Option ℝ)} {dm : Grid (Option Vec)}
    (h : directionMap dmap = .ok dm) {i j : ℕ} {e : Vec} (hu : Uphill dmap i j e) :
    dm.val i j = some e := by
  obtain ⟨i0, i1, j0, j1, x, w, n, s, hx, hw, hn, hs, ha⟩ := hu
  obtain ⟨h0, rfl⟩ := unitAlong_dir ha
  unfold directionMap at h
  split_ifs at h
  cases h
  have g1 : gradient1 dmap.rows (fun k => dmap.val k j) i = some ((n - s) / 2) := by
    unfold gradient1
    rw [if_neg (by omega), if_neg (by omega)]
    simp [hn, hs]
  have g2 : gradient1 dmap.cols (fun k => dmap.val i k) j = some ((x - w) / 2) := by
    unfold gradient1
    rw [if_neg (by omega), if_neg (by omega)]
    simp [hx, hw]
  simp only [g1, g2, Option.bind_eq_bind, Option.bind_some]
  rw [add_comm (((n - s) / 2) ^ 2)]
  rcases dir_of_div ((x - w) / 2, (n - s) / 2) with ⟨h', _⟩ | ⟨_, h1⟩
  · exact absurd h' h0
  · exact h1

lemma drawn_contour {lib : DrawLib} {index : Vec → ℤ × ℤ} {shape : ℕ × ℕ} {g : Geom}
    (hg : HoleFree g) {new : Grid ℝ}
    (h : drawGeom lib 0 index 1 g ⟨shape.1, shape.2, fun _ _ => -1⟩ = .ok new) :
    IsContour lib index shape g new := by
  obtain ⟨h1, h2⟩ := C60_holefree_partial (α := ℝ) lib 0 1 index g hg ⟨shape.1, shape.2, fun _ _ => -1⟩
  by_cases hf : ∀ p ∈ pixels lib index g, ∃ i j, PixelAt shape.1 shape.2 p i j
  · obtain ⟨new', e, r, c, hv⟩ := h1 hf
    rw [h] at e
    cases e
    exact ⟨r, c, hv⟩
  · rw [h] at h2
    cases h2 hf

lemma drawn_mask {lib : DrawLib} {index : Vec → ℤ × ℤ} {shape : ℕ × ℕ} {g : Geom}
    (hg : HoleFree g) {new : Grid Bool}
    (h : drawGeom lib false index true g ⟨shape.1, shape.2, fun _ _ => false⟩ = .ok new) :
    IsMask lib index shape g new := by
  obtain ⟨h1, h2⟩ := C60_holefree_partial lib false true index g hg
    ⟨shape.1, shape.2, fun _ _ => false⟩
  by_cases hf : ∀ p ∈ pixels lib index g, ∃ i j, PixelAt shape.1 shape.2 p i j
  · obtain ⟨new', e, r, c, hv⟩ := h1 hf
    rw [h] at e
    cases e
    refine ⟨r, c, fun i j => ⟨fun ht => ?_, fun hm => (hv i j).1 hm⟩⟩
    by_contra hm
    rw [(hv i j).2 hm] at ht
    cases ht
  · rw [h] at h2
    cases h2 hf

lemma bind_ok {ε α β : Type} {x : Except ε α} {f : α → Except ε β} {b : β}
    (h : (x >>= f) = .ok b) : ∃ a, x = .ok a ∧ f a = .ok b := by
  cases x with
  | error e => cases h
  | ok a => exact ⟨a, rfl, h⟩

lemma distanceMap_ok {lib : DrawLib} {fmm : FmmSolver} {m : MeshGrid} {t : Geom}
    {o : Option Geom} {d : Grid (Option ℝ)} (h : distanceMap lib fmm m t o = .ok d) :
    ∃ (contour : Grid ℝ) (mask : Grid Bool),
      drawGeom lib 0 m.index 1 t ⟨m.shape.1, m.shape.2, fun _ _ => -1⟩ = .ok contour ∧
      (o = none → mask = ⟨m.shape.1, m.shape.2, fun _ _ => false⟩) ∧
      (∀ o', o = some o' →
        drawGeom lib false m.index true o' ⟨m.shape.1, m.shape.2, fun _ _ => false⟩ = .ok mask) ∧
      fmm contour mask m.step = some d := by
  unfold distanceMap at h
  obtain ⟨contour, h1, h⟩ := bind_ok h
  have key : ∀ mask : Grid Bool, (match fmm contour mask m.step with
      | none => Except.error PyErr.value
      | some dmap => .ok dmap) = .ok d → fmm contour mask m.step = some d := by
    intro mask h
    cases e : fmm contour mask m.step with
    | none => rw [e] at h; cases h
    | some d' => rw [e] at h; cases h; rfl
  cases o with
  | none => exact ⟨contour, _, h1, fun _ => rfl, fun _ h => (by cases h), key _ h⟩
  | some o =>
    obtain ⟨mask, h2, h⟩ := bind_ok h
    exact ⟨contour, mask, h1, fun h => (by cases h), fun o' h => (by cases h; exact h2), key _ h⟩

end CrowdDynamics
