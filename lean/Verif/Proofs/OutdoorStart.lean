import Verif.Model.OutdoorStart
import Verif.Model.StartPositions
import Verif.Spec.OutdoorStart
import Verif.Proofs.ValidationTests
import Verif.Proofs.ExampleFields
import Verif.Props.BodyType

/-!
# Helper lemmas: the agents of the simulations `Outdoor`
-/

namespace CrowdDynamics

open Spec

/-- The body of an adult. -/
theorem adult_body (z : ℕ → ℝ → ℝ → ℝ) (hz : InTruncRange z) :
    let b := (construct bodyTypesCfg z [.bodyType "adult"]).obj
    (0.22 ≤ b.val .radius ∧ b.val .radius ≤ 0.29) ∧ (65.5 ≤ b.val .mass ∧ b.val .mass ≤ 81.5) ∧
      0.95 ≤ b.val .targetVelocity ∧ b.val .targetVelocity ≤ 1.55 := by
  rw [construct_bodyType z "adult" (by decide) (cfgItems 0.5882 0.3725 0.6275 0.255 0.035 1.25 0.3 73.5 8.0)
    rfl]
  obtain ⟨o, e, -, ⟨r1, r2⟩, ⟨m1, m2⟩, ⟨v1, v2⟩, -⟩ := setAll_cfg z "adult"
    (a := 0.5882) (b := 0.3725) (c := 0.6275) (rm := 0.255) (rs := 0.035) (vm := 1.25) (vs := 0.3)
    (mm := 73.5) (ms := 8.0)
    (by norm_num) (by norm_num) (by norm_num) (by norm_num) (by norm_num) (by norm_num)
    (fun k => hz k (-3) 3 (by norm_num))
  intro b
  have hb : b = o.obj := by rw [← e]
  rw [hb]
  norm_num at r1 r2 m1 m2 v1 v2 ⊢
  refine ⟨⟨?_, ?_⟩, ⟨?_, ?_⟩, ?_, ?_⟩ <;> linarith

/-- A row made from a member with other positions. -/
theorem outdoor_row (kind : Kind) (leader follower : Bool) (z : ℕ → ℝ → ℝ → ℝ) (hz : InTruncRange z)
    (angle : ℝ) (a : Agent) (ha : a = { (outdoorMember kind "adult" leader follower z angle).agent with
      position := a.position
      positionLs := a.positionLs
      positionRs := a.positionRs }) :
    SetsOut kind leader follower angle a ∧
      StoresBody a (construct bodyTypesCfg z [.bodyType "adult"]).obj := by
  obtain ⟨⟨r1, r2⟩, ⟨m1, m2⟩, v1, v2⟩ := adult_body z hz
  have e0 : (1.0 : ℝ) • unitVector angle = (Real.cos angle, Real.sin angle) := by
    norm_num [unitVector]
  have e1 : (0.0 : ℝ) = 0 := by norm_num
  rw [ha]
  cases kind
  · refine ⟨?_, ?_⟩ <;> constructor <;>
      first | rfl | exact e0 | assumption | (intro h; cases h)
  · refine ⟨?_, ?_⟩ <;> constructor <;>
      first | rfl | exact e0 | assumption | (intro _; rfl) | (intro _; exact e1)

/-- What one call of the two simulations stores. -/
theorem outdoor_group (kind : Kind) (leader follower : Bool) (angle : OutdoorDraw → ℝ)
    (draws : List OutdoorDraw) (hz : ∀ d ∈ draws, InTruncRange d.z) (gen : List Vec)
    (st0 : AgentsState) (hinit : AgentsState.init kind defaultPlacementCell = some st0)
    (before : List (Group × List Vec × Option (List Wall))) (st : AgentsState)
    (hst : st = addGroups st0 before) (r : PlaceResult)
    (hr : r = addNonOverlappingGroup st ⟨kind, draws.length, draws.map fun d =>
      outdoorMember kind "adult" leader follower d.z (angle d)⟩ gen none) (i : ℕ)
    (hi1 : st.index ≤ i) (hi2 : i < r.state.index) :
    ∃ a d, r.state.array[i]? = some a ∧ draws[i - st.index]? = some d ∧
      SetsOut kind leader follower (angle d) a ∧ a.position ∈ gen ∧
      StoresBody a (construct bodyTypesCfg d.z [.bodyType "adult"]).obj := by
  obtain ⟨a, m, h1, h2, h3⟩ := C17_rows kind _ st0 hinit before _ gen none st hst r hr rfl i hi1 hi2
  obtain ⟨used, e, hsub⟩ := C17_positions kind _ st0 hinit before _ gen none st hst r hr rfl
  simp only [List.getElem?_map, Option.map_eq_some_iff] at h2
  obtain ⟨d, hd, rfl⟩ := h2
  obtain ⟨k1, k2⟩ := outdoor_row kind leader follower d.z (hz d (List.mem_of_getElem? hd)) (angle d) a h3
  refine ⟨a, d, h1, hd, k1, ?_, k2⟩
  rw [e]
  refine List.mem_append_left _ (hsub.subset (List.mem_map.2 ⟨a, ?_, rfl⟩))
  refine List.mem_of_getElem? (i := i - st.index) ?_
  rw [List.getElem?_drop, Nat.add_sub_cancel' hi1, List.getElem?_take, if_pos hi2, h1]

/-- The samples of the field lie in the rectangle. -/
theorem outdoor_samples {w h : ℝ} (hw : 0 ≤ w) (hh : 0 ≤ h) {p : Vec}
    (hp : p ∈ (outdoorField w h).samples 0) : OnField w h p := by
  have e : (outdoorField w h).samples 0 ⊆ box 0 w 0 h := by
    have : (outdoorField w h).samples 0 = convexHull ℝ {p | p ∈ box 0 w 0 h ∧
        ∀ q ∈ (∅ : Set Vec), 0.3 ≤ length (p - q)} := by
      rw [← room_box hw hh]
      rfl
    rw [this]
    refine convexHull_min (fun p hp => hp.1) ?_
    exact (convex_Icc _ _).prod (convex_Icc _ _)
  have := mem_box.1 (e hp)
  exact ⟨this.1.1, this.1.2, this.2⟩

end CrowdDynamics
