import Verif.Model.ValidationTests
import Verif.Spec.ValidationTests
import Verif.Proofs.Placement
import Verif.Proofs.BodyType
import Verif.Proofs.ShippedRun

/-!
# Helper lemmas: the agents of the test simulations
-/

namespace CrowdDynamics

open Spec

/-- The body of the agents of the test simulations. -/
theorem validation_body (z : ℕ → ℝ → ℝ → ℝ) :
    let o := construct bodyTypesCfg z validationBody
    o.err = false ∧ o.obj.val .radius = 0.255 ∧ o.obj.val .rT = 0.5882 * 0.255 ∧
      o.obj.val .rS = 0.3725 * 0.255 ∧ o.obj.val .rTs = 0.6275 * 0.255 ∧ o.obj.val .mass = 73.5 ∧
      o.obj.val .inertiaRot = 4 * Real.pi * (73.5 / 80) * (0.255 / 0.27) ^ 2 ∧
      o.obj.val .targetVelocity = 1 ∧ o.obj.val .targetAngularVelocity = 0 := by
  have hpi := Real.pi_pos
  have hI : (4 * Real.pi * (73.5 / 80) * (0.255 / 0.27) ^ 2 : ℝ) ≠ 0 := by positivity
  have hI' : (0:ℝ) ≤ 4 * Real.pi * (73.5 / 80) * (0.255 / 0.27) ^ 2 := by positivity
  have hz : (0 : ℝ) ≤ Real.pi := hpi.le
  have h1 : validationBody.foldl storeKw ⟨BodyObj.new, false⟩ = ⟨⟨fun a => match a with
      | .radius => 0.255
      | .mass => 73.5
      | .targetVelocity => 1
      | .ratioRt => 0.5882
      | .ratioRs => 0.3725
      | .ratioTs => 0.6275
      | _ => 0, "", 0⟩, false⟩ := by
    have e : ∀ (b : BodyObj) (a : BodyAttr) (v : ℝ), a.valid v →
        storeKw ⟨b, false⟩ (.attr a v) = ⟨b.store a v, false⟩ := by
      intro b a v h
      simp [storeKw, BodyOutcome.andThen, h]
    unfold validationBody
    simp only [List.foldl_cons, List.foldl_nil]
    rw [e _ _ _ (by norm_num [BodyAttr.valid]), e _ _ _ (by norm_num [BodyAttr.valid]),
      e _ _ _ (by norm_num [BodyAttr.valid]), e _ _ _ (by norm_num [BodyAttr.valid]),
      e _ _ _ (by norm_num [BodyAttr.valid]), e _ _ _ ⟨by norm_num, by simp⟩]
    simp only [BodyOutcome.mk.injEq, BodyObj.store, BodyObj.mk.injEq, and_true, BodyObj.new]
    funext a
    cases a <;> simp
    norm_num
  unfold construct
  simp only [h1]
  simp only [validationBody, List.foldl_cons, List.foldl_nil, BodyOutcome.andThen, Bool.false_eq_true,
    if_false, notifyKw, notifyAttr, notifyDims]
  have n1 : (0.5882 : ℝ) ≠ 0 := by norm_num
  have n2 : (0.3725 : ℝ) ≠ 0 := by norm_num
  have n3 : (0.6275 : ℝ) ≠ 0 := by norm_num
  have n4 : (0.255 : ℝ) ≠ 0 := by norm_num
  have n5 : (73.5 : ℝ) ≠ 0 := by norm_num
  have n6 : (1.0 : ℝ) ≠ 0 := by norm_num
  have p1 : (0 : ℝ) < 0.5882 := by norm_num
  have p2 : (0 : ℝ) < 0.3725 := by norm_num
  have p3 : (0 : ℝ) < 0.6275 := by norm_num
  have p4 : (0 : ℝ) < 0.255 := by norm_num
  have p5 : (0 : ℝ) < 73.5 := by norm_num
  have q1 : (0 : ℝ) ≤ 0.5882 * 0.255 := by norm_num
  have q2 : (0 : ℝ) ≤ 0.3725 * 0.255 := by norm_num
  have q3 : (0 : ℝ) ≤ 0.6275 * 0.255 := by norm_num
  have r1 : (0 : ℝ) ≠ 0.5882 * 0.255 := by norm_num
  have r2 : (0 : ℝ) ≠ 0.3725 * 0.255 := by norm_num
  have r3 : (0 : ℝ) ≠ 0.6275 * 0.255 := by norm_num
  simp only [n1, n2, n3, n4, n5, n6, if_false, observeRadius, reduceCtorEq, if_true, p4, gt_iff_lt,
    assign, BodyAttr.valid, q1, or_false, false_implies, and_true, r1, noObserver,
    BodyObj.store, Function.update_apply, q2, r2, q3, r3, observeInertiaRot, p5, hI', hI.symm,
    scaleIfRatio, p1, p2, p3, Bool.false_eq_true, hI, BodyOutcome.andThen]

/-- Adding a group of one far from all others. -/
theorem add_one {c : ℝ} {st : AgentsState} (hs : Safe c st) (hl : st.array.length = st.index)
    (m : Member) (p : Vec) (gen : List Vec)
    (hfar : ∀ i < st.index, ¬ CellsWithin c 1
        [(rowAt st.array i).position.1, (rowAt st.array i).position.2] [p.1, p.2]) :
    let r := addNonOverlappingGroup st ⟨st.kind, 1, [m]⟩ (p :: gen) none
    r.outcome = .ok ∧ r.state.kind = st.kind ∧ r.state.index = st.index + 1 ∧
      r.state.array = st.array ++ [((m.setPosition p).touch st.kind).row] := by
  have hg := (safe_grow hs 1).stored
  have e : ∀ k, rowAt (st.array ++ List.replicate 1 Agent.zero) k = rowAt st.array k :=
    rowAt_append_zero st.array 1
  have hov := no_overlap_far hg ((m.setPosition p).touch st.kind) p
    (fun i hi => by simp only [e]; exact hfar i hi)
  intro r
  have hr : r = placeLoop 1 none (p :: gen) 0 0
      ⟨st.kind, st.array ++ List.replicate 1 Agent.zero, st.index, st.neighbours⟩ [m] :=
    addGroup_eq _ _ rfl
  rw [placeLoop_accept (by omega) (by omega) rfl hov rfl, placeLoop_done (by omega)] at hr
  rw [hr]
  refine ⟨rfl, rfl, rfl, ?_⟩
  simp only [← hl, List.replicate_one]
  rw [List.set_append_right _ _ le_rfl]
  simp

/-- The row of an agent of the test simulations. -/
noncomputable def walkerRow (kind : Kind) (p : Vec) (angle : ℝ) : Agent :=
  let agent := { Agent.default with
    radius := 0.255
    rT := 0.5882 * 0.255
    rS := 0.3725 * 0.255
    rTs := 0.6275 * 0.255
    mass := 73.5
    inertiaRot := 4 * Real.pi * (73.5 / 80) * (0.255 / 0.27) ^ 2
    targetVelocity := 1
    position := p
    velocity := (Real.cos angle, Real.sin angle)
    targetDirection := (Real.cos angle, Real.sin angle) }
  match kind with
  | .circular => agent
  | .threeCircle => { agent with
      orientation := angle
      targetOrientation := angle
      positionLs := p - (0.6275 * 0.255 : ℝ) • (Real.sin angle, -Real.cos angle)
      positionRs := p + (0.6275 * 0.255 : ℝ) • (Real.sin angle, -Real.cos angle) }

theorem validation_row (z : ℕ → ℝ → ℝ → ℝ) (kind : Kind) (angle : ℝ) (p : Vec) :
    (((validationMember z kind angle).setPosition p).touch kind).row = walkerRow kind p angle := by
  obtain ⟨-, h1, h2, h3, h4, h5, h6, h7, h8⟩ := validation_body z
  have e0 : (1.0 : ℝ) • unitVector angle = (Real.cos angle, Real.sin angle) := by
    norm_num [unitVector]
  cases kind
  · simp only [validationMember, Member.setPosition, Member.touch, Member.row, walkerRow, h1, h2, h3, h4,
      h5, h6, h7, h8, e0]
    rfl
  · simp only [validationMember, Member.setPosition, Member.touch, Member.row, walkerRow, h1, h2, h3, h4,
      h5, h6, h7, h8, shoulderOffset, Option.getD_none, Option.getD_some, unitVector, rotate270]
    norm_num [Agent.default, Agent.zero]

theorem walker_row (kind : Kind) (p : Vec) (angle : ℝ) :
    Walker kind p (Real.cos angle, Real.sin angle) angle (walkerRow kind p angle) := by
  cases kind
  · constructor <;> first | rfl | (intro h; cases h)
  · constructor <;> first | rfl | (intro _; rfl) | skip
    intro _
    refine ⟨rfl, ?_, ?_⟩
    · ext <;> simp [walkerRow]
    · ext <;> simp [walkerRow]
      ring

theorem movement_array (z : ℕ → ℝ → ℝ → ℝ) (kind : Kind) : ∃ st, movementAgents z kind = some st ∧
    st.kind = kind ∧ st.index = 1 ∧ st.array = [walkerRow kind (0, 0) 0] := by
  have hc : (0 : ℝ) < defaultPlacementCell := by norm_num [defaultPlacementCell]
  obtain ⟨st, hst⟩ : ∃ st, AgentsState.init kind defaultPlacementCell = some st := by
    simp [AgentsState.init, BlockList.init, hc]
  obtain ⟨hs, -, hk, hi, ha⟩ := safe_init hst
  have h1 := add_one hs (by rw [ha, hi]; rfl) (validationMember z kind 0.0) (0, 0)
    (List.replicate 9 (0, 0)) (by rw [hi]; intro i hi; omega)
  refine ⟨_, by rw [movementAgents, hst]; rfl, ?_⟩
  simp only [addGroups]
  rw [hk] at h1
  simp only [validationGroup]
  rw [show List.replicate 10 ((0, 0) : Vec) = (0, 0) :: List.replicate 9 (0, 0) from rfl]
  obtain ⟨-, a1, a2, a3⟩ := h1
  refine ⟨a1, by rw [a2, hi], ?_⟩
  rw [a3, validation_row, ha]
  norm_num

theorem interaction_array (z : ℕ → ℝ → ℝ → ℝ) (kind : Kind) : ∃ st, interactionAgents z kind = some st ∧
    st.kind = kind ∧ st.index = 2 ∧
    st.array = [walkerRow kind (0, 0) 0, walkerRow kind (5, 0) Real.pi] := by
  have hc : (0 : ℝ) < defaultPlacementCell := by norm_num [defaultPlacementCell]
  obtain ⟨st, hst⟩ : ∃ st, AgentsState.init kind defaultPlacementCell = some st := by
    simp [AgentsState.init, BlockList.init, hc]
  obtain ⟨hs, -, hk, hi, ha⟩ := safe_init hst
  have h1 := add_one hs (by rw [ha, hi]; rfl) (validationMember z kind 0.0) (0, 0)
    (List.replicate 9 (0, 0)) (by rw [hi]; intro i hi; omega)
  have hs1 := addGroup_safe hc hs ⟨st.kind, 1, [validationMember z kind 0.0]⟩
    ((0, 0) :: List.replicate 9 (0, 0)) none
  refine ⟨_, by rw [interactionAgents, hst]; rfl, ?_⟩
  simp only [addGroups, validationGroup]
  rw [hk] at h1 hs1
  rw [show List.replicate 10 ((0, 0) : Vec) = (0, 0) :: List.replicate 9 (0, 0) from rfl,
    show List.replicate 10 ((5, 0) : Vec) = (5, 0) :: List.replicate 9 (5, 0) from rfl]
  obtain ⟨-, a1, a2, a3⟩ := h1
  obtain ⟨S, hS⟩ : ∃ S, (addNonOverlappingGroup st ⟨kind, 1, [validationMember z kind 0.0]⟩
    ((0, 0) :: List.replicate 9 (0, 0)) none).state = S := ⟨_, rfl⟩
  rw [hS] at a1 a2 a3 hs1 ⊢
  have a4 : S.array = [walkerRow kind (0, 0) 0] := by
    rw [a3, validation_row, ha]
    norm_num
  rw [hi] at a2
  have h2 := add_one hs1.1 (by rw [a4, a2]; rfl) (validationMember z kind Real.pi) (5, 0)
    (List.replicate 9 (5, 0)) (by
      rw [a2, a4]
      intro i hi
      obtain rfl : i = 0 := by omega
      have e : (rowAt [walkerRow kind (0, 0) 0] 0).position = (0, 0) := by cases kind <;> rfl
      rw [e]
      intro hw
      have := (List.forall₂_cons.1 hw).1
      have f1 : ⌊(0 : ℝ) / defaultPlacementCell⌋ = 0 := by simp
      have f2 : ⌊(5 : ℝ) / defaultPlacementCell⌋ = 8 := by
        rw [Int.floor_eq_iff]; norm_num [defaultPlacementCell]
      rw [f1, f2] at this
      norm_num at this)
  rw [a1] at h2
  obtain ⟨-, b1, b2, b3⟩ := h2
  refine ⟨b1, by rw [b2, a2], ?_⟩
  rw [b3, validation_row, a4]
  rfl

/-- One update of `TestMovement` moves the agent by one centimetre. -/
theorem walker_step {n : ℕ} (env : SimEnv n) (s t : SimState n) (i : Fin n) (x : ℝ)
    (h0 : Walker s.agents.dtype.kind (x, 0) (1, 0) 0 (s.agents.rows i))
    (h : testMovementLogic.update env s = (.ok (), t)) :
    t.agents.dtype = s.agents.dtype ∧
      Walker s.agents.dtype.kind (x + 0.01, 0) (1, 0) 0 (t.agents.rows i) := by
  obtain ⟨u, hu, ea⟩ := update_order order_testMovement env s t _ h
  have eu : u.agents = resetUpdate (orientationUpdate (adjusting
      (integratorUpdate 0.01 0.01 s).agents)) := by
    cases hu
    rfl
  rw [ea, eu]
  have hdt := timestep_const s.agents.rows 0.01
  obtain ⟨h1, h2, h3, h4, h5, h6, h7, h8, h9, k1, k2, k3, k4, k5, k6, k7, k8⟩ := h0
  rcases kind_cases s.agents.dtype with hk | hk
  · refine ⟨by simp [resetUpdate, orientationUpdate, adjusting, integratorUpdate,
      velocityVerletIntegrator, isModel, hk], ?_⟩
    constructor <;>
    simp [resetUpdate, orientationUpdate, adjusting, integratorUpdate, velocityVerletIntegrator,
      isModel, hk, translationalVerlet, translationalVerletRow, forceAdjustAgents, h1, h2, h3, h4, h5, h6,
      h7, h8, h9, hdt]
  · refine ⟨by simp [resetUpdate, orientationUpdate, adjusting, integratorUpdate,
      velocityVerletIntegrator, isModel, hk], ?_⟩
    have e1 := k1 hk
    have e3 := k3 hk
    have e4 := k4 hk
    have e5 := k5 hk
    have e6 := k6 hk
    have e7 := k7 hk
    have e8 := (k8 hk).1
    have ew : wrapToPi 0 = 0 := wrapToPi_of_mem ⟨by linarith [Real.pi_pos], Real.pi_pos.le⟩
    have eg : angle (1, 0) = 0 := Complex.arg_one
    constructor <;>
    simp [resetUpdate, orientationUpdate, adjusting, integratorUpdate, velocityVerletIntegrator,
      isModel, hk, translationalVerlet, translationalVerletRow, forceAdjustAgents, h1, h2, h3, h4, h5, h6,
      h7, h8, h9, hdt, e1, e3, e4, e5, e6, e7, e8, torqueAdjustAgents, orientTowardsTargetDirection,
      rotationalVerlet, rotationalVerletRow, shoulders, shouldersRow, ShouldersAttached,
      ew, eg, unitVector, rotate270]

/-- The update of an expression whose order of execution is known, as the update of a tree. -/
theorem update_as_tree {e : LogicExpr} {nodes : List Node} (ho : e.order = .ok nodes) :
    ∃ (kind : ℕ → Node) (root : LTree), root.postorder.map kind = nodes ∧
      ∀ {n : ℕ} (env : SimEnv n), e.update env = simUpdate env kind root := by
  unfold LogicExpr.order at ho
  obtain ⟨b, hb⟩ : ∃ b, e.build = b := ⟨_, rfl⟩
  rw [hb] at ho
  obtain ⟨r, st⟩ := b
  cases r with
  | error err => cases ho
  | ok o =>
    cases o with
    | none => cases ho
    | some root =>
      cases ho
      refine ⟨_, root, rfl, fun env => ?_⟩
      funext s
      unfold LogicExpr.update
      rw [hb]

end CrowdDynamics
