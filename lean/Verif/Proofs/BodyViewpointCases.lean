import Verif.Proofs.BodyViewpoint
import Verif.Proofs.BodyDynamicsCases
import Verif.Proofs.ViewpointCases
import Verif.Props.BodyDynamics

/-!
# Cases and helper lemmas for `Verif.Props.BodyViewpoint`
-/

namespace CrowdDynamics

open Spec

variable {n : ℕ}

lemma turn_zero_point (shift p : Vec) : (turnMotion 0 shift).point p = p + shift := by
  simp [RigidMotion.point, turnMotion]

lemma turn_zero_lin (shift v : Vec) : (turnMotion 0 shift).lin v = v := by
  simp [turnMotion]

lemma turned_moved (shift : Vec) (a b : Agent) :
    Turned True 0 shift a b ↔ b = movedBody shift a := by
  constructor
  · rintro ⟨phi, phi0, -, -, h, rfl⟩
    obtain ⟨rfl, rfl⟩ := h trivial
    simp only [RigidMotion.agent, turn_zero_point, turn_zero_lin]
    rfl
  · rintro rfl
    refine ⟨a.orientation, a.targetOrientation, ⟨0, by simp⟩, ⟨0, by simp⟩, fun _ => ⟨rfl, rfl⟩, ?_⟩
    simp only [RigidMotion.agent, turn_zero_point, turn_zero_lin]
    rfl

lemma moved_scene (shift : Vec) (perm : Equiv.Perm (Fin n)) (s s' : SimState n) :
    TurnedScene True 0 shift perm s s' ↔ MovedBodies shift perm s s' :=
  ⟨fun h => ⟨h.dtype, fun i => (turned_moved _ _ _).1 (h.rows i), h.data, h.draws⟩,
    fun h => ⟨h.dtype, fun i => (turned_moved _ _ _).2 (h.rows i), h.data, h.draws⟩⟩

lemma turned_scene (theta : ℝ) (shift : Vec) (perm : Equiv.Perm (Fin n)) (s s' : SimState n) :
    TurnedScene False theta shift perm s s' ↔ SameBodies theta shift perm s s' := by
  have key : ∀ a b : Agent, Turned False theta shift a b ↔ TurnedBody theta shift a b := fun a b =>
    ⟨fun ⟨phi, phi0, h1, h2, _, h4⟩ => ⟨phi, phi0, h1, h2, h4⟩,
      fun ⟨phi, phi0, h1, h2, h4⟩ => ⟨phi, phi0, h1, h2, False.elim, h4⟩⟩
  exact ⟨fun h => ⟨h.dtype, fun i => (key _ _).1 (h.rows i), h.data, h.draws⟩,
    fun h => ⟨h.dtype, fun i => (key _ _).2 (h.rows i), h.data, h.draws⟩⟩

theorem two_cells_swap (pos : Fin 2 → Vec) (c : ℝ) : EnumeratesNeighbours pos c [(1, 0)] := by
  refine ⟨by simp, by simp, (0, 0), fun i j hij _ _ => ?_⟩
  have hi := i.isLt
  have hj := j.isLt
  simp only [List.mem_singleton, Prod.ext_iff, Fin.ext_iff, Fin.val_zero, Fin.val_one]
  have : (i : ℕ) ≠ j := fun h => hij (Fin.ext h)
  omega

/-! ## Two agents that exchange their numbers -/

/-- An empty world with two agents. -/
noncomputable def rubEnv : SimEnv 2 := { demoEnv 2 with cellPairs := fun _ _ => [(0, 1)] }

/-- The tree with only `AgentAgentInteractions`. -/
noncomputable def rubKind : ℕ → Node := fun _ => .agentAgent (3.0 + 2 * 0.3)

/-- The agents that rub against each other, in the other order. -/
noncomputable def rubbingSwapped : SimState 2 :=
  { rubbingState with agents := ⟨.const .threeCircle, fun i => rubbing (Equiv.swap 0 1 i)⟩ }

theorem rub_world : SameBodyWorld 0 0 (Equiv.swap 0 1) rubEnv rubEnv := by
  refine ⟨⟨?_, ?_, ?_, fun _ _ => rfl, fun d i => ?_, fun _ _ _ => two_cells _ _,
    fun _ _ _ => two_cells _ _⟩, fun _ _ => rfl⟩
  · simp [fieldWalls, SimEnv.field, rubEnv, demoEnv]
  · simp [SimEnv.field, rubEnv, demoEnv]
  · simp [SimEnv.field, rubEnv, demoEnv]
  · rw [turn_zero_lin]; rfl

theorem rub_same : SameBodies 0 0 (Equiv.swap 0 1) rubbingState rubbingSwapped := by
  refine ⟨rfl, fun i => ⟨(rubbing i).orientation, (rubbing i).targetOrientation, ⟨0, ?_⟩, ⟨0, ?_⟩, ?_⟩,
    rfl, rfl⟩
  · simp [rubbingState]
  · simp [rubbingState]
  · simp only [RigidMotion.agent, turn_zero_point, turn_zero_lin, add_zero]
    simp [rubbingSwapped, rubbingState]

theorem rubbing_radii (i : Fin 2) (p : Fin 3) : 0 ≤ (rubbing i).radii p := by
  rw [(rubbing_circles i p).2]; norm_num

theorem rub_first : (pairForcesThree (rubbing 0) (rubbing 1)).1.2 = 3600 := by
  obtain ⟨p, q, r, ha, he⟩ := rubbing_effect (bodyEffect_arms (rubbing_radii 0) (rubbing_radii 1)
    (rubbing_attached 0) (rubbing_attached 1)).1
  rw [he, ha, (rubbing_circles 0 p).1, (rubbing_circles 0 p).2]
  norm_num [moment, rubbing]

theorem rub_second : (pairForcesThree (rubbing 1) (rubbing 0)).2.2 = 0 := by
  obtain ⟨p, q, r, ha, he⟩ := rubbing_effect (bodyEffect_arms (rubbing_radii 1) (rubbing_radii 0)
    (rubbing_attached 1) (rubbing_attached 0)).2
  rw [he, ha, (rubbing_circles 1 p).1, (rubbing_circles 0 p).2]
  norm_num [moment, rubbing]

/-- The torques after the update. -/
theorem rub_torque (A : Crowd 2) (hA : ∀ i, BodyWithin .threeCircle (A i) 0.3) (s : SimState 2)
    (hs : s.agents = ⟨.const .threeCircle, A⟩) :
    ∃ t, simUpdate rubEnv rubKind (.node 0 []) s = (.ok (), t) ∧
      (t.agents.rows 0).torque = (A 0).torque + (pairForcesThree (A 0) (A 1)).1.2 ∧
      (t.agents.rows 1).torque = (A 1).torque + (pairForcesThree (A 0) (A 1)).2.2 := by
  obtain ⟨B, hB, -, h⟩ := agentAgent_effects rubEnv.cellPairs s.agents (3.0 + 2 * 0.3) (by norm_num)
    (two_cells _ _) (by rw [hs]; rfl) (fun _ => 0.3) (fun i => by rw [hs]; exact hA i)
    (fun i j _ => by norm_num)
  refine ⟨(simUpdate rubEnv rubKind (.node 0 []) s).2, ?_, ?_⟩
  · simp [simUpdate, updateNodes, LTree.postorder, postorderAll, rubKind, Node.update, hB]
  · simp only [simUpdate, updateNodes, LTree.postorder, postorderAll, rubKind, Node.update, hB,
      List.nil_append, List.map_cons, List.map_nil]
    rw [h 0, h 1, erase_zero_two, show (Finset.univ.erase (1 : Fin 2)) = {0} from by decide]
    simp [orientedEffect, rubEnv, hs]

/-! ## An agent that wants to turn round -/

/-- An agent that looks to the right and wants to walk to the left. -/
noncomputable def turningRound : Crowd 1 := fun _ =>
  { Agent.default with
    mass := 80, inertiaRot := 4, rT := 0.3, rS := 0.2, targetVelocity := 1, targetDirection := (-1, 0)
    targetAngularVelocity := 1 }

/-- This agent at the start of a simulation. -/
noncomputable def turningRoundState : SimState 1 :=
  { demoState turningRound with agents := ⟨.const .threeCircle, turningRound⟩ }

/-- The agent, turned by a straight angle. -/
noncomputable def turnedRoundState : SimState 1 :=
  { demoState turningRound with agents := ⟨.const .threeCircle, fun i =>
    { turningRound i with orientation := Real.pi, targetOrientation := Real.pi, targetDirection := (1, 0) }⟩ }

/-- `Adjusting(simulation) << Orientation(simulation)`. -/
def roundTree : LTree := .node 0 [.node 1 []]

/-- The nodes of this tree. -/
def roundKind : ℕ → Node
  | 0 => .adjusting
  | _ => .orientation

/-- The empty world with random forces turned by a straight angle. -/
noncomputable def roundEnv : SimEnv 1 := { demoEnv 1 with phi := fun _ _ => Real.pi }

theorem round_world : SameBodyWorld Real.pi 0 1 (demoEnv 1) roundEnv := by
  have hc : ∀ (pos : Fin 1 → Vec) (c : ℝ), EnumeratesNeighbours pos c [] := fun pos c =>
    ⟨by simp, by simp, (0, 0), fun i j hij => absurd (Subsingleton.elim i j) hij⟩
  refine ⟨⟨?_, ?_, ?_, fun _ _ => rfl, fun d i => ?_, fun _ _ _ => hc _ _, fun _ _ _ => hc _ _⟩,
    fun _ _ => rfl⟩
  · simp [fieldWalls, SimEnv.field, roundEnv, demoEnv]
  · simp [SimEnv.field, demoEnv]
  · simp [SimEnv.field, roundEnv, demoEnv]
  · simp [roundEnv, demoEnv, turnMotion]

theorem round_same : SameBodies Real.pi 0 1 turningRoundState turnedRoundState := by
  refine ⟨rfl, fun i => ⟨Real.pi, Real.pi, ⟨0, ?_⟩, ⟨0, ?_⟩, ?_⟩, rfl, rfl⟩
  · simp [turningRoundState, turningRound, Agent.default, Agent.zero]
  · simp [turningRoundState, turningRound, Agent.default, Agent.zero]
  · simp [turningRoundState, turnedRoundState, turningRound, Agent.default, Agent.zero,
      RigidMotion.agent, RigidMotion.point, turnMotion]

theorem round_left :
    ∃ t, simUpdate (demoEnv 1) roundKind roundTree turningRoundState = (.ok (), t) ∧
      (t.agents.rows 0).torque = 20 := by
  refine ⟨_, rfl, ?_⟩
  have hp := Real.pi_pos
  have ha : angle (-1, 0) = Real.pi := by
    unfold angle
    rw [show (⟨(-1 : ℝ), 0⟩ : ℂ) = -1 from by apply Complex.ext <;> simp]
    exact Complex.arg_neg_one
  change (0 : ℝ) + torqueAdjust 4 0.2 (angle (-1, 0)) 0 1 0 = 20
  rw [ha]
  unfold torqueAdjust
  rw [sub_zero, sub_zero, wrapToPi_of_mem ⟨by linarith, le_rfl⟩, div_self hp.ne']
  norm_num

theorem round_right :
    ∃ t, simUpdate roundEnv roundKind roundTree turnedRoundState = (.ok (), t) ∧
      (t.agents.rows 0).torque = -20 := by
  refine ⟨_, rfl, ?_⟩
  have hp := Real.pi_pos
  have ha : angle (1, 0) = 0 := by
    unfold angle
    rw [show (⟨(1 : ℝ), 0⟩ : ℂ) = 1 from by apply Complex.ext <;> simp]
    exact Complex.arg_one
  change (0 : ℝ) + torqueAdjust 4 0.2 (angle (1, 0)) Real.pi 1 0 = -20
  rw [ha]
  unfold torqueAdjust
  rw [zero_sub, wrapToPi_of_mem ⟨le_rfl, by linarith⟩, neg_div, div_self hp.ne']
  norm_num

end CrowdDynamics
