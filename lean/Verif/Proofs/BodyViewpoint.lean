import Verif.Proofs.Viewpoint
import Verif.Proofs.BodyMotion
import Verif.Spec.BodyViewpoint
import Verif.Proofs.Vector2D
import Verif.Props.Vector2D

/-!
# Three-circle agents in other coordinates
-/

namespace CrowdDynamics

open Spec

variable {n : ℕ}

/-! ## Turning -/

lemma turn_apply (theta : ℝ) (shift : ℝ × ℝ) (v : Vec) : (turnMotion theta shift).lin v =
    (Real.cos theta * v.1 - Real.sin theta * v.2, Real.sin theta * v.1 + Real.cos theta * v.2) := rfl

lemma turn_rotate270 (theta : ℝ) (shift : ℝ × ℝ) (v : Vec) :
    rotate270 ((turnMotion theta shift).lin v) = (turnMotion theta shift).lin (rotate270 v) := by
  rw [turn_apply, turn_apply]
  unfold rotate270
  ext <;> simp <;> ring

lemma turn_cross (theta : ℝ) (shift : ℝ × ℝ) (u v : Vec) :
    cross ((turnMotion theta shift).lin u) ((turnMotion theta shift).lin v) = cross u v := by
  rw [turn_apply, turn_apply]
  unfold cross
  linear_combination (u.1 * v.2 - u.2 * v.1) * Real.sin_sq_add_cos_sq theta

lemma turn_unit {theta phi phi' : ℝ} (shift : ℝ × ℝ) (h : AngleTurned theta phi phi') :
    unitVector phi' = (turnMotion theta shift).lin (unitVector phi) := by
  obtain ⟨k, rfl⟩ := h
  rw [turn_apply]
  unfold unitVector
  rw [Real.cos_add_int_mul_two_pi, Real.sin_add_int_mul_two_pi, Real.cos_add, Real.sin_add]
  ext <;> simp <;> ring

lemma turned_add {theta phi phi' : ℝ} (h : AngleTurned theta phi phi') (x : ℝ) :
    AngleTurned theta (phi + x) (phi' + x) := by
  obtain ⟨k, rfl⟩ := h
  exact ⟨k, by ring⟩

lemma turned_wrap {theta phi phi' : ℝ} (h : AngleTurned theta phi phi') :
    AngleTurned theta (wrapToPi phi) (wrapToPi phi') := by
  obtain ⟨k, rfl⟩ := h
  obtain ⟨a, ha⟩ := wrapToPi_congr phi
  obtain ⟨b, hb⟩ := wrapToPi_congr (phi + theta + k * (2 * Real.pi))
  exact ⟨k + b - a, by rw [ha, hb]; push_cast; ring⟩

lemma turned_angle (theta : ℝ) (shift : ℝ × ℝ) {v : Vec} (hv : v ≠ 0) :
    AngleTurned theta (angle v) (angle ((turnMotion theta shift).lin v)) := by
  have h1 := C03_unit_vector_angle v hv
  have hl : Spec.len v ≠ 0 := fun h => hv (by rw [← h1, h, zero_smul])
  have hw : (turnMotion theta shift).lin v ≠ 0 := fun h => hl (by
    rw [← (turnMotion theta shift).isometry v, h]; simp [len])
  have h2 := C03_unit_vector_angle _ hw
  rw [(turnMotion theta shift).isometry v] at h2
  have h3 : unitVector (angle ((turnMotion theta shift).lin v)) =
      (turnMotion theta shift).lin (unitVector (angle v)) := by
    have : Spec.len v • unitVector (angle ((turnMotion theta shift).lin v)) =
        Spec.len v • (turnMotion theta shift).lin (unitVector (angle v)) := by
      rw [h2, ← map_smul, h1]
    exact smul_right_injective _ hl this
  rw [← turn_unit shift (⟨0, rfl⟩ : AngleTurned theta (angle v) _)] at h3
  unfold unitVector at h3
  obtain ⟨hc, hs⟩ := Prod.mk.inj h3
  have := Real.Angle.cos_sin_inj hc hs
  rw [Real.Angle.angle_eq_iff_two_pi_dvd_sub] at this
  obtain ⟨k, hk⟩ := this
  exact ⟨k, by simp at hk; linarith⟩

/-! ## Search loops -/

/-- A state of a search loop in the new coordinates. -/
def turnState {ι : Type} (g : RigidMotion) (s : MinState ι) : MinState ι := ⟨s.h, g.lin s.n, s.i⟩

lemma turn_minStep {ι : Type} (g : RigidMotion) (f f' : ι → ℝ × Vec)
    (h : ∀ k, f' k = ((f k).1, g.lin (f k).2)) (l : List ι) : ∀ s : MinState ι,
    l.foldl (minStep f') (turnState g s) = turnState g (l.foldl (minStep f) s) := by
  induction l with
  | nil => intro s; rfl
  | cons k l ih =>
    intro s
    rw [List.foldl_cons, List.foldl_cons, ← ih]
    congr 1
    obtain ⟨sh, sn, si⟩ := s
    unfold minStep turnState
    rw [h]
    cases sh with
    | none => rfl
    | some m => simp only; split_ifs <;> rfl

lemma turn_minStepOpt {ι : Type} (g : RigidMotion) (f f' : ι → Option (ℝ × Vec))
    (h : ∀ k, f' k = (f k).map fun hm => (hm.1, g.lin hm.2)) (l : List ι) : ∀ s : MinState ι,
    l.foldl (minStepOpt f') (turnState g s) = turnState g (l.foldl (minStepOpt f) s) := by
  induction l with
  | nil => intro s; rfl
  | cons k l ih =>
    intro s
    rw [List.foldl_cons, List.foldl_cons, ← ih]
    congr 1
    obtain ⟨sh, sn, si⟩ := s
    unfold minStepOpt turnState
    rw [h]
    cases f k with
    | none => cases sh <;> rfl
    | some m =>
      cases sh with
      | none => rfl
      | some m => simp only [Option.map_some]; split_ifs <;> rfl

lemma turn_distance (g : RigidMotion) (x0 x1 : Fin 3 → Vec) (r0 r1 : Fin 3 → ℝ) :
    distanceThreeCircles (fun p => g.point (x0 p)) r0 (fun p => g.point (x1 p)) r1 =
      ⟨(distanceThreeCircles x0 r0 x1 r1).h, g.lin (distanceThreeCircles x0 r0 x1 r1).n,
        g.lin (distanceThreeCircles x0 r0 x1 r1).rm0, g.lin (distanceThreeCircles x0 r0 x1 r1).rm1⟩ := by
  have hf : ∀ k : Fin 3 × Fin 3,
      distanceCircles (g.point (x0 k.1)) (r0 k.1) (g.point (x1 k.2)) (r1 k.2) =
        ((distanceCircles (x0 k.1) (r0 k.1) (x1 k.2) (r1 k.2)).1,
          g.lin (distanceCircles (x0 k.1) (r0 k.1) (x1 k.2) (r1 k.2)).2) := by
    intro k
    unfold distanceCircles
    simp only [point_sub, lin_length]
    refine Prod.ext rfl ?_
    simp only
    split_ifs
    · exact (map_zero g.lin).symm
    · rw [div_pair, div_pair, map_smul]
  have h0 : (⟨none, (0, 0), (0, 0)⟩ : MinState (Fin 3 × Fin 3)) =
      turnState g ⟨none, (0, 0), (0, 0)⟩ := by
    unfold turnState
    rw [show ((0, 0) : Vec) = 0 from rfl, map_zero]
  unfold distanceThreeCircles
  simp only
  rw [h0, turn_minStep g _ _ hf, ← h0]
  generalize List.foldl _ _ _ = S
  simp only [turnState, ThreeDist.mk.injEq, true_and]
  constructor
  · rw [add_sub_right_comm, point_sub, add_sub_right_comm, map_add, map_smul]
  · rw [sub_right_comm, point_sub, sub_right_comm (x0 _), map_sub _ (_ - _), map_smul]

lemma turn_line (g : RigidMotion) (x : Fin 3 → Vec) (r : Fin 3 → ℝ) (p0 p1 : Vec) :
    distanceThreeCircleLine (fun p => g.point (x p)) r (g.point p0) (g.point p1) =
      (distanceThreeCircleLine x r p0 p1).map fun d => (d.1, g.lin d.2.1, g.lin d.2.2) := by
  have h0 : (⟨none, (0, 0), 0⟩ : MinState (Fin 3)) = turnState g ⟨none, (0, 0), 0⟩ := by
    unfold turnState
    rw [show ((0, 0) : Vec) = 0 from rfl, map_zero]
  unfold distanceThreeCircleLine
  simp only
  rw [h0, turn_minStepOpt g _ _ (fun k => lin_circle_line g (x k) (r k) p0 p1), ← h0]
  generalize List.foldl _ _ _ = S
  simp only [turnState]
  cases S.h with
  | none => rfl
  | some h =>
    simp only [Option.map_some, Option.some.injEq, Prod.mk.injEq, true_and]
    rw [sub_right_comm, point_sub, sub_right_comm (x _), map_sub _ (_ - _), map_smul]

/-! ## Bodies -/

/-- `TurnedBody`, and, if `exact` holds, the angles are the same numbers. -/
def Turned (exact : Prop) (theta : ℝ) (shift : ℝ × ℝ) (a b : Agent) : Prop :=
  ∃ phi phi0, AngleTurned theta a.orientation phi ∧ AngleTurned theta a.targetOrientation phi0 ∧
    (exact → phi = a.orientation ∧ phi0 = a.targetOrientation) ∧
    b = { (turnMotion theta shift).agent a with
      positionLs := (turnMotion theta shift).point a.positionLs
      positionRs := (turnMotion theta shift).point a.positionRs
      orientation := phi
      targetOrientation := phi0 }

variable {exact : Prop} {theta : ℝ} {shift : ℝ × ℝ} {perm : Equiv.Perm (Fin n)}

lemma Turned.circles {a b : Agent} (h : Turned exact theta shift a b) :
    b.circles = fun p => (turnMotion theta shift).point (a.circles p) := by
  obtain ⟨phi, phi0, -, -, -, rfl⟩ := h
  funext p
  fin_cases p <;> rfl

lemma Turned.radii {a b : Agent} (h : Turned exact theta shift a b) : b.radii = a.radii := by
  obtain ⟨phi, phi0, -, -, -, rfl⟩ := h
  rfl

lemma Turned.velocity {a b : Agent} (h : Turned exact theta shift a b) :
    b.velocity = (turnMotion theta shift).lin a.velocity := by
  obtain ⟨phi, phi0, -, -, -, rfl⟩ := h
  rfl

lemma Turned.offset {a b : Agent} (h : Turned exact theta shift a b) (p : Fin 3) :
    contactOffset b p = (turnMotion theta shift).lin (contactOffset a p) := by
  obtain ⟨phi, phi0, h1, -, -, rfl⟩ := h
  have hu := turn_unit shift h1
  have key : ∀ x r : ℝ, ((r * Real.sin x, r * -Real.cos x) : Vec) = r • rotate270 (unitVector x) := by
    intro x r
    unfold rotate270 unitVector
    ext <;> simp
  have e : ((a.rTs * Real.sin phi, a.rTs * -Real.cos phi) : Vec) = (turnMotion theta shift).lin
      (a.rTs * Real.sin a.orientation, a.rTs * -Real.cos a.orientation) := by
    rw [key, key, hu, turn_rotate270, map_smul]
  unfold contactOffset
  simp only
  split_ifs
  · exact e
  · rw [← Prod.neg_mk, ← Prod.neg_mk, map_neg]
    exact congrArg Neg.neg e
  · exact (map_zero (turnMotion theta shift).lin).symm

lemma turn_truncate (v : Vec) (l : ℝ) : truncate ((turnMotion theta shift).lin v) l =
    (turnMotion theta shift).lin (truncate v l) := lin_truncate _ v l

lemma Turned.social {a b c d : Agent} (h : Turned exact theta shift a b)
    (h' : Turned exact theta shift c d) : forceSocialThreeCircle b d =
      ((turnMotion theta shift).lin (forceSocialThreeCircle a c).1,
        (turnMotion theta shift).lin (forceSocialThreeCircle a c).2) := by
  have ev : b.velocity - d.velocity = (turnMotion theta shift).lin (a.velocity - c.velocity) := by
    rw [h.velocity, h'.velocity, map_sub]
  have ex : b.position - d.position = (turnMotion theta shift).lin (a.position - c.position) := by
    have e1 := congrFun h.circles 0
    have e2 := congrFun h'.circles 0
    rw [show b.position = b.circles 0 from rfl, show d.position = d.circles 0 from rfl, e1, e2, point_sub]
    rfl
  have es : contactStep b.circles b.radii d.circles d.radii (b.velocity - d.velocity)
      (dot (b.velocity - d.velocity) (b.velocity - d.velocity)) =
      contactStep a.circles a.radii c.circles c.radii (a.velocity - c.velocity)
        (dot (a.velocity - c.velocity) (a.velocity - c.velocity)) := by
    funext s k
    unfold contactStep
    simp only [h.circles, h'.circles, h.radii, h'.radii, point_sub, ev, lin_dot]
  have em : b.mass = a.mass ∧ b.kSoc = a.kSoc ∧ b.tau0 = a.tau0 := by
    obtain ⟨phi, phi0, -, -, -, rfl⟩ := h
    exact ⟨rfl, rfl, rfl⟩
  have em' : d.mass = c.mass ∧ d.kSoc = c.kSoc ∧ d.tau0 = c.tau0 := by
    obtain ⟨phi, phi0, -, -, -, rfl⟩ := h'
    exact ⟨rfl, rfl, rfl⟩
  unfold forceSocialThreeCircle
  simp only [es]
  have ea : dot (b.velocity - d.velocity) (b.velocity - d.velocity) =
      dot (a.velocity - c.velocity) (a.velocity - c.velocity) := by rw [ev, lin_dot]
  rw [ea]
  by_cases h0 : dot (a.velocity - c.velocity) (a.velocity - c.velocity) = 0
  · simp [h0]
  · simp only [if_neg h0]
    generalize List.foldl _ _ _ = S
    cases S with
    | none => simp
    | some S =>
      simp only
      by_cases h1 : S.tau ≤ 0
      · simp [h1]
      · simp only [if_neg h1]
        have eg : gradientThreeCircle (b.position - d.position) (b.velocity - d.velocity)
            (contactOffset b S.i - contactOffset d S.j)
            (dot (a.velocity - c.velocity) (a.velocity - c.velocity)) S.b S.d =
            (turnMotion theta shift).lin (gradientThreeCircle (a.position - c.position)
              (a.velocity - c.velocity) (contactOffset a S.i - contactOffset c S.j)
              (dot (a.velocity - c.velocity) (a.velocity - c.velocity)) S.b S.d) := by
          have hg : ∀ (x v r : Vec) (a b d : ℝ), gradientThreeCircle x v r a b d =
              (1 / a) • (v - (1 / d) • (a • (x + (2 : ℝ) • r) + b • v)) := by
            intro x v r a b d
            unfold gradientThreeCircle
            ext <;> simp <;> ring
          rw [hg, hg, ex, ev, h.offset, h'.offset, ← map_sub]
          simp only [← map_smul, ← map_add, ← map_sub]
        rw [eg]
        unfold socialForces
        simp only [em.1, em.2.1, em.2.2, em'.1, em'.2.1, em'.2.2]
        rw [← map_smul, ← map_smul, ← map_neg, lin_truncate, lin_truncate]

lemma Turned.addForce {A B : Crowd n} (h : ∀ i, Turned exact theta shift (A i) (B i)) (i : Fin n)
    (f : Vec) (k : Fin n) : Turned exact theta shift (addForce A i f k)
      (CrowdDynamics.addForce B i ((turnMotion theta shift).lin f) k) := by
  unfold CrowdDynamics.addForce
  by_cases hk : k = i
  · subst hk
    rw [Function.update_self, Function.update_self]
    obtain ⟨phi, phi0, h1, h2, h3, h4⟩ := h k
    refine ⟨phi, phi0, h1, h2, h3, ?_⟩
    rw [h4]
    simp only [RigidMotion.agent, map_add]
  · rw [Function.update_of_ne hk, Function.update_of_ne hk]
    exact h k

lemma Turned.addTorque {A B : Crowd n} (h : ∀ i, Turned exact theta shift (A i) (B i)) (i : Fin n)
    (m : ℝ) (k : Fin n) : Turned exact theta shift (addTorque A i m k)
      (CrowdDynamics.addTorque B i m k) := by
  unfold CrowdDynamics.addTorque
  by_cases hk : k = i
  · subst hk
    rw [Function.update_self, Function.update_self]
    obtain ⟨phi, phi0, h1, h2, h3, h4⟩ := h k
    refine ⟨phi, phi0, h1, h2, h3, ?_⟩
    rw [h4]
    simp only [RigidMotion.agent]
  · rw [Function.update_of_ne hk, Function.update_of_ne hk]
    exact h k

lemma Turned.contact_params {a b : Agent} (h : Turned exact theta shift a b) :
    b.mu = a.mu ∧ b.kappa = a.kappa ∧ b.damping = a.damping := by
  obtain ⟨phi, phi0, -, -, -, rfl⟩ := h
  exact ⟨rfl, rfl, rfl⟩

lemma Turned.interaction {A B : Crowd n} (h : ∀ i, Turned exact theta shift (A i) (B i)) (i j k : Fin n) :
    Turned exact theta shift (interactionAgentAgentThreeCircle i j A k)
      (interactionAgentAgentThreeCircle i j B k) := by
  have hd : distanceThreeCircles (B i).circles (B i).radii (B j).circles (B j).radii =
      ⟨(distanceThreeCircles (A i).circles (A i).radii (A j).circles (A j).radii).h,
        (turnMotion theta shift).lin
          (distanceThreeCircles (A i).circles (A i).radii (A j).circles (A j).radii).n,
        (turnMotion theta shift).lin
          (distanceThreeCircles (A i).circles (A i).radii (A j).circles (A j).radii).rm0,
        (turnMotion theta shift).lin
          (distanceThreeCircles (A i).circles (A i).radii (A j).circles (A j).radii).rm1⟩ := by
    rw [(h i).circles, (h j).circles, (h i).radii, (h j).radii]
    exact turn_distance _ _ _ _ _
  have ev : (B i).velocity - (B j).velocity =
      (turnMotion theta shift).lin ((A i).velocity - (A j).velocity) := by
    rw [(h i).velocity, (h j).velocity, map_sub]
  obtain ⟨p1, p2, p3⟩ := (h i).contact_params
  obtain ⟨q1, q2, q3⟩ := (h j).contact_params
  unfold interactionAgentAgentThreeCircle
  simp only [hd, (h i).social (h j), ev, p1, p2, p3, q1, q2, q3, lin_contact]
  by_cases h1 : (distanceThreeCircles (A i).circles (A i).radii (A j).circles (A j).radii).h < sigthSoc
  · simp only [if_pos h1]
    by_cases h2 : (distanceThreeCircles (A i).circles (A i).radii (A j).circles (A j).radii).h < 0
    · simp only [if_pos h2, ← map_add, ← map_sub, turn_cross]
      exact Turned.addTorque (Turned.addTorque (Turned.addForce (Turned.addForce h i _) j _) i _) j _ k
    · simp only [if_neg h2, turn_cross]
      exact Turned.addTorque (Turned.addTorque (Turned.addForce (Turned.addForce h i _) j _) i _) j _ k
  · simp only [if_neg h1]
    exact h k

lemma Turned.wall {A B : Crowd n} (h : ∀ i, Turned exact theta shift (A i) (B i)) (i : Fin n) (w : Wall)
    (k : Fin n) : Turned exact theta shift (interactionAgentThreeCircleObstacle i w A k)
      (interactionAgentThreeCircleObstacle i
        ⟨(turnMotion theta shift).point w.p0, (turnMotion theta shift).point w.p1⟩ B k) := by
  obtain ⟨p1, p2, p3⟩ := (h i).contact_params
  unfold interactionAgentThreeCircleObstacle
  rw [(h i).circles, (h i).radii, turn_line]
  cases distanceThreeCircleLine (A i).circles (A i).radii w.p0 w.p1 with
  | none => exact h k
  | some d =>
    obtain ⟨x, m, r⟩ := d
    simp only [Option.map_some]
    split_ifs
    · rw [p1, p2, p3, (h i).velocity, lin_contact, turn_cross]
      exact Turned.addTorque (Turned.addForce h i _) i _ k
    · exact h k

lemma Turned.pairs (l : List (Fin n × Fin n)) : ∀ {A B : Crowd n},
    (∀ i, Turned exact theta shift (A i) (B i)) →
    ∀ k, Turned exact theta shift (agentAgentThreeCircle A l k) (agentAgentThreeCircle B l k) := by
  unfold agentAgentThreeCircle
  induction l with
  | nil => intro A B h k; exact h k
  | cons p l ih => intro A B h k; exact ih (Turned.interaction h p.1 p.2) k

lemma Turned.walls (l : List Wall) : ∀ {A B : Crowd n},
    (∀ i, Turned exact theta shift (A i) (B i)) →
    ∀ k, Turned exact theta shift (agentThreeCircleObstacle A l k) (agentThreeCircleObstacle B
      (l.map fun w => ⟨(turnMotion theta shift).point w.p0, (turnMotion theta shift).point w.p1⟩) k) := by
  unfold agentThreeCircleObstacle
  generalize List.finRange n = m
  induction m with
  | nil => intro A B h k; exact h k
  | cons i m ih =>
    intro A B h k
    rw [List.foldl_cons, List.foldl_cons]
    refine ih ?_ k
    clear ih
    induction l generalizing A B with
    | nil => exact h
    | cons w l ih =>
      rw [List.map_cons, List.foldl_cons, List.foldl_cons]
      exact ih (Turned.wall h i w)

/-! ## Renumbering -/

lemma walls_renumber (perm : Equiv.Perm (Fin n)) (B : Crowd n) (l : List Wall) (k : Fin n) :
    agentThreeCircleObstacle B l (perm k) = agentThreeCircleObstacle (fun i => B (perm i)) l k := by
  rw [agentThreeCircleObstacle_apply, agentThreeCircleObstacle_apply]

lemma pairs_renumber (perm : Equiv.Perm (Fin n)) (B : Crowd n) {l l' : List (Fin n × Fin n)}
    (h : l'.Perm (l.map fun p => (perm p.1, perm p.2))) (k : Fin n) :
    agentAgentThreeCircle B l' (perm k) = agentAgentThreeCircle (fun i => B (perm i)) l k := by
  rw [agentAgentThreeCircle_eq, agentAgentThreeCircle_eq]
  have e : (l'.map fun p => effectThree p B).sum (perm k) =
      (l.map fun p => effectThree p fun i => B (perm i)).sum k := by
    rw [(h.map _).sum_eq, List.map_map, effect_list_apply, effect_list_apply]
    congr 1
    refine List.map_congr_left fun p _ => ?_
    simp [effectThree, Pi.single_apply]
  unfold applyEffect
  rw [e]

/-! ## Nodes -/

/-- The same scene for `Turned`. -/
structure TurnedScene (exact : Prop) (theta : ℝ) (shift : ℝ × ℝ) (perm : Equiv.Perm (Fin n))
    (s s' : SimState n) : Prop where
  dtype : s'.agents.dtype = s.agents.dtype
  rows : ∀ i, Turned exact theta shift (s.agents.rows i) (s'.agents.rows (perm i))
  data : s'.data = s.data
  draws : s'.draws = s.draws

/-- What keeps ambiguous angles from making a difference. -/
def Clear (exact : Prop) (theta : ℝ) (s : SimState n) : Prop :=
  (exact ∧ theta = 0) ∨ ¬ exact ∧ ∀ i, (s.agents.rows i).targetAngularVelocity = 0 ∧
    (s.agents.rows i).targetDirection ≠ 0

lemma turned_node (env env' : SimEnv n) (hw : SameBodyWorld theta shift perm env env')
    (hp : SamePairs theta shift perm env env') (node : Node) (hn : Physical node) (s s' : SimState n)
    (hs : TurnedScene exact theta shift perm s s') (hk : s.agents.dtype.kind = .threeCircle)
    (hc : Clear exact theta s) :
    (node.update env' s').1 = (node.update env s).1 ∧
      TurnedScene exact theta shift perm (node.update env s).2 (node.update env' s').2 ∧
      (node.update env s).2.agents.dtype = s.agents.dtype ∧
      Clear exact theta (node.update env s).2 := by
  have hk' : s'.agents.dtype.kind = .threeCircle := by rw [hs.dtype]; exact hk
  cases node with
  | reset =>
    refine ⟨rfl, ⟨?_, fun i => ?_, hs.data, hs.draws⟩, ?_, ?_⟩
    · simp [Node.update, resetUpdate, isModel, hk, hk', hs.dtype]
    · simp only [Node.update, resetUpdate, isModel, hk, hk', decide_true, if_true]
      obtain ⟨phi, phi0, h1, h2, h3, h4⟩ := hs.rows i
      refine ⟨phi, phi0, h1, h2, h3, ?_⟩
      rw [h4]
      simp only [RigidMotion.agent]
      rw [show ((0, 0) : Vec) = 0 from rfl, map_zero]
    · simp [Node.update, resetUpdate, isModel, hk]
    · rcases hc with hc | ⟨he, hc⟩
      · exact Or.inl hc
      · refine Or.inr ⟨he, fun i => ?_⟩
        simp only [Node.update, resetUpdate, isModel, hk, decide_true, if_true]
        exact hc i
  | integrator dtMin dtMax =>
    have hdt := viewpoint_timestep (turnMotion theta shift) perm s.agents.rows s'.agents.rows
      (fun i => (hs.rows i).velocity) (fun i => by
        obtain ⟨phi, phi0, -, -, -, h⟩ := hs.rows i
        show (s'.agents.rows (perm i)).targetVelocity = _
        rw [h]
        rfl) dtMin dtMax
    have e : ∀ (s : SimState n), s.agents.dtype.kind = .threeCircle → ∀ k,
        (integratorUpdate dtMin dtMax s).agents.rows k = shouldersRow (rotationalVerletRow
          (adaptiveTimestep s.agents.rows dtMin dtMax) (translationalVerletRow
          (adaptiveTimestep s.agents.rows dtMin dtMax) (s.agents.rows k))) := by
      intro s hc k
      simp [integratorUpdate, velocityVerletIntegrator, isModel, hc, translationalVerlet, shoulders,
        rotationalVerlet]
    refine ⟨rfl, ⟨?_, fun i => ?_, ?_, hs.draws⟩, ?_, ?_⟩
    · simp [Node.update, integratorUpdate, velocityVerletIntegrator, hs.dtype]
    · simp only [Node.update]
      rw [e s hk, e s' hk', hdt]
      generalize adaptiveTimestep s.agents.rows dtMin dtMax = dt
      obtain ⟨phi, phi0, h1, h2, h3, h4⟩ := hs.rows i
      have hw' := fun x => turned_wrap (turned_add h1 x)
      refine ⟨_, phi0, hw' _, h2, fun he => ⟨by rw [(h3 he).1]; rfl, (h3 he).2⟩, ?_⟩
      rw [h4]
      have hu := fun x => turn_unit shift (hw' x)
      simp only [shouldersRow, rotationalVerletRow, translationalVerletRow, RigidMotion.agent,
        RigidMotion.point, hu, turn_rotate270, map_add, map_sub, map_smul]
      congr 1 <;> abel
    · show SimData.mk _ _ _ _ = SimData.mk _ _ _ _
      simp only [velocityVerletIntegrator, hdt, hs.data]
    · simp [Node.update, integratorUpdate, velocityVerletIntegrator]
    · rcases hc with hc | ⟨he, hc⟩
      · exact Or.inl hc
      · refine Or.inr ⟨he, fun i => ?_⟩
        simp only [Node.update]
        rw [e s hk]
        exact hc i
  | fluctuation =>
    refine ⟨rfl, ⟨?_, fun i => ?_, hs.data, ?_⟩, ?_, ?_⟩
    · simp [Node.update, CrowdDynamics.fluctuation, isModel, hk, hk', hs.dtype]
    · simp only [Node.update, CrowdDynamics.fluctuation, isModel, hk, hk', decide_true, if_true]
      obtain ⟨phi, phi0, h1, h2, h3, h4⟩ := hs.rows i
      refine ⟨phi, phi0, h1, h2, h3, ?_⟩
      have z1 := hw.world.strength s.draws i
      have z2 := hw.world.direction s.draws i
      have z3 := hw.torque s.draws i
      rw [h4, hs.draws]
      unfold forceFluctuation
      simp only [RigidMotion.agent, map_add, map_smul, z1, z2, z3]
    · simp only [Node.update, hs.draws]
    · simp [Node.update, CrowdDynamics.fluctuation, isModel, hk]
    · rcases hc with hc | ⟨he, hc⟩
      · exact Or.inl hc
      · refine Or.inr ⟨he, fun i => ?_⟩
        simp only [Node.update, CrowdDynamics.fluctuation, isModel, hk, decide_true, if_true]
        exact hc i
  | adjusting =>
    refine ⟨rfl, ⟨?_, fun i => ?_, hs.data, hs.draws⟩, ?_, ?_⟩
    · simp [Node.update, CrowdDynamics.adjusting, isModel, hk, hk', hs.dtype]
    · simp only [Node.update, CrowdDynamics.adjusting, isModel, hk, hk', decide_true, if_true,
        forceAdjustAgents, torqueAdjustAgents]
      obtain ⟨phi, phi0, h1, h2, h3, h4⟩ := hs.rows i
      refine ⟨phi, phi0, h1, h2, h3, ?_⟩
      rw [h4]
      have ht : ∀ I T w : ℝ, torqueAdjust I T phi0 phi (s.agents.rows i).targetAngularVelocity w =
          torqueAdjust I T (s.agents.rows i).targetOrientation (s.agents.rows i).orientation
            (s.agents.rows i).targetAngularVelocity w := by
        intro I T w
        rcases hc with ⟨he, -⟩ | ⟨-, hc⟩
        · rw [(h3 he).1, (h3 he).2]
        · rw [(hc i).1]
          unfold torqueAdjust
          rw [mul_zero, mul_zero]
      simp only [RigidMotion.agent, ht]
      unfold forceAdjust
      simp only [map_add, map_smul, map_sub]
    · simp [Node.update, CrowdDynamics.adjusting, isModel, hk]
    · rcases hc with hc | ⟨he, hc⟩
      · exact Or.inl hc
      · refine Or.inr ⟨he, fun i => ?_⟩
        simp only [Node.update, CrowdDynamics.adjusting, isModel, hk, decide_true, if_true,
          forceAdjustAgents, torqueAdjustAgents]
        exact hc i
  | orientation =>
    refine ⟨rfl, ⟨?_, fun i => ?_, hs.data, hs.draws⟩, ?_, ?_⟩
    · simp [Node.update, orientationUpdate, isModel, hk, hk', hs.dtype]
    · simp only [Node.update, orientationUpdate, isModel, hk, hk', decide_true, if_true,
        orientTowardsTargetDirection]
      obtain ⟨phi, phi0, h1, h2, h3, h4⟩ := hs.rows i
      have hd : (s'.agents.rows (perm i)).targetDirection =
          (turnMotion theta shift).lin (s.agents.rows i).targetDirection := by rw [h4]; rfl
      have ha : AngleTurned theta (angle (s.agents.rows i).targetDirection)
          (angle (s'.agents.rows (perm i)).targetDirection) ∧ (exact → angle (s'.agents.rows (perm i)).targetDirection =
            angle (s.agents.rows i).targetDirection) := by
        rw [hd]
        have hz : theta = 0 → (turnMotion theta shift).lin (s.agents.rows i).targetDirection =
            (s.agents.rows i).targetDirection := by
          rintro rfl
          rw [turn_apply]
          simp
        rcases hc with ⟨he, hz0⟩ | ⟨hne, hc⟩
        · rw [hz hz0]
          exact ⟨⟨0, by rw [hz0]; simp⟩, fun _ => rfl⟩
        · refine ⟨turned_angle theta shift (hc i).2, fun he => absurd he hne⟩
      refine ⟨phi, _, h1, ha.1, fun he => ⟨(h3 he).1, ha.2 he⟩, ?_⟩
      rw [h4]
      rfl
    · simp [Node.update, orientationUpdate, isModel, hk]
    · rcases hc with hc | ⟨he, hc⟩
      · exact Or.inl hc
      · refine Or.inr ⟨he, fun i => ?_⟩
        simp only [Node.update, orientationUpdate, isModel, hk, decide_true, if_true,
          orientTowardsTargetDirection]
        exact hc i
  | agentAgent c =>
    have hpos : (fun i => (s'.agents.rows i).position) =
        fun i => (turnMotion theta shift).point (s.agents.rows (perm.symm i)).position := by
      funext i
      have := congrFun (hs.rows (perm.symm i)).circles 0
      rw [Equiv.apply_symm_apply] at this
      exact this
    have e : ∀ (env : SimEnv n) (s : SimState n), s.agents.dtype.kind = .threeCircle →
        (Node.agentAgent c).update env s = (.ok (), { s with agents := { s.agents with
          rows := agentAgentThreeCircle s.agents.rows
            (env.cellPairs (fun i => (s.agents.rows i).position) c) } }) := by
      intro env s hk
      simp [Node.update, agentAgentBlockList, isModel, hk]
    rw [e env s hk, e env' s' hk', hpos]
    refine ⟨rfl, ⟨hs.dtype, fun i => ?_, hs.data, hs.draws⟩, rfl, ?_⟩
    · simp only
      rw [pairs_renumber perm _ (hp (fun i => (s.agents.rows i).position) c)]
      exact Turned.pairs _ hs.rows i
    rcases hc with hc | ⟨he, hc⟩
    · exact Or.inl hc
    · refine Or.inr ⟨he, fun i => ?_⟩
      obtain ⟨-, h2, -, -⟩ := update_keeps env (.agentAgent c) s _ _ (e env s hk)
      have h3 := ((node_still_body env (.agentAgent c) s _ _ (e env s hk) (by simp [Moves]) i).2
        (by simp [Steers])).1
      rw [← (h2 i).1.targetAngularVelocity, h3]
      exact hc i
  | agentObstacle =>
    have e : ∀ (env : SimEnv n) (s : SimState n),
        (∀ o, env.field.obstacles = some o → Supported o) → s.agents.dtype.kind = .threeCircle →
        Node.agentObstacle.update env s = (.ok (), { s with agents := { s.agents with
          rows := agentThreeCircleObstacle s.agents.rows
            ((fieldWalls env.field.obstacles).map fun w => (⟨w.1, w.2⟩ : Wall)) } }) := by
      intro env s hw hk
      simp only [Node.update, obstaclesOf_walls env hw, CrowdDynamics.agentObstacle]
      rw [if_neg (by simp [isModel, hk]), if_pos (by simp [isModel, hk])]
    have e1 := e env s hw.world.supported hk
    rw [e1, e env' s' hw.world.supported' hk']
    have hl : ((fieldWalls env'.field.obstacles).map fun w => (⟨w.1, w.2⟩ : Wall)) =
        ((fieldWalls env.field.obstacles).map fun w => (⟨w.1, w.2⟩ : Wall)).map fun w =>
          ⟨(turnMotion theta shift).point w.p0, (turnMotion theta shift).point w.p1⟩ := by
      rw [hw.world.walls, List.map_map, List.map_map]
      rfl
    rw [hl]
    refine ⟨rfl, ⟨hs.dtype, fun i => ?_, hs.data, hs.draws⟩, rfl, ?_⟩
    · simp only
      rw [walls_renumber]
      exact Turned.walls _ hs.rows i
    rcases hc with hc | ⟨he, hc⟩
    · exact Or.inl hc
    · refine Or.inr ⟨he, fun i => ?_⟩
      obtain ⟨-, h2, -, -⟩ := update_keeps env .agentObstacle s _ _ e1
      have h3 := ((node_still_body env .agentObstacle s _ _ e1 (by simp [Moves]) i).2
        (by simp [Steers])).1
      rw [← (h2 i).1.targetAngularVelocity, h3]
      exact hc i
  | abstract => exact absurd hn id
  | navigation => exact absurd hn id
  | leaderFollower => exact absurd hn id
  | herding => exact absurd hn id
  | exitDetection => exact absurd hn id
  | save => exact absurd hn id
  | insideDomain => exact absurd hn id
  | targetReached => exact absurd hn id

/-- One update. -/
lemma turned_update (env env' : SimEnv n) (hw : SameBodyWorld theta shift perm env env')
    (hp : SamePairs theta shift perm env env') (kind : ℕ → Node) (root : LTree)
    (hn : ∀ x ∈ root.postorder.map kind, Physical x) (s s' : SimState n)
    (hs : TurnedScene exact theta shift perm s s') (hk : s.agents.dtype.kind = .threeCircle)
    (hc : Clear exact theta s) (t : SimState n) (r : Except PyErr Unit)
    (h : simUpdate env kind root s = (r, t)) :
    ∃ t', simUpdate env' kind root s' = (r, t') ∧ TurnedScene exact theta shift perm t t' ∧
      t.agents.dtype = s.agents.dtype ∧ Clear exact theta t := by
  have key : ∀ (nodes : List Node) (s s' : SimState n), (∀ x ∈ nodes, Physical x) →
      TurnedScene exact theta shift perm s s' → s.agents.dtype.kind = .threeCircle → Clear exact theta s →
      (updateNodes env' nodes s').1 = (updateNodes env nodes s).1 ∧
      TurnedScene exact theta shift perm (updateNodes env nodes s).2 (updateNodes env' nodes s').2 ∧
      (updateNodes env nodes s).2.agents.dtype = s.agents.dtype ∧
      Clear exact theta (updateNodes env nodes s).2 := by
    intro nodes
    induction nodes with
    | nil => intro s s' _ hs _ hc; exact ⟨rfl, hs, rfl, hc⟩
    | cons x xs ih =>
      intro s s' hn hs hk hc
      obtain ⟨h1, h2, h3, h4⟩ := turned_node env env' hw hp x (hn x List.mem_cons_self) s s' hs hk hc
      unfold updateNodes
      obtain ⟨q, t, hq⟩ : ∃ q t, x.update env s = (q, t) := ⟨_, _, rfl⟩
      obtain ⟨q', t', hq'⟩ : ∃ q t, x.update env' s' = (q, t) := ⟨_, _, rfl⟩
      rw [hq, hq'] at h1 h2
      rw [hq] at h3 h4
      rw [hq, hq']
      simp only at h1 h2 h3 h4
      subst h1
      cases q' with
      | error e => exact ⟨rfl, h2, h3, h4⟩
      | ok u =>
        obtain ⟨g1, g2, g3, g4⟩ := ih t t' (fun y hy => hn y (List.mem_cons_of_mem _ hy)) h2
          (by rw [h3]; exact hk) h4
        exact ⟨g1, g2, g3.trans h3, g4⟩
  obtain ⟨h1, h2, h3, h4⟩ := key _ s s' hn hs hk hc
  unfold simUpdate at h ⊢
  obtain ⟨q, u, hq⟩ : ∃ q u, updateNodes env (root.postorder.map kind) s = (q, u) := ⟨_, _, rfl⟩
  obtain ⟨q', u', hq'⟩ : ∃ q u, updateNodes env' (root.postorder.map kind) s' = (q, u) :=
    ⟨_, _, rfl⟩
  rw [hq] at h
  rw [hq, hq'] at h1 h2
  rw [hq] at h3 h4
  rw [hq']
  simp only at h1 h2 h3 h4
  subst h1
  cases q' with
  | error e => cases h; exact ⟨u', rfl, h2, h3, h4⟩
  | ok x =>
    cases h
    refine ⟨_, rfl, ⟨h2.dtype, h2.rows, ?_, h2.draws⟩, h3, h4⟩
    simp only [h2.data]

/-- Any number of updates. -/
lemma turned_run (env env' : SimEnv n) (hw : SameBodyWorld theta shift perm env env')
    (hp : SamePairs theta shift perm env env') (kind : ℕ → Node) (root : LTree)
    (hn : ∀ x ∈ root.postorder.map kind, Physical x) (N : ℕ) (s s' t : SimState n)
    (hs : TurnedScene exact theta shift perm s s') (hk : s.agents.dtype.kind = .threeCircle)
    (hc : Clear exact theta s) (h : AfterUpdates (simUpdate env kind root) N s t) :
    ∃ t', AfterUpdates (simUpdate env' kind root) N s' t' ∧ TurnedScene exact theta shift perm t t' := by
  suffices H : t.agents.dtype = s.agents.dtype ∧ Clear exact theta t ∧
      ∃ t', AfterUpdates (simUpdate env' kind root) N s' t' ∧ TurnedScene exact theta shift perm t t' from
    H.2.2
  induction h with
  | zero => exact ⟨rfl, hc, s', .zero _, hs⟩
  | @succ k s u v h1 h2 ih =>
    obtain ⟨a1, a2, t', b1, b2⟩ := ih hs hk hc
    obtain ⟨v', c1, c2, c3, c4⟩ := turned_update env env' hw hp kind root hn u t' b2
      (by rw [a1]; exact hk) a2 v _ h2
    exact ⟨c3.trans a1, c4, v', .succ b1 c1, c2⟩

end CrowdDynamics
