import Verif.Spec.GridSymmetry
import Verif.Model.RoundedRun
import Mathlib.Tactic.Ring
import Mathlib.Tactic.Linarith

/-!
# Mapping axes to axes in floating point
-/

namespace CrowdDynamics

open Spec

variable {A : Arith} {g : Vec → Vec}

/-- What is used of the eight symmetries. -/
structure AxisLike (A : Arith) (g : Vec → Vec) : Prop where
  odd : ∀ x, A.rnd (-x) = -A.rnd x
  lin : ∀ φ : ℝ → ℝ → ℝ → ℝ, (∀ x y z, φ (-x) (-y) (-z) = -φ x y z) → ∀ u v w : Vec,
    (φ (g u).1 (g v).1 (g w).1, φ (g u).2 (g v).2 (g w).2) = g (φ u.1 v.1 w.1, φ u.2 v.2 w.2)
  dot : ∀ u v, dotF A.rnd (g u) (g v) = dotF A.rnd u v
  len : ∀ u, lengthF A (g u) = lengthF A u
  turn : (∀ v, rotate90 (g v) = g (rotate90 v)) ∨ ∀ v, rotate90 (g v) = -g (rotate90 v)

theorem axisLike (h : SignFree A) (s a b : Bool) : AxisLike A (axisMap s a b) := by
  have h1 := h.rnd
  have h2 := h.hypot
  have h3 : ∀ x y, A.hypot x (-y) = A.hypot x y := fun x y => by rw [h.swap, h2, h.swap]
  refine ⟨h1, ?_, ?_, ?_, ?_⟩
  · intro φ hφ u v w
    cases s <;> cases a <;> cases b <;> simp [axisMap, hφ]
  · intro u v
    cases s <;> cases a <;> cases b <;> simp [axisMap, dotF, add_comm]
  · intro u
    cases s <;> cases a <;> cases b <;> simp [axisMap, lengthF, h2, h3, h.swap u.1 u.2]
  · cases s <;> cases a <;> cases b <;>
      first
        | (left; intro v; simp [axisMap, rotate90]; done)
        | (right; intro v; simp [axisMap, rotate90]; done)

namespace AxisLike

variable (H : AxisLike A g)

include H

theorem lin1 (φ : ℝ → ℝ) (hφ : ∀ x, φ (-x) = -φ x) (u : Vec) :
    (φ (g u).1, φ (g u).2) = g (φ u.1, φ u.2) :=
  H.lin (fun x _ _ => φ x) (fun x _ _ => hφ x) u u u

theorem lin2 (φ : ℝ → ℝ → ℝ) (hφ : ∀ x y, φ (-x) (-y) = -φ x y) (u v : Vec) :
    (φ (g u).1 (g v).1, φ (g u).2 (g v).2) = g (φ u.1 v.1, φ u.2 v.2) :=
  H.lin (fun x y _ => φ x y) (fun x y _ => hφ x y) u v v

theorem zero : g (0, 0) = (0, 0) := (H.lin1 (fun _ => 0) (by simp) (0, 0)).symm

theorem neg (u : Vec) : g (-u) = -g u := (H.lin1 (fun x => -x) (by simp) u).symm

theorem sub (u v : Vec) : vecSubF A.rnd (g u) (g v) = g (vecSubF A.rnd u v) :=
  H.lin2 (fun x y => A.rnd (x - y)) (fun x y => by rw [← H.odd]; ring_nf) u v

theorem add (u v : Vec) :
    (A.rnd ((g u).1 + (g v).1), A.rnd ((g u).2 + (g v).2)) = g (A.rnd (u.1 + v.1), A.rnd (u.2 + v.2)) :=
  H.lin2 (fun x y => A.rnd (x + y)) (fun x y => by rw [← H.odd]; ring_nf) u v

theorem div (u : Vec) (d : ℝ) :
    (A.rnd ((g u).1 / d), A.rnd ((g u).2 / d)) = g (A.rnd (u.1 / d), A.rnd (u.2 / d)) :=
  H.lin1 (fun x => A.rnd (x / d)) (fun x => by rw [← H.odd, neg_div]) u

theorem mul (u : Vec) (d : ℝ) :
    (A.rnd ((g u).1 * d), A.rnd ((g u).2 * d)) = g (A.rnd (u.1 * d), A.rnd (u.2 * d)) :=
  H.lin1 (fun x => A.rnd (x * d)) (fun x => by rw [← H.odd, neg_mul]) u

theorem turn270 : (∀ v, rotate270 (g v) = g (rotate270 v)) ∨ ∀ v, rotate270 (g v) = -g (rotate270 v) := by
  have e : ∀ v : Vec, rotate270 v = -rotate90 v := fun v => by simp [rotate90, rotate270]
  rcases H.turn with h | h
  · exact .inl fun v => by rw [e, e, h, H.neg]
  · exact .inr fun v => by rw [e, e, h, H.neg]

theorem truncate (v : Vec) (l : ℝ) : truncateF A (g v) l = g (truncateF A v l) := by
  unfold truncateF
  simp only [H.len]
  split_ifs
  · exact H.mul v _
  · rfl

theorem circles (x0 x1 : Vec) (r0 r1 : ℝ) :
    distanceCirclesF A (g x0) r0 (g x1) r1 =
      ((distanceCirclesF A x0 r0 x1 r1).1, g (distanceCirclesF A x0 r0 x1 r1).2) := by
  unfold distanceCirclesF
  simp only [H.sub, H.len]
  congr 1
  split_ifs
  · exact H.zero.symm
  · exact H.div _ _

theorem gradient (x v : Vec) (a b d : ℝ) :
    gradientCircleCircleF A.rnd (g x) (g v) a b d = g (gradientCircleCircleF A.rnd x v a b d) := by
  have o := H.odd
  refine H.lin2 (fun x v => A.rnd (A.rnd (v - A.rnd (A.rnd (A.rnd (v * b) + A.rnd (x * a)) / d)) / a))
    (fun x y => ?_) x v
  rw [neg_mul, neg_mul, o, o, ← neg_add, o, neg_div, o, sub_neg_eq_add, neg_add_eq_sub,
    ← neg_sub y, o, neg_div, o]

theorem socialParts (ai aj : Agent) (grad : Vec) (tau : ℝ) :
    socialForcesF A (mapAgent g ai) (mapAgent g aj) (g grad) tau =
      (g (socialForcesF A ai aj grad tau).1, g (socialForcesF A ai aj grad tau).2) := by
  have o := H.odd
  unfold socialForcesF
  simp only [mapAgent]
  have e1 := H.lin1 (fun x => A.rnd (A.rnd (A.rnd (-ai.mass * ai.kSoc) * x) * magnitudeF A tau ai.tau0))
    (fun x => by rw [mul_neg, o, neg_mul, o]) grad
  have e2 := H.lin1 (fun x => -A.rnd (A.rnd (A.rnd (-aj.mass * aj.kSoc) * x) * magnitudeF A tau aj.tau0))
    (fun x => by rw [mul_neg, o, neg_mul, o]) grad

  rw [e1, e2, H.truncate, H.truncate]

theorem social (ai aj : Agent) :
    forceSocialCircularF A (mapAgent g ai) (mapAgent g aj) =
      (g (forceSocialCircularF A ai aj).1, g (forceSocialCircularF A ai aj).2) := by
  have z : ((0, 0) : Vec × Vec) = (g (0 : Vec), g (0 : Vec)) := by
    have : g (0 : Vec) = 0 := H.zero
    rw [this]
  unfold forceSocialCircularF
  simp only [mapAgent, H.sub, H.dot]
  split_ifs
  · exact z
  · exact z
  · exact z
  · rw [H.gradient]
    exact H.socialParts ai aj _ _

theorem contact (h : ℝ) (n v t : Vec) (mu kappa damping : ℝ) :
    forceContactF A.rnd h (g n) (g v) (g t) mu kappa damping =
      g (forceContactF A.rnd h n v t mu kappa damping) := by
  have o := H.odd
  unfold forceContactF
  simp only [H.dot]
  refine H.lin2 (fun ni ti => A.rnd (A.rnd (-h * A.rnd (A.rnd (mu * ni) -
      A.rnd (A.rnd (kappa * dotF A.rnd v t) * ti))) + A.rnd (A.rnd (damping * dotF A.rnd v n) * ni)))
    (fun x y => ?_) n t
  rw [mul_neg, mul_neg, mul_neg, o, o, o, neg_sub_neg, ← neg_sub (A.rnd (mu * x)), o, mul_neg, o, ← neg_add, o]

theorem contact_flip (h : ℝ) (n v t : Vec) (mu kappa damping : ℝ) :
    forceContactF A.rnd h n v (-t) mu kappa damping = forceContactF A.rnd h n v t mu kappa damping := by
  have o := H.odd
  have e : dotF A.rnd v (-t) = -dotF A.rnd v t := by
    unfold dotF
    rw [Prod.fst_neg, Prod.snd_neg, mul_neg, mul_neg, o, o, ← neg_add, o]
  unfold forceContactF
  simp only [e, Prod.fst_neg, Prod.snd_neg, mul_neg, o, neg_mul, neg_neg]

theorem contact_turned (h : ℝ) (n v : Vec) (mu kappa damping : ℝ) :
    forceContactF A.rnd h (g n) (g v) (rotate270 (g n)) mu kappa damping =
      g (forceContactF A.rnd h n v (rotate270 n) mu kappa damping) := by
  rcases H.turn270 with e | e
  · rw [e, H.contact]
  · rw [e, H.contact_flip, H.contact]

theorem pair (ai aj : Agent) :
    pairForcesF A (mapAgent g ai) (mapAgent g aj) = (pairForcesF A ai aj).map fun f => (g f.1, g f.2) := by
  have hs := H.social ai aj
  unfold pairForcesF
  simp only [hs]
  simp only [mapAgent, H.circles, H.sub, H.contact_turned]
  split_ifs
  · rw [Option.map_some, H.add,
      H.lin2 (fun x y => A.rnd (x - y)) (fun x y => by rw [← H.odd]; ring_nf)]
  · rfl
  · rfl

theorem push {n : ℕ} (agents : Crowd n) (i : Fin n) (f : Vec) :
    addForceF A.rnd (fun k => mapAgent g (agents k)) i (g f) =
      fun k => mapAgent g (addForceF A.rnd agents i f k) := by
  funext k
  unfold addForceF
  by_cases hk : k = i
  · subst hk
    simp only [Function.update_self, mapAgent, H.add]
  · simp only [Function.update_of_ne hk]

theorem interaction {n : ℕ} (agents : Crowd n) (i j : Fin n) :
    interactionAgentAgentCircularF A i j (fun k => mapAgent g (agents k)) =
      fun k => mapAgent g (interactionAgentAgentCircularF A i j agents k) := by
  unfold interactionAgentAgentCircularF
  rw [H.pair]
  cases h : pairForcesF A (agents i) (agents j) with
  | none => rfl
  | some f => simp only [Option.map_some, H.push]

theorem interactions {n : ℕ} (pairs : List (Fin n × Fin n)) (agents : Crowd n) :
    agentAgentCircularF A (fun k => mapAgent g (agents k)) pairs =
      fun k => mapAgent g (agentAgentCircularF A agents pairs k) := by
  unfold agentAgentCircularF
  induction pairs generalizing agents with
  | nil => rfl
  | cons p ps ih => rw [List.foldl_cons, List.foldl_cons, H.interaction, ih]

theorem unit (q : Vec) (d : ℝ) : unitF A.rnd (g q) d = (unitF A.rnd q d).map g := by
  unfold unitF
  split_ifs
  · rfl
  · rw [Option.map_some, H.div]

theorem line (x : Vec) (r : ℝ) (p0 p1 : Vec) :
    distanceCircleLineF A (g x) r (g p0) (g p1) =
      (distanceCircleLineF A x r p0 p1).map fun q => (q.1, q.2.map g) := by
  have o := H.odd
  unfold distanceCircleLineF
  simp only [H.sub, H.len, H.div, H.dot, H.unit]
  split_ifs with h1 h2 h3
  · rfl
  · rfl
  · rfl
  · obtain ⟨T, hT⟩ : ∃ T : Vec, (A.rnd ((vecSubF A.rnd p1 p0).1 / lengthF A (vecSubF A.rnd p1 p0)),
      A.rnd ((vecSubF A.rnd p1 p0).2 / lengthF A (vecSubF A.rnd p1 p0))) = T := ⟨_, rfl⟩
    rw [hT]
    have hsm : ∀ (c : ℝ) (v : Vec), c • g v = g (c • v) := fun c v =>
      H.lin1 (fun x => c * x) (fun x => by ring) v
    have hneg : ∀ u v : Vec, dotF A.rnd (-u) v = -dotF A.rnd u v := by
      intro u v
      unfold dotF
      rw [Prod.fst_neg, Prod.snd_neg, neg_mul, neg_mul, o, o, ← neg_add, o]
    have hsign : ∀ x : ℝ, npSign (-x) = -npSign x := by
      intro x
      unfold npSign
      rcases lt_trichotomy x 0 with h | h | h
      · simp [h, not_lt.2 h.le]
      · simp [h]
      · simp [h, not_lt.2 h.le]
    rcases H.turn with e | e
    · rw [e, H.dot, hsm]
      rfl
    · rw [e, hneg, H.dot, abs_neg, hsign, neg_smul, smul_neg, neg_neg, hsm]
      rfl

theorem obstacle {n : ℕ} (agents : Crowd n) (i : Fin n) (w : Wall) :
    interactionAgentCircularObstacleF A i (mapWall g w) (fun k => mapAgent g (agents k)) =
      (interactionAgentCircularObstacleF A i w agents).map fun c k => mapAgent g (c k) := by
  have hl := H.line (agents i).position (agents i).radius w.p0 w.p1
  unfold interactionAgentCircularObstacleF
  simp only [mapWall]
  simp only [show (mapAgent g (agents i)).position = g (agents i).position from rfl,
    show (mapAgent g (agents i)).radius = (agents i).radius from rfl,
    show (mapAgent g (agents i)).velocity = g (agents i).velocity from rfl,
    show (mapAgent g (agents i)).mu = (agents i).mu from rfl,
    show (mapAgent g (agents i)).kappa = (agents i).kappa from rfl,
    show (mapAgent g (agents i)).damping = (agents i).damping from rfl, hl]
  rcases distanceCircleLineF A (agents i).position (agents i).radius w.p0 w.p1 with _ | ⟨h, q⟩
  · rfl
  · simp only [Option.map_some]
    split_ifs
    · cases q with
      | none => rfl
      | some q => simp only [Option.map_some, H.contact_turned, H.push]
    · rfl

theorem obstacles {n : ℕ} (walls : List Wall) (agents : Crowd n) :
    agentCircularObstacleF A (fun k => mapAgent g (agents k)) (walls.map (mapWall g)) =
      (agentCircularObstacleF A agents walls).map fun c k => mapAgent g (c k) := by
  have inner : ∀ (i : Fin n) (ws : List Wall) (c : Crowd n),
      (ws.map (mapWall g)).foldlM (fun c w => interactionAgentCircularObstacleF A i w c)
        (fun k => mapAgent g (c k)) =
      (ws.foldlM (fun c w => interactionAgentCircularObstacleF A i w c) c).map
        fun c k => mapAgent g (c k) := by
    intro i ws
    induction ws with
    | nil => intro c; rfl
    | cons w ws ih =>
      intro c
      rw [List.map_cons, List.foldlM_cons, List.foldlM_cons, H.obstacle]
      cases h : interactionAgentCircularObstacleF A i w c with
      | none => rfl
      | some d => exact ih d
  unfold agentCircularObstacleF
  generalize List.finRange n = is
  induction is generalizing agents with
  | nil => rfl
  | cons i is ih =>
    rw [List.foldlM_cons, List.foldlM_cons, inner]
    cases h : walls.foldlM (fun c w => interactionAgentCircularObstacleF A i w c) agents with
    | none => rfl
    | some d => exact ih d

theorem timestep {n : ℕ} (agents : Crowd n) (dtMin dtMax : ℝ) :
    adaptiveTimestepF A (fun k => mapAgent g (agents k)) dtMin dtMax =
      adaptiveTimestepF A agents dtMin dtMax := by
  have e : vMaxLoopF A (fun k => mapAgent g (agents k)) = vMaxLoopF A agents := by
    unfold vMaxLoopF
    simp only [mapAgent, H.len]
  unfold adaptiveTimestepF
  rw [e]
  rfl

theorem adjust (a : Agent) : forceAdjustRowF A.rnd (mapAgent g a) = mapAgent g (forceAdjustRowF A.rnd a) := by
  have o := H.odd
  have e := H.lin (fun f e v => A.rnd (f + forceAdjustF A.rnd a.mass a.tauAdj a.targetVelocity e v))
    (fun x y z => by
      unfold forceAdjustF
      rw [mul_neg, o, neg_sub_neg, ← neg_sub (A.rnd (a.targetVelocity * y)), o, mul_neg, o, ← neg_add, o])
    a.force a.targetDirection a.velocity
  unfold forceAdjustRowF
  simp only [mapAgent]

  rw [e]

theorem verlet (dt : ℝ) (a : Agent) :
    translationalVerletRowF A.rnd dt (mapAgent g a) = mapAgent g (translationalVerletRowF A.rnd dt a) := by
  have o := H.odd
  obtain ⟨P, hP⟩ : ∃ P : Vec, (A.rnd (a.forcePrev.1 / a.mass), A.rnd (a.forcePrev.2 / a.mass)) = P := ⟨_, rfl⟩
  obtain ⟨Q, hQ⟩ : ∃ Q : Vec, (A.rnd (a.force.1 / a.mass), A.rnd (a.force.2 / a.mass)) = Q := ⟨_, rfl⟩
  have p := H.div a.forcePrev a.mass
  have q := H.div a.force a.mass
  rw [hP] at p
  rw [hQ] at q
  have e1 := H.lin (fun v o w => A.rnd (v + A.rnd (A.rnd (A.rnd (o + w) / 2) * dt)))
    (fun x y z => by
      rw [← neg_add, o, neg_div, o, neg_mul, o, ← neg_add, o]) a.velocity P Q
  obtain ⟨V, hV⟩ : ∃ V : Vec, (A.rnd (a.velocity.1 + A.rnd (A.rnd (A.rnd (P.1 + Q.1) / 2) * dt)),
    A.rnd (a.velocity.2 + A.rnd (A.rnd (A.rnd (P.2 + Q.2) / 2) * dt))) = V := ⟨_, rfl⟩
  have e2 := H.lin (fun x v a => A.rnd (x + A.rnd (A.rnd (v * dt) + halfSquareF A.rnd dt a)))
    (fun x y z => by
      unfold halfSquareF
      rw [neg_div, o, neg_mul, neg_mul, o, o, ← neg_add, o, ← neg_add, o]) a.position V Q
  rw [hV] at e1
  unfold translationalVerletRowF
  simp only [mapAgent]
  have p1 : A.rnd ((g a.forcePrev).1 / a.mass) = (g P).1 := congrArg Prod.fst p
  have p2 : A.rnd ((g a.forcePrev).2 / a.mass) = (g P).2 := congrArg Prod.snd p
  have q1 : A.rnd ((g a.force).1 / a.mass) = (g Q).1 := congrArg Prod.fst q
  have q2 : A.rnd ((g a.force).2 / a.mass) = (g Q).2 := congrArg Prod.snd q
  have P1 : A.rnd (a.forcePrev.1 / a.mass) = P.1 := congrArg Prod.fst hP
  have P2 : A.rnd (a.forcePrev.2 / a.mass) = P.2 := congrArg Prod.snd hP
  have Q1 : A.rnd (a.force.1 / a.mass) = Q.1 := congrArg Prod.fst hQ
  have Q2 : A.rnd (a.force.2 / a.mass) = Q.2 := congrArg Prod.snd hQ
  have V1 : A.rnd (a.velocity.1 + A.rnd (A.rnd (A.rnd (P.1 + Q.1) / 2) * dt)) = V.1 := congrArg Prod.fst hV
  have V2 : A.rnd (a.velocity.2 + A.rnd (A.rnd (A.rnd (P.2 + Q.2) / 2) * dt)) = V.2 := congrArg Prod.snd hV
  have w1 : A.rnd ((g a.velocity).1 + A.rnd (A.rnd (A.rnd ((g P).1 + (g Q).1) / 2) * dt)) = (g V).1 :=
    congrArg Prod.fst e1
  have w2 : A.rnd ((g a.velocity).2 + A.rnd (A.rnd (A.rnd ((g P).2 + (g Q).2) / 2) * dt)) = (g V).2 :=
    congrArg Prod.snd e1
  simp only [p1, p2, q1, q2, P1, P2, Q1, Q2, V1, V2, w1, w2]
  rw [e2]

theorem update {n : ℕ} (walls : List Wall) (dtMin dtMax : ℝ) (xi direction : Fin n → Vec)
    (pairs : List (Fin n × Fin n)) (agents : Crowd n) :
    updateF A (walls.map (mapWall g)) dtMin dtMax (fun i => g (xi i)) (fun i => g (direction i)) pairs
        (fun i => mapAgent g (agents i)) =
      (updateF A walls dtMin dtMax xi direction pairs agents).map fun c i => mapAgent g (c i) := by
  have z : g (0 : Vec) = 0 := H.zero
  have e1 : ∀ i, ({ mapAgent g (agents i) with
      targetDirection := g (direction i)
      force := (A.rnd ((mapAgent g (agents i)).force.1 + (g (xi i)).1),
        A.rnd ((mapAgent g (agents i)).force.2 + (g (xi i)).2)) } : Agent) =
      mapAgent g { agents i with
        targetDirection := direction i
        force := (A.rnd ((agents i).force.1 + (xi i).1), A.rnd ((agents i).force.2 + (xi i).2)) } := by
    intro i
    simp only [mapAgent, H.add]
  simp only at e1
  unfold updateF
  simp only [e1, H.adjust, H.interactions, H.obstacles]
  cases h : agentCircularObstacleF A _ walls with
  | none => rfl
  | some c =>
    simp only [Option.map_some, H.timestep, H.verlet]
    congr 1
    funext i
    simp only [mapAgent, z]

theorem run {n : ℕ} (walls : List Wall) (dtMin dtMax : ℝ) (xi direction : Fin n → Vec)
    (pairs : List (Fin n × Fin n)) (agents : Crowd n) (k : ℕ) :
    runF A (walls.map (mapWall g)) dtMin dtMax (fun i => g (xi i)) (fun i => g (direction i)) pairs
        (fun i => mapAgent g (agents i)) k =
      (runF A walls dtMin dtMax xi direction pairs agents k).map fun c i => mapAgent g (c i) := by
  induction k with
  | zero => rfl
  | succ k ih =>
    simp only [runF]
    rw [ih]
    cases runF A walls dtMin dtMax xi direction pairs agents k with
    | none => rfl
    | some c => exact H.update walls dtMin dtMax xi direction pairs c

end AxisLike

end CrowdDynamics
