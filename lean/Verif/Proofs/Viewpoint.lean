import Verif.Proofs.Dynamics
import Verif.Proofs.Integrator
import Verif.Spec.Viewpoint

/-!
# Forces and steps in other coordinates
-/

namespace CrowdDynamics

open Spec

variable {n : ℕ} (g : RigidMotion)

lemma lin_sq (v : Vec) : (g.lin v).1 ^ 2 + (g.lin v).2 ^ 2 = v.1 ^ 2 + v.2 ^ 2 := by
  have h := g.isometry v
  unfold len at h
  rwa [Real.sqrt_inj (by positivity) (by positivity)] at h

lemma lin_length (v : Vec) : length (g.lin v) = length v := by
  unfold length
  rw [lin_sq]

lemma lin_dot (u v : Vec) : dot (g.lin u) (g.lin v) = dot u v := by
  have h1 := lin_sq g (u + v)
  have h2 := lin_sq g u
  have h3 := lin_sq g v
  rw [map_add] at h1
  simp only [Prod.fst_add, Prod.snd_add] at h1
  unfold dot
  linarith

/-- The linear part is a rotation or a reflection. -/
lemma lin_rotate : ∃ e : ℝ, e * e = 1 ∧ ∀ v, rotate270 (g.lin v) = e • g.lin (rotate270 v) := by
  obtain ⟨p, q, hpq⟩ : ∃ p q, g.lin (1, 0) = (p, q) := ⟨_, _, rfl⟩
  obtain ⟨r, t, hrt⟩ : ∃ r t, g.lin (0, 1) = (r, t) := ⟨_, _, rfl⟩
  have h1 := lin_sq g (1, 0)
  have h2 := lin_sq g (0, 1)
  have h3 := lin_dot g (1, 0) (0, 1)
  rw [hpq] at h1
  rw [hrt] at h2
  rw [hpq, hrt] at h3
  simp only [dot] at h1 h2 h3
  have hv : ∀ v : Vec, g.lin v = (v.1 * p + v.2 * r, v.1 * q + v.2 * t) := by
    intro v
    have : v = v.1 • ((1, 0) : Vec) + v.2 • ((0, 1) : Vec) := by ext <;> simp
    conv_lhs => rw [this]
    rw [map_add, map_smul, map_smul, hpq, hrt]
    ext <;> simp
  refine ⟨p * t - q * r, ?_, fun v => ?_⟩
  · nlinarith
  · rw [hv, hv]
    unfold rotate270
    have a1 : (p * t - q * r) * p = t := by linear_combination t * h1 - q * h3
    have a2 : (p * t - q * r) * q = -r := by linear_combination p * h3 - r * h1
    have a3 : (p * t - q * r) * r = -q := by linear_combination t * h3 - q * h2
    have a4 : (p * t - q * r) * t = p := by linear_combination p * h2 - r * h3
    ext
    · simp only [Prod.smul_fst, smul_eq_mul]
      linear_combination (-v.2) * a1 + v.1 * a3
    · simp only [Prod.smul_snd, smul_eq_mul]
      linear_combination (-v.2) * a2 + v.1 * a4

lemma point_sub (p q : Vec) : g.point p - g.point q = g.lin (p - q) := by
  unfold RigidMotion.point
  rw [map_sub]
  abel

lemma div_pair (v : Vec) (c : ℝ) : ((v.1 / c, v.2 / c) : Vec) = (1 / c) • v := by
  ext <;> simp [div_eq_inv_mul]

lemma lin_contact (h : ℝ) (m v : Vec) (mu kappa damping : ℝ) :
    forceContact h (g.lin m) (g.lin v) (rotate270 (g.lin m)) mu kappa damping =
      g.lin (forceContact h m v (rotate270 m) mu kappa damping) := by
  obtain ⟨e, he, hr⟩ := lin_rotate g
  unfold forceContact
  rw [hr]
  have h1 : dot (g.lin v) (e • g.lin (rotate270 m)) = e * dot v (rotate270 m) := by
    rw [← lin_dot g v]
    unfold dot
    simp
    ring
  rw [h1, lin_dot, smul_smul, show kappa * (e * dot v (rotate270 m)) * e =
    kappa * dot v (rotate270 m) * (e * e) by ring, he, mul_one]
  simp only [map_add, map_sub, map_smul]

lemma lin_truncate (v : Vec) (l : ℝ) : truncate (g.lin v) l = g.lin (truncate v l) := by
  unfold truncate
  simp only [lin_length]
  split_ifs
  · rw [show ((v.1 * (l / length v), v.2 * (l / length v)) : Vec) = (l / length v) • v by
      ext <;> simp [mul_comm], map_smul]
    ext <;> simp [mul_comm]
  · rfl

lemma lin_gradient (x v : Vec) (a b d : ℝ) :
    gradientCircleCircle (g.lin x) (g.lin v) a b d = g.lin (gradientCircleCircle x v a b d) := by
  have h : ∀ x v : Vec, gradientCircleCircle x v a b d =
      (1 / a) • (v - (1 / d) • (b • v + a • x)) := by
    intro x v
    unfold gradientCircleCircle
    ext <;> simp <;> ring
  rw [h, h]
  simp only [map_smul, map_sub, map_add]

lemma lin_social (a b : Agent) :
    forceSocialCircular (g.agent a) (g.agent b) =
      (g.lin (forceSocialCircular a b).1, g.lin (forceSocialCircular a b).2) := by
  have e1 : (g.agent a).position - (g.agent b).position = g.lin (a.position - b.position) :=
    point_sub g _ _
  have e2 : (g.agent a).velocity - (g.agent b).velocity = g.lin (a.velocity - b.velocity) :=
    (map_sub g.lin _ _).symm
  unfold forceSocialCircular
  simp only [e1, e2, lin_dot]
  rw [show (g.agent a).radius = a.radius from rfl, show (g.agent b).radius = b.radius from rfl]
  generalize npSqrt _ = r
  cases r with
  | none => simp
  | some d =>
    simp only
    split_ifs
    · simp
    · simp
    · rw [lin_gradient]
      unfold socialForces
      simp only
      rw [show (g.agent a).mass = a.mass from rfl, show (g.agent b).mass = b.mass from rfl,
        show (g.agent a).kSoc = a.kSoc from rfl, show (g.agent b).kSoc = b.kSoc from rfl,
        show (g.agent a).tau0 = a.tau0 from rfl, show (g.agent b).tau0 = b.tau0 from rfl,
        ← map_smul, ← map_smul, ← map_neg, lin_truncate, lin_truncate]

lemma lin_pair (a b : Agent) :
    (pairForces (g.agent a) (g.agent b)).1 = g.lin (pairForces a b).1 := by
  have e1 : (g.agent a).position - (g.agent b).position = g.lin (a.position - b.position) :=
    point_sub g _ _
  have e2 : (g.agent a).velocity - (g.agent b).velocity = g.lin (a.velocity - b.velocity) :=
    (map_sub g.lin _ _).symm
  have hd : distanceCircles (g.agent a).position (g.agent a).radius (g.agent b).position
      (g.agent b).radius = ((distanceCircles a.position a.radius b.position b.radius).1,
        g.lin (distanceCircles a.position a.radius b.position b.radius).2) := by
    unfold distanceCircles
    simp only [e1, lin_length]
    refine Prod.ext rfl ?_
    simp only
    split_ifs
    · exact (map_zero g.lin).symm
    · rw [div_pair, div_pair, map_smul]
  unfold pairForces
  simp only [hd, lin_social]
  split_ifs
  · simp only
    rw [e2, map_add, lin_contact]
    rfl
  · rfl
  · exact (map_zero g.lin).symm

lemma lin_circle_line (x : Vec) (r : ℝ) (p0 p1 : Vec) :
    distanceCircleLine (g.point x) r (g.point p0) (g.point p1) =
      (distanceCircleLine x r p0 p1).map fun hm => (hm.1, g.lin hm.2) := by
  unfold distanceCircleLine
  rw [point_sub, point_sub, point_sub]
  simp only [lin_length, div_pair, ← map_smul, lin_dot]
  by_cases h0 : length (p1 - p0) = 0
  · simp [h0]
  · simp only [if_neg h0, Option.map_some, Option.some.injEq]
    by_cases h1 : -dot ((1 / length (p1 - p0)) • (p1 - p0)) (x - p1) -
        dot ((1 / length (p1 - p0)) • (p1 - p0)) (x - p0) >
        length (p1 - p0)
    · simp only [if_pos h1]
    · simp only [if_neg h1]
      by_cases h2 : -dot ((1 / length (p1 - p0)) • (p1 - p0)) (x - p1) -
          dot ((1 / length (p1 - p0)) • (p1 - p0)) (x - p0) <
          -length (p1 - p0)
      · simp only [if_pos h2]
      · simp only [if_neg h2]
        obtain ⟨e, he, hr⟩ := lin_rotate g
        have h90 : ∀ v : Vec, rotate90 v = -rotate270 v := fun v => by
          ext <;> simp [rotate90, rotate270]
        have hs : ∀ m q : Vec, dot (rotate90 (g.lin m)) (g.lin q) = e * dot (rotate90 m) q := by
          intro m q
          rw [h90, hr, h90, ← lin_dot g (-rotate270 m) q, map_neg]
          unfold dot
          simp
          ring
        rw [hs]
        have he' : e = 1 ∨ e = -1 := by
          have : (e - 1) * (e + 1) = 0 := by linarith
          rcases mul_eq_zero.1 this with h | h
          · exact Or.inl (by linarith)
          · exact Or.inr (by linarith)
        have hsign : ∀ y, npSign (e * y) = e * npSign y := by
          intro y
          unfold npSign
          rcases he' with rfl | rfl
          · simp
          · rcases lt_trichotomy y 0 with h | rfl | h
            · have : ¬ (0 < y) := not_lt.2 h.le
              simp [h, this]
            · simp
            · have : ¬ (y < 0) := not_lt.2 h.le
              simp [h, this]
        rw [hsign, h90 (g.lin _), hr]
        refine Prod.ext ?_ ?_
        · rw [abs_mul, show |e| = 1 by rcases he' with rfl | rfl <;> simp, one_mul]
        · simp only [h90, map_smul, map_neg, smul_neg, smul_smul]
          rw [show ∀ x, e * x * e = x * (e * e) by intro x; ring, he, mul_one]

lemma lin_wall (a : Agent) (w : Wall) :
    wallForce (g.agent a) ⟨g.point w.p0, g.point w.p1⟩ = g.lin (wallForce a w) := by
  have hd : distanceCircleLine (g.agent a).position (g.agent a).radius (g.point w.p0) (g.point w.p1) =
      (distanceCircleLine a.position a.radius w.p0 w.p1).map fun hm => (hm.1, g.lin hm.2) :=
    lin_circle_line g _ _ _ _
  unfold wallForce
  simp only [hd]
  cases distanceCircleLine a.position a.radius w.p0 w.p1 with
  | none => simp
  | some hm =>
    simp only [Option.map_some]
    split_ifs
    · exact lin_contact g _ _ _ _ _ _
    · exact (map_zero g.lin).symm

/-! ## The nodes -/

lemma viewpoint_timestep (perm : Equiv.Perm (Fin n)) (A B : Crowd n)
    (h : ∀ i, (B (perm i)).velocity = g.lin (A i).velocity)
    (hv : ∀ i, (B (perm i)).targetVelocity = (A i).targetVelocity) (dtMin dtMax : ℝ) :
    adaptiveTimestep B dtMin dtMax = adaptiveTimestep A dtMin dtMax := by
  have h' : ∀ j, (B j).velocity = g.lin (A (perm.symm j)).velocity := fun j => by
    rw [← h, Equiv.apply_symm_apply]
  have hz : vMaxLoop B = 0 ↔ vMaxLoop A = 0 := by
    rw [vMaxLoop_eq_zero, vMaxLoop_eq_zero]
    have key : ∀ v : Vec, g.lin v = 0 ↔ v = 0 := by
      intro v
      rw [← length_eq_zero, ← length_eq_zero, lin_length]
    constructor
    · intro hb i
      have := hb (perm i)
      rw [h] at this
      exact (key _).1 this
    · intro ha j
      rw [h' j]
      exact (key _).2 (ha _)
  have maxeq : ∀ {f k : Fin n → ℝ} {X Y : ℝ}, (∀ i, k (perm i) = f i) → IsMaxOf X f →
      IsMaxOf Y k → X = Y := by
    intro f k X Y hfk hX hY
    obtain ⟨⟨i, hi⟩, hX⟩ := hX
    obtain ⟨⟨j, hj⟩, hY⟩ := hY
    apply le_antisymm
    · rw [← hi, ← hfk]
      exact hY _
    · rw [← hj, show j = perm (perm.symm j) by simp, hfk]
      exact hX _
  rcases adaptiveTimestep_cases A dtMin dtMax with ⟨a1, a2⟩ | ⟨T, V, hT, hV, hV0, e⟩
  · rw [a2]
    unfold adaptiveTimestep
    simp [hz.2 a1]
  · rcases adaptiveTimestep_cases B dtMin dtMax with ⟨b1, b2⟩ | ⟨T', V', hT', hV', hV0', e'⟩
    · have hA := (vMaxLoop_eq_zero A).1 (hz.1 b1)
      obtain ⟨⟨i, hi⟩, -⟩ := hV
      simp only [hA i] at hi
      simp [len] at hi
      exact absurd hi hV0.ne
    · rw [e, e', maxeq hv hT hT',
        maxeq (fun i => by rw [h]; exact g.isometry _) hV hV']

lemma agent_force (a : Agent) (f : Vec) :
    g.agent { a with force := a.force + f } =
      { g.agent a with force := (g.agent a).force + g.lin f } := by
  simp only [RigidMotion.agent, map_add]

/-- One node, seen from elsewhere. -/
lemma viewpoint_node (perm : Equiv.Perm (Fin n)) (env env' : SimEnv n) (hw : SameWorld g perm env env')
    (node : Node) (hp : Physical node) (s s' : SimState n) (hs : SameScene g perm s s')
    (hk : s.agents.dtype.kind = .circular)
    (hc : ∀ c, node = .agentAgent c → 0 < c ∧
      ∀ i j, i ≠ j → 3 + ((s.agents.rows i).radius + (s.agents.rows j).radius) ≤ c) :
    (node.update env' s').1 = (node.update env s).1 ∧
      SameScene g perm (node.update env s).2 (node.update env' s').2 := by
  have hk' : s'.agents.dtype.kind = .circular := by rw [hs.dtype]; exact hk
  cases node with
  | reset =>
    refine ⟨rfl, ?_, fun i => ?_, hs.data, hs.draws⟩
    · simp [Node.update, resetUpdate, isModel, hk, hs.dtype]
    · simp only [Node.update, resetUpdate, isModel, hk, hk', reduceCtorEq, decide_false,
        Bool.false_eq_true, if_false]
      rw [hs.rows]
      simp only [RigidMotion.agent]
      rw [show ((0, 0) : Vec) = 0 from rfl, map_zero]
  | integrator dtMin dtMax =>
    have hdt := viewpoint_timestep g perm s.agents.rows s'.agents.rows
      (fun i => by rw [hs.rows]; rfl) (fun i => by rw [hs.rows]; rfl) dtMin dtMax
    have e : ∀ (s : SimState n), s.agents.dtype.kind = .circular → ∀ k,
        (integratorUpdate dtMin dtMax s).agents.rows k = translationalVerletRow
          (adaptiveTimestep s.agents.rows dtMin dtMax) (s.agents.rows k) := by
      intro s hc k
      simp [integratorUpdate, velocityVerletIntegrator, isModel, hc, translationalVerlet]
    refine ⟨rfl, ?_, fun i => ?_, ?_, hs.draws⟩
    · simp [Node.update, integratorUpdate, velocityVerletIntegrator, hs.dtype]
    · simp only [Node.update]
      rw [e s hk, e s' hk', hdt, hs.rows]
      simp only [translationalVerletRow, RigidMotion.agent, RigidMotion.point, map_add, map_smul]
      congr 1
      abel
    · show SimData.mk _ _ _ _ = SimData.mk _ _ _ _
      simp only [velocityVerletIntegrator, hdt, hs.data]
  | fluctuation =>
    refine ⟨rfl, ?_, fun i => ?_, hs.data, ?_⟩
    · simp [Node.update, CrowdDynamics.fluctuation, isModel, hk, hs.dtype]
    · simp only [Node.update, CrowdDynamics.fluctuation, isModel, hk, hk', reduceCtorEq, decide_false,
        Bool.false_eq_true, if_false]
      rw [agent_force, hs.rows, hs.draws]
      unfold forceFluctuation
      simp only [hw.strength, hw.direction, map_smul]
      rfl
    · simp only [Node.update, hs.draws]
  | adjusting =>
    refine ⟨rfl, ?_, fun i => ?_, hs.data, hs.draws⟩
    · simp [Node.update, CrowdDynamics.adjusting, isModel, hk, hs.dtype]
    · simp only [Node.update, CrowdDynamics.adjusting, isModel, hk, hk', reduceCtorEq, decide_false,
        Bool.false_eq_true, if_false, forceAdjustAgents]
      rw [agent_force, hs.rows]
      unfold forceAdjust
      simp only [map_smul, map_sub]
      rfl
  | orientation =>
    have e : ∀ (s : SimState n), s.agents.dtype.kind = .circular →
        orientationUpdate s.agents = s.agents := by
      intro s hc
      simp [orientationUpdate, isModel, hc]
    simp only [Node.update]
    rw [e s hk, e s' hk']
    exact ⟨trivial, hs⟩
  | agentAgent c =>
    obtain ⟨hc0, hsize⟩ := hc c rfl
    have hsize' : ∀ i j, i ≠ j → 3 + ((s'.agents.rows i).radius + (s'.agents.rows j).radius) ≤ c := by
      intro i j hij
      have := hsize (perm.symm i) (perm.symm j) (by simpa using hij)
      have e : ∀ i, (s'.agents.rows i).radius = (s.agents.rows (perm.symm i)).radius := by
        intro i
        have := hs.rows (perm.symm i)
        rw [Equiv.apply_symm_apply] at this
        rw [this]
        rfl
      rw [e, e]
      exact this
    obtain ⟨B, e1, e2, e3⟩ := agentAgent_forces env.cellPairs s.agents c hc0 (hw.cells _ c hc0) hk hsize
    obtain ⟨B', e1', e2', e3'⟩ := agentAgent_forces env'.cellPairs s'.agents c hc0
      (hw.cells' _ c hc0) hk' hsize'
    simp only [Node.update, e1, e1']
    refine ⟨trivial, by rw [e2, e2', hs.dtype], fun i => ?_, hs.data, hs.draws⟩
    rw [e3, e3', agent_force, hs.rows, map_sum]
    have key : ∑ j ∈ Finset.univ.erase (perm i),
        (pairForces (g.agent (s.agents.rows i)) (s'.agents.rows j)).1 =
        ∑ x ∈ Finset.univ.erase i, g.lin (pairForces (s.agents.rows i) (s.agents.rows x)).1 := ?_
    · rw [key]
    refine (Finset.sum_bij (fun j _ => perm j) (fun j hj => ?_) (fun a _ b _ h => perm.injective h)
      (fun b hb => ⟨perm.symm b, ?_, by simp⟩) (fun j _ => ?_)).symm
    · simp only [Finset.mem_erase, Finset.mem_univ, and_true] at hj ⊢
      exact fun h => hj (perm.injective h)
    · simp only [Finset.mem_erase, Finset.mem_univ, and_true] at hb ⊢
      rintro rfl
      simp at hb
    · rw [hs.rows, lin_pair]
  | agentObstacle =>
    simp only [Node.update, obstaclesOf_walls env hw.supported, obstaclesOf_walls env' hw.supported',
      CrowdDynamics.agentObstacle]
    rw [if_pos (by simp [isModel, hk']), if_pos (by simp [isModel, hk])]
    refine ⟨rfl, hs.dtype, fun i => ?_, hs.data, hs.draws⟩
    simp only
    rw [agentCircularObstacle_apply, agentCircularObstacle_apply, agent_force, hs.rows, hw.walls,
      map_list_sum]
    simp only [List.map_map]
    congr 3
    refine List.map_congr_left fun w _ => ?_
    exact lin_wall g _ ⟨w.1, w.2⟩
  | abstract => exact absurd hp id
  | navigation => exact absurd hp id
  | leaderFollower => exact absurd hp id
  | herding => exact absurd hp id
  | exitDetection => exact absurd hp id
  | save => exact absurd hp id
  | insideDomain => exact absurd hp id
  | targetReached => exact absurd hp id

/-- The nodes of an update. -/
lemma viewpoint_nodes (perm : Equiv.Perm (Fin n)) (env env' : SimEnv n)
    (hw : SameWorld g perm env env') (nodes : List Node) : ∀ (s s' : SimState n),
    (∀ x ∈ nodes, Physical x) → SameScene g perm s s' → s.agents.dtype.kind = .circular →
    (∀ c, .agentAgent c ∈ nodes → 0 < c ∧
      ∀ i j, i ≠ j → 3 + ((s.agents.rows i).radius + (s.agents.rows j).radius) ≤ c) →
    (updateNodes env' nodes s').1 = (updateNodes env nodes s).1 ∧
      SameScene g perm (updateNodes env nodes s).2 (updateNodes env' nodes s').2 := by
  induction nodes with
  | nil => intro s s' _ hs _ _; exact ⟨rfl, hs⟩
  | cons x xs ih =>
    intro s s' hp hs hk hc
    obtain ⟨h1, h2⟩ := viewpoint_node g perm env env' hw x (hp x List.mem_cons_self) s s' hs hk
      (fun c e => hc c (e ▸ List.mem_cons_self))
    unfold updateNodes
    obtain ⟨q, t, hq⟩ : ∃ q t, x.update env s = (q, t) := ⟨_, _, rfl⟩
    obtain ⟨q', t', hq'⟩ : ∃ q t, x.update env' s' = (q, t) := ⟨_, _, rfl⟩
    rw [hq, hq'] at h1 h2
    rw [hq, hq']
    simp only at h1 h2
    subst h1
    cases q' with
    | error e => exact ⟨rfl, h2⟩
    | ok u =>
      obtain ⟨a1, a2, -, -⟩ := update_keeps env x s t _ hq
      refine ih t t' (fun y hy => hp y (List.mem_cons_of_mem _ hy)) h2 (by rw [a1]; exact hk) ?_
      intro c hmem
      obtain ⟨c0, c1⟩ := hc c (List.mem_cons_of_mem _ hmem)
      refine ⟨c0, fun i j hij => ?_⟩
      rw [← (a2 i).1.radius, ← (a2 j).1.radius]
      exact c1 i j hij

end CrowdDynamics
