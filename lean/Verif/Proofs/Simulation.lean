import Verif.Spec.Simulation
import Verif.Proofs.Interactions
import Verif.Proofs.Integrator
import Verif.Proofs.CollectiveMotion

/-! # Helper lemmas about the nodes of a simulation -/

namespace CrowdDynamics

open Spec

variable {n : ℕ}

lemma sameBody_refl (a : Agent) : SameBody a a := by constructor <;> rfl

lemma Spec.SameBody.trans {a b c : Agent} (h : SameBody a b) (h' : SameBody b c) : SameBody a c := by
  constructor
  · exact h.1.trans h'.1
  · exact h.2.trans h'.2
  · exact h.3.trans h'.3
  · exact h.4.trans h'.4
  · exact h.5.trans h'.5
  · exact h.6.trans h'.6
  · exact h.7.trans h'.7
  · exact h.8.trans h'.8
  · exact h.9.trans h'.9
  · exact h.10.trans h'.10
  · exact h.11.trans h'.11
  · exact h.12.trans h'.12
  · exact h.13.trans h'.13
  · exact h.14.trans h'.14
  · exact h.15.trans h'.15
  · exact h.16.trans h'.16
  · exact h.17.trans h'.17
  · exact h.18.trans h'.18
  · exact h.19.trans h'.19
  · exact h.20.trans h'.20

/-- What any node other than integrators and `InsideDomain` leaves alone. -/
structure Frame (s s' : SimState n) : Prop where
  dtype : s'.agents.dtype = s.agents.dtype
  body : ∀ i, SameBody (s.agents.rows i) (s'.agents.rows i)
  active : ∀ i, (s'.agents.rows i).active = (s.agents.rows i).active
  follower : ∀ i, (s'.agents.rows i).isFollower = true → (s.agents.rows i).isFollower = true

lemma frame_refl (s : SimState n) : Frame s s :=
  ⟨rfl, fun _ => sameBody_refl _, fun _ => rfl, fun _ h => h⟩

lemma Frame.trans {s t u : SimState n} (h : Frame s t) (h' : Frame t u) : Frame s u :=
  ⟨h'.dtype.trans h.dtype, fun i => (h.body i).trans (h'.body i),
    fun i => (h'.active i).trans (h.active i), fun i hi => h.follower i (h'.follower i hi)⟩

lemma reset_frame (a : AgentArray n) :
    (resetUpdate a).dtype = a.dtype ∧ ∀ i, (resetUpdate a).rows i =
      { a.rows i with force := 0, torque := ((resetUpdate a).rows i).torque } := by
  unfold resetUpdate
  simp only
  split_ifs <;> exact ⟨rfl, fun i => rfl⟩

lemma verlet_frame (a : AgentArray n) (dtMin dtMax : ℝ) :
    (velocityVerletIntegrator a dtMin dtMax).2.dtype = a.dtype ∧
    ∀ i, ∃ p v f o w t l r, (velocityVerletIntegrator a dtMin dtMax).2.rows i =
      { a.rows i with
        position := p
        velocity := v
        forcePrev := f
        orientation := o
        angularVelocity := w
        torquePrev := t
        positionLs := l
        positionRs := r } := by
  refine ⟨rfl, fun i => ?_⟩
  unfold velocityVerletIntegrator
  simp only
  split_ifs
  · exact ⟨_, _, _, _, _, _, _, _, rfl⟩
  · exact ⟨_, _, _, (a.rows i).orientation, (a.rows i).angularVelocity, (a.rows i).torquePrev,
      (a.rows i).positionLs, (a.rows i).positionRs, rfl⟩

lemma fluctuation_frame (phi : Fin n → ℝ) (z w : Fin n → ℝ → ℝ → ℝ) (a : AgentArray n) :
    (fluctuation phi z w a).dtype = a.dtype ∧
    ∀ i, ∃ f t, (fluctuation phi z w a).rows i = { a.rows i with force := f, torque := t } := by
  unfold fluctuation
  simp only
  split_ifs
  · exact ⟨rfl, fun i => ⟨_, _, rfl⟩⟩
  · exact ⟨rfl, fun i => ⟨_, (a.rows i).torque, rfl⟩⟩

lemma adjusting_frame (a : AgentArray n) :
    (adjusting a).dtype = a.dtype ∧
    ∀ i, ∃ f t, (adjusting a).rows i = { a.rows i with force := f, torque := t } := by
  unfold adjusting
  simp only
  split_ifs
  · exact ⟨rfl, fun i => ⟨_, _, rfl⟩⟩
  · exact ⟨rfl, fun i => ⟨_, (a.rows i).torque, rfl⟩⟩

lemma agentAgent_frame {cp : (Fin n → Vec) → ℝ → List (Fin n × Fin n)} {a a' : AgentArray n}
    {c : ℝ} (h : agentAgentBlockList cp a c = some a') :
    a'.dtype = a.dtype ∧ ∃ e, a'.rows = applyEffect a.rows e := by
  unfold agentAgentBlockList at h
  simp only at h
  split_ifs at h
  · cases h; exact ⟨rfl, _, agentAgentCircular_eq _ _⟩
  · cases h; exact ⟨rfl, _, agentAgentThreeCircle_eq _ _⟩

lemma agentObstacle_frame {a a' : AgentArray n} {ws : List Wall}
    (h : agentObstacle a ws = some a') :
    a'.dtype = a.dtype ∧ ∃ e, a'.rows = applyEffect a.rows e := by
  unfold agentObstacle at h
  split_ifs at h
  · cases h; exact ⟨rfl, _, wallLoop_eq _ _ _⟩
  · cases h; exact ⟨rfl, _, wallLoopThree_eq _ _ _⟩

lemma orientation_frame (a : AgentArray n) :
    (orientationUpdate a).dtype = a.dtype ∧
    ∀ i, ∃ o, (orientationUpdate a).rows i = { a.rows i with targetOrientation := o } := by
  unfold orientationUpdate
  split_ifs
  · exact ⟨rfl, fun i => ⟨_, rfl⟩⟩
  · exact ⟨rfl, fun i => ⟨(a.rows i).targetOrientation, rfl⟩⟩

lemma ite_direction (c : Bool) (a x : Agent) (t l : ℤ) (d : Vec)
    (h : x = { a with target := t, indexLeader := l }) :
    ∃ t l d', (if c = true then { x with targetDirection := d } else x) =
      { a with target := t, indexLeader := l, targetDirection := d' } := by
  subst h
  split_ifs
  · exact ⟨_, _, _, rfl⟩
  · exact ⟨_, _, a.targetDirection, rfl⟩

lemma leader_frame (oob : ℤ → ℤ) (argsort : List ℝ → List ℕ) (ws : List Wall) (sight : ℝ)
    (a : Crowd n) (i : Fin n) : ∃ t l d, leaderFollowerUpdate oob argsort ws sight a i =
      { a i with target := t, indexLeader := l, targetDirection := d } := by
  exact ite_direction _ (a i) _ _ _ _ rfl

lemma herding_frame {oob : ℤ → ℤ} {argsort : List ℝ → List ℕ}
    {cp : (Fin n → Vec) → ℝ → List (Fin n × Fin n)} {ws : List Wall} {sight : ℝ} {k : ℕ}
    {a a' : Crowd n} (h : leaderFollowerWithHerdingUpdate oob argsort cp ws sight k a = some a')
    (i : Fin n) : ∃ t l d, a' i = { a i with target := t, indexLeader := l, targetDirection := d } := by
  unfold leaderFollowerWithHerdingUpdate leaderFollowerWithHerdingInteraction at h
  simp only [bind, Option.bind] at h
  cases hN : findNearestNeighbors (fun i => (a i).position) sight k
      (cp (fun i => (a i).position) sight) ws with
  | none => simp [hN] at h
  | some N =>
    simp only [hN, Option.some.injEq] at h
    subst h
    exact ite_direction _ (a i) _ _ _ _ rfl

lemma exit_frame {targets : List (List Vec)} {ws : List Wall} {range : ℝ} {a a' : Crowd n}
    (h : exitDetectionUpdate targets ws range a = some a') (i : Fin n) :
    ∃ t f, a' i = { a i with target := t, isFollower := f } ∧
      (f = true → (a i).isFollower = true) := by
  unfold exitDetectionUpdate at h
  split_ifs at h
  simp only [Option.some.injEq] at h
  subst h
  simp only
  split_ifs
  · exact ⟨_, _, rfl, fun h => by simp at h⟩
  · exact ⟨(a i).target, (a i).isFollower, rfl, fun h => h⟩

lemma navLoop_frame (env : SimEnv n) (step radius strength : ℝ) (l : List ℕ) :
    ∀ (s s' : SimState n) (r : Except PyErr Unit),
      navigationLoop env step radius strength l s = (r, s') →
      s'.agents.dtype = s.agents.dtype ∧ s'.data = s.data ∧
        ∀ i, ∃ d, s'.agents.rows i = { s.agents.rows i with targetDirection := d } := by
  induction l with
  | nil =>
    intro s s' r h
    unfold navigationLoop at h
    cases h
    exact ⟨rfl, rfl, fun i => ⟨_, rfl⟩⟩
  | cons t l ih =>
    intro s s' r h
    unfold navigationLoop at h
    split_ifs at h with h0
    · exact ih s s' r h
    · obtain ⟨q, c, hq⟩ : ∃ q c, Field.navigationToTarget env.lib env.fields env.self (.int t) step
        radius strength s.caches = (q, c) := ⟨_, _, rfl⟩
      rw [hq] at h
      cases q with
      | error e => cases h; exact ⟨rfl, rfl, fun i => ⟨_, rfl⟩⟩
      | ok v =>
        simp only at h
        obtain ⟨h1, h2, h3⟩ := ih _ _ _ h
        refine ⟨h1, h2, fun i => ?_⟩
        obtain ⟨d, hd⟩ := h3 i
        rw [hd]
        refine ⟨d, ?_⟩
        simp only [SimState.withRows]
        split_ifs <;> rfl

lemma frame_of_rows {s s' : SimState n} (h : s'.agents.dtype = s.agents.dtype)
    (hr : ∀ i, SameBody (s.agents.rows i) (s'.agents.rows i) ∧
      (s'.agents.rows i).active = (s.agents.rows i).active ∧
      ((s'.agents.rows i).isFollower = true → (s.agents.rows i).isFollower = true)) : Frame s s' :=
  ⟨h, fun i => (hr i).1, fun i => (hr i).2.1, fun i => (hr i).2.2⟩

/-- A node other than `InsideDomain` keeps the frame, and the data unless it is an integrator. -/
lemma update_frame (env : SimEnv n) (node : Node) (s s' : SimState n) (r : Except PyErr Unit)
    (h : node.update env s = (r, s')) :
    (¬ IsInsideDomain node → Frame s s') ∧
    (¬ IsIntegrator node → ¬ IsInsideDomain node → s'.data = s.data) := by
  have e0 : ∀ t : Step n, node.update env s = t → s' = t.2 := by
    intro t ht
    rw [h] at ht
    rw [← ht]
  have body3 : ∀ (a : Agent) (t l : ℤ) (d : Vec),
      SameBody a { a with target := t, indexLeader := l, targetDirection := d } := by
    intros; constructor <;> rfl
  cases node with
  | abstract => cases h; exact ⟨fun _ => frame_refl s, fun _ _ => rfl⟩
  | reset =>
    cases h
    obtain ⟨h1, h2⟩ := reset_frame s.agents
    refine ⟨fun _ => frame_of_rows h1 fun i => ?_, fun _ _ => rfl⟩
    simp only
    rw [h2 i]
    exact ⟨by constructor <;> rfl, rfl, fun h => h⟩
  | integrator dtMin dtMax =>
    cases h
    obtain ⟨h1, h2⟩ := verlet_frame s.agents dtMin dtMax
    refine ⟨fun _ => frame_of_rows h1 fun i => ?_, fun hi => absurd trivial hi⟩
    obtain ⟨p, v, f, o, w, t, l, q, e⟩ := h2 i
    simp only [integratorUpdate]
    rw [e]
    exact ⟨by constructor <;> rfl, rfl, fun h => h⟩
  | fluctuation =>
    cases h
    obtain ⟨h1, h2⟩ := fluctuation_frame (env.phi s.draws) (env.z s.draws) (env.w s.draws) s.agents
    refine ⟨fun _ => frame_of_rows h1 fun i => ?_, fun _ _ => rfl⟩
    obtain ⟨f, t, e⟩ := h2 i
    simp only
    rw [e]
    exact ⟨by constructor <;> rfl, rfl, fun h => h⟩
  | adjusting =>
    cases h
    obtain ⟨h1, h2⟩ := adjusting_frame s.agents
    refine ⟨fun _ => frame_of_rows h1 fun i => ?_, fun _ _ => rfl⟩
    obtain ⟨f, t, e⟩ := h2 i
    simp only
    rw [e]
    exact ⟨by constructor <;> rfl, rfl, fun h => h⟩
  | agentAgent c =>
    simp only [Node.update] at h
    cases ha : agentAgentBlockList env.cellPairs s.agents c with
    | none => rw [ha] at h; cases h; exact ⟨fun _ => frame_refl s, fun _ _ => rfl⟩
    | some a =>
      rw [ha] at h
      cases h
      obtain ⟨h1, e, h2⟩ := agentAgent_frame ha
      refine ⟨fun _ => frame_of_rows h1 fun i => ?_, fun _ _ => rfl⟩
      simp only
      rw [h2]
      exact ⟨by constructor <;> rfl, rfl, fun h => h⟩
  | agentObstacle =>
    simp only [Node.update] at h
    cases ho : obstaclesOf env with
    | error e => rw [ho] at h; cases h; exact ⟨fun _ => frame_refl s, fun _ _ => rfl⟩
    | ok ws =>
      rw [ho] at h
      simp only at h
      cases ha : CrowdDynamics.agentObstacle s.agents ws with
      | none => rw [ha] at h; cases h; exact ⟨fun _ => frame_refl s, fun _ _ => rfl⟩
      | some a =>
        rw [ha] at h
        cases h
        obtain ⟨h1, e, h2⟩ := agentObstacle_frame ha
        refine ⟨fun _ => frame_of_rows h1 fun i => ?_, fun _ _ => rfl⟩
        simp only
        rw [h2]
        exact ⟨by constructor <;> rfl, rfl, fun h => h⟩
  | navigation step radius strength =>
    obtain ⟨h1, h2, h3⟩ := navLoop_frame env step radius strength _ s s' r h
    refine ⟨fun _ => frame_of_rows h1 fun i => ?_, fun _ _ => h2⟩
    obtain ⟨d, e⟩ := h3 i
    rw [e]
    exact ⟨by constructor <;> rfl, rfl, fun h => h⟩
  | leaderFollower sight =>
    simp only [Node.update] at h
    cases ho : obstaclesOf env with
    | error e => rw [ho] at h; cases h; exact ⟨fun _ => frame_refl s, fun _ _ => rfl⟩
    | ok ws =>
      rw [ho] at h
      cases h
      refine ⟨fun _ => frame_of_rows rfl fun i => ?_, fun _ _ => rfl⟩
      obtain ⟨t, l, d, e⟩ := leader_frame env.oob env.argsort ws sight s.agents.rows i
      simp only [SimState.withRows]
      rw [e]
      exact ⟨body3 _ _ _ _, rfl, fun h => h⟩
  | herding sight size =>
    simp only [Node.update] at h
    cases ho : obstaclesOf env with
    | error e => rw [ho] at h; cases h; exact ⟨fun _ => frame_refl s, fun _ _ => rfl⟩
    | ok ws =>
      rw [ho] at h
      simp only at h
      cases ha : leaderFollowerWithHerdingUpdate env.oob env.argsort env.cellPairs ws sight size
          s.agents.rows with
      | none => rw [ha] at h; cases h; exact ⟨fun _ => frame_refl s, fun _ _ => rfl⟩
      | some a =>
        rw [ha] at h
        cases h
        refine ⟨fun _ => frame_of_rows rfl fun i => ?_, fun _ _ => rfl⟩
        obtain ⟨t, l, d, e⟩ := herding_frame ha i
        simp only [SimState.withRows]
        rw [e]
        exact ⟨body3 _ _ _ _, rfl, fun h => h⟩
  | exitDetection range =>
    simp only [Node.update] at h
    cases ht : targetArrays env env.field.targets with
    | error e => rw [ht] at h; cases h; exact ⟨fun _ => frame_refl s, fun _ _ => rfl⟩
    | ok arrays =>
      rw [ht] at h
      simp only at h
      split_ifs at h with h0
      · cases h; exact ⟨fun _ => frame_refl s, fun _ _ => rfl⟩
      · cases ho : obstaclesOf env with
        | error e => rw [ho] at h; cases h; exact ⟨fun _ => frame_refl s, fun _ _ => rfl⟩
        | ok ws =>
          rw [ho] at h
          simp only at h
          cases ha : exitDetectionUpdate arrays ws range s.agents.rows with
          | none => rw [ha] at h; cases h; exact ⟨fun _ => frame_refl s, fun _ _ => rfl⟩
          | some a =>
            rw [ha] at h
            cases h
            refine ⟨fun _ => frame_of_rows rfl fun i => ?_, fun _ _ => rfl⟩
            obtain ⟨t, f, e, hf⟩ := exit_frame ha i
            simp only [SimState.withRows]
            rw [e]
            exact ⟨by constructor <;> rfl, rfl, hf⟩
  | orientation =>
    cases h
    obtain ⟨h1, h2⟩ := orientation_frame s.agents
    refine ⟨fun _ => frame_of_rows h1 fun i => ?_, fun _ _ => rfl⟩
    obtain ⟨o, e⟩ := h2 i
    simp only
    rw [e]
    exact ⟨by constructor <;> rfl, rfl, fun h => h⟩
  | save outcome =>
    simp only [Node.update] at h
    cases ho : outcome s.data.iterations with
    | none => rw [ho] at h; cases h; exact ⟨fun _ => frame_refl s, fun _ _ => rfl⟩
    | some e => rw [ho] at h; cases h; exact ⟨fun _ => frame_refl s, fun _ _ => rfl⟩
  | insideDomain path =>
    exact ⟨fun hi => absurd trivial hi, fun _ hi => absurd trivial hi⟩
  | targetReached paths =>
    simp only [Node.update] at h
    split_ifs at h <;> (cases h; exact ⟨fun _ => frame_refl s, fun _ _ => rfl⟩)

/-- What `InsideDomain` does. -/
lemma insideDomain_frame (env : SimEnv n) (path : List Vec) (s s' : SimState n)
    (r : Except PyErr Unit) (h : (Node.insideDomain path).update env s = (r, s')) :
    s'.agents.dtype = s.agents.dtype ∧
    (∀ i, s'.agents.rows i =
      { s.agents.rows i with active := env.contains path (s.agents.rows i).position }) ∧
    s'.data.iterations = s.data.iterations ∧ s'.data.timeTot = s.data.timeTot ∧
    s'.data.dt = s.data.dt := by
  simp only [Node.update, insideDomainUpdate] at h
  cases hi : s.data.inactive with
  | none => rw [hi] at h; cases h; exact ⟨rfl, fun i => rfl, rfl, rfl, rfl⟩
  | some k => rw [hi] at h; cases h; exact ⟨rfl, fun i => rfl, rfl, rfl, rfl⟩

/-- What every node keeps. -/
lemma update_keeps (env : SimEnv n) (node : Node) (s s' : SimState n) (r : Except PyErr Unit)
    (h : node.update env s = (r, s')) :
    s'.agents.dtype = s.agents.dtype ∧
    (∀ i, SameBody (s.agents.rows i) (s'.agents.rows i) ∧
      ((s'.agents.rows i).isFollower = true → (s.agents.rows i).isFollower = true)) ∧
    s'.data.iterations = s.data.iterations ∧
    (¬ IsIntegrator node → s'.data.timeTot = s.data.timeTot ∧ s'.data.dt = s.data.dt) := by
  by_cases hd : IsInsideDomain node
  · cases node with
    | insideDomain path =>
      obtain ⟨h1, h2, h3, h4, h5⟩ := insideDomain_frame env path s s' r h
      refine ⟨h1, fun i => ?_, h3, fun _ => ⟨h4, h5⟩⟩
      rw [h2 i]
      exact ⟨by constructor <;> rfl, fun h => h⟩
    | _ => exact absurd hd id
  · obtain ⟨h1, h2⟩ := update_frame env node s s' r h
    have hf := h1 hd
    refine ⟨hf.dtype, fun i => ⟨hf.body i, hf.follower i⟩, ?_, fun hn => ?_⟩
    · by_cases hi : IsIntegrator node
      · cases node with
        | integrator a b => cases h; rfl
        | _ => exact absurd hi id
      · rw [h2 hi hd]
    · rw [h2 hn hd]; exact ⟨rfl, rfl⟩

lemma nodes_keep (env : SimEnv n) (nodes : List Node) :
    ∀ (s s' : SimState n) (r : Except PyErr Unit), updateNodes env nodes s = (r, s') →
    s'.agents.dtype = s.agents.dtype ∧
    (∀ i, SameBody (s.agents.rows i) (s'.agents.rows i) ∧
      ((s'.agents.rows i).isFollower = true → (s.agents.rows i).isFollower = true)) ∧
    s'.data.iterations = s.data.iterations ∧
    ((∀ x ∈ nodes, ¬ IsIntegrator x) → s'.data.timeTot = s.data.timeTot ∧
      s'.data.dt = s.data.dt) := by
  induction nodes with
  | nil =>
    intro s s' r h
    unfold updateNodes at h
    cases h
    exact ⟨rfl, fun i => ⟨sameBody_refl _, fun h => h⟩, rfl, fun _ => ⟨rfl, rfl⟩⟩
  | cons x xs ih =>
    intro s s' r h
    unfold updateNodes at h
    obtain ⟨q, t, hq⟩ : ∃ q t, x.update env s = (q, t) := ⟨_, _, rfl⟩
    rw [hq] at h
    obtain ⟨a1, a2, a3, a4⟩ := update_keeps env x s t q hq
    cases q with
    | error e =>
      simp only at h
      cases h
      exact ⟨a1, a2, a3, fun hx => a4 (hx x List.mem_cons_self)⟩
    | ok u =>
      simp only at h
      obtain ⟨b1, b2, b3, b4⟩ := ih t s' r h
      refine ⟨b1.trans a1, fun i => ⟨(a2 i).1.trans (b2 i).1, fun hi => (a2 i).2 ((b2 i).2 hi)⟩,
        b3.trans a3, fun hx => ?_⟩
      obtain ⟨c1, c2⟩ := a4 (hx x List.mem_cons_self)
      obtain ⟨d1, d2⟩ := b4 fun y hy => hx y (List.mem_cons_of_mem _ hy)
      exact ⟨d1.trans c1, d2.trans c2⟩

lemma updateNodes_append (env : SimEnv n) (l l' : List Node) (s : SimState n) :
    updateNodes env (l ++ l') s = match updateNodes env l s with
      | (.error e, s) => (.error e, s)
      | (.ok (), s) => updateNodes env l' s := by
  induction l generalizing s with
  | nil => rfl
  | cons x xs ih =>
    simp only [List.cons_append, updateNodes]
    obtain ⟨q, t, hq⟩ : ∃ q t, x.update env s = (q, t) := ⟨_, _, rfl⟩
    rw [hq]
    cases q with
    | error e => rfl
    | ok u => exact ih t

lemma timestep_bounds (a : Crowd n) {dtMin dtMax : ℝ} (h : dtMin ≤ dtMax) :
    dtMin ≤ adaptiveTimestep a dtMin dtMax ∧ adaptiveTimestep a dtMin dtMax ≤ dtMax := by
  unfold adaptiveTimestep
  simp only
  split_ifs with h1 h2 h3
  · exact ⟨h, le_refl _⟩
  · exact ⟨h, le_refl _⟩
  · exact ⟨le_refl _, h⟩
  · exact ⟨not_lt.1 h3, not_lt.1 h2⟩

/-- The nodes of a simulation with one integrator advance the time by the step in `data`. -/
lemma nodes_time (env : SimEnv n) {nodes : List Node} {dtMin dtMax : ℝ}
    (h1 : OneIntegrator nodes dtMin dtMax) (hd : dtMin ≤ dtMax) (s s' : SimState n)
    (r : Except PyErr Unit) (h : updateNodes env nodes s = (r, s')) :
    (s'.data.timeTot = s.data.timeTot + s'.data.dt ∧ dtMin ≤ s'.data.dt ∧ s'.data.dt ≤ dtMax) ∨
    (r ≠ .ok () ∧ s'.data.timeTot = s.data.timeTot ∧ s'.data.dt = s.data.dt) := by
  obtain ⟨before, after, rfl, hb, ha⟩ := h1
  rw [updateNodes_append] at h
  obtain ⟨q, t, hq⟩ : ∃ q t, updateNodes env before s = (q, t) := ⟨_, _, rfl⟩
  obtain ⟨b1, b2⟩ := (nodes_keep env before s t q hq).2.2.2 hb
  rw [hq] at h
  cases q with
  | error e =>
    cases h
    exact Or.inr ⟨by simp, b1, b2⟩
  | ok u =>
    left
    simp only [updateNodes, Node.update] at h
    obtain ⟨c1, c2⟩ := (nodes_keep env after _ s' r h).2.2.2 ha
    have e : s'.data.dt = adaptiveTimestep t.agents.rows dtMin dtMax := c2
    rw [c1, e, ← b1]
    exact ⟨rfl, timestep_bounds _ hd⟩

lemma simUpdate_spec (env : SimEnv n) (kind : ℕ → Node) (root : LTree) (s s' : SimState n)
    (r : Except PyErr Unit) (h : simUpdate env kind root s = (r, s')) :
    ∃ t, updateNodes env (root.postorder.map kind) s = (r, t) ∧ s'.agents = t.agents ∧
      s'.data.timeTot = t.data.timeTot ∧ s'.data.dt = t.data.dt ∧
      s'.data.inactive = t.data.inactive ∧ s'.caches = t.caches ∧ s'.draws = t.draws ∧
      s'.data.iterations = s.data.iterations + (if r = .ok () then 1 else 0) := by
  unfold simUpdate at h
  obtain ⟨q, t, hq⟩ : ∃ q t, updateNodes env (root.postorder.map kind) s = (q, t) := ⟨_, _, rfl⟩
  have hk := (nodes_keep env _ s t q hq).2.2.1
  rw [hq] at h
  cases q with
  | error e =>
    cases h
    exact ⟨_, hq, rfl, rfl, rfl, rfl, rfl, rfl, by rw [hk]; simp⟩
  | ok u =>
    cases h
    exact ⟨t, hq, rfl, rfl, rfl, rfl, rfl, rfl, by simp only; rw [hk]; simp⟩

/-- The run of a simulation as a sequence of completed updates. -/
lemma simRun_spec {σ : Type} (update : σ → Except PyErr Unit × σ) (exit : Option (ℕ → σ → Bool))
    (fuel : ℕ) : ∀ (call : ℕ) (s s' : σ) (r : Except PyErr Unit),
    simRun update exit fuel call s = some (r, s') →
    ∃ m states, Completed update (exit.map fun c k => c (call + k)) s m states ∧
      ((r = .ok () ∧ s' = states m ∧ ExitHolds exit (call + m) s') ∨
       ∃ e, r = .error e ∧ ¬ ExitHolds exit (call + m) (states m) ∧
        update (states m) = (.error e, s')) := by
  induction fuel with
  | zero => intro call s s' r h; simp [simRun] at h
  | succ fuel ih =>
    intro call s s' r h
    unfold simRun at h
    have hx : ∀ k t, (exit.elim false (fun c => c k t)) = true ↔ ExitHolds exit k t := by
      intro k t
      unfold ExitHolds
      cases exit with
      | none => simp
      | some c => simp
    split_ifs at h with h0
    · cases h
      exact ⟨0, fun _ => s, ⟨rfl, fun k hk => absurd hk (Nat.not_lt_zero _),
        fun k hk => absurd hk (Nat.not_lt_zero _)⟩, Or.inl ⟨rfl, rfl, (hx call s).1 h0⟩⟩
    · have h0' : ¬ ExitHolds exit call s := fun hh => h0 ((hx call s).2 hh)
      obtain ⟨q, t, hq⟩ : ∃ q t, update s = (q, t) := ⟨_, _, rfl⟩
      rw [hq] at h
      cases q with
      | error e =>
        cases h
        exact ⟨0, fun _ => s, ⟨rfl, fun k hk => absurd hk (Nat.not_lt_zero _),
          fun k hk => absurd hk (Nat.not_lt_zero _)⟩, Or.inr ⟨e, rfl, h0', hq⟩⟩
      | ok u =>
        simp only at h
        obtain ⟨m, states, hc, hr⟩ := ih (call + 1) t s' r h
        refine ⟨m + 1, fun k => match k with | 0 => s | k + 1 => states k, ⟨rfl, ?_, ?_⟩, ?_⟩
        · intro k hk
          cases k with
          | zero => simp only; rw [hc.first]; exact hq
          | succ k => exact hc.next k (by omega)
        · intro k hk
          cases k with
          | zero =>
            rintro ⟨c, hc, hc'⟩
            cases exit with
            | none => simp at hc
            | some c0 =>
              simp only [Option.map_some, Option.some.injEq] at hc
              subst hc
              exact h0' ⟨c0, rfl, hc'⟩
          | succ k =>
            intro hh
            apply hc.open_ k (by omega)
            obtain ⟨c, hc, hc'⟩ := hh
            cases exit with
            | none => simp at hc
            | some c0 =>
              simp only [Option.map_some, Option.some.injEq] at hc
              subst hc
              refine ⟨_, rfl, ?_⟩
              simp only at hc' ⊢
              rw [← hc']
              congr 1
              omega
        · have e : call + 1 + m = call + (m + 1) := by omega
          rw [e] at hr
          exact hr

/-! ## The flags `active` are read by no other node -/

/-- A step whose result gets other flags. -/
def Step.mapActive (b : Fin n → Bool) (r : Step n) : Step n := (r.1, setActive b r.2)

/-- Rows with other flags. -/
def flagged (b : Fin n → Bool) (rows : Crowd n) : Crowd n := fun i =>
  { rows i with active := b i }

lemma setActive_agents (b : Fin n → Bool) (s : SimState n) :
    (setActive b s).agents = ⟨s.agents.dtype, flagged b s.agents.rows⟩ := rfl

lemma effectCirc_flagged (b : Fin n → Bool) (p : Fin n × Fin n) (rows : Crowd n) :
    effectCirc p (flagged b rows) = effectCirc p rows := rfl

lemma effectThree_flagged (b : Fin n → Bool) (p : Fin n × Fin n) (rows : Crowd n) :
    effectThree p (flagged b rows) = effectThree p rows := rfl

lemma applyEffect_flagged (b : Fin n → Bool) (rows : Crowd n) (e : Effect n) :
    applyEffect (flagged b rows) e = flagged b (applyEffect rows e) := rfl

lemma agentAgentBlockList_flagged (cp : (Fin n → Vec) → ℝ → List (Fin n × Fin n)) (c : ℝ)
    (b : Fin n → Bool) (d : DtypeObj) (rows : Crowd n) :
    agentAgentBlockList cp ⟨d, flagged b rows⟩ c =
      (agentAgentBlockList cp ⟨d, rows⟩ c).map fun a => ⟨a.dtype, flagged b a.rows⟩ := by
  have e : ∀ m, isModel ⟨d, flagged b rows⟩ m = isModel ⟨d, rows⟩ m := fun m => rfl
  unfold agentAgentBlockList
  simp only [e]
  split_ifs
  · rw [agentAgentCircular_eq, agentAgentCircular_eq]
    simp only [effectCirc_flagged, applyEffect_flagged]
    rfl
  · rw [agentAgentThreeCircle_eq, agentAgentThreeCircle_eq]
    simp only [effectThree_flagged, applyEffect_flagged]
    rfl
  · rfl

lemma wallForce_flagged (b : Fin n → Bool) (rows : Crowd n) (i : Fin n) (w : Wall) :
    wallForce (flagged b rows i) w = wallForce (rows i) w := rfl

lemma wallForceThree_flagged (b : Fin n → Bool) (rows : Crowd n) (i : Fin n) (w : Wall) :
    wallForceThree (flagged b rows i) w = wallForceThree (rows i) w := rfl

lemma agentObstacle_flagged (ws : List Wall) (b : Fin n → Bool) (d : DtypeObj) (rows : Crowd n) :
    agentObstacle ⟨d, flagged b rows⟩ ws =
      (agentObstacle ⟨d, rows⟩ ws).map fun a => ⟨a.dtype, flagged b a.rows⟩ := by
  have e : ∀ m, isModel ⟨d, flagged b rows⟩ m = isModel ⟨d, rows⟩ m := fun m => rfl
  unfold agentObstacle
  rw [e, e]
  split_ifs
  · unfold agentCircularObstacle
    rw [wallLoop_eq, wallLoop_eq]
    simp only [wallForce_flagged, applyEffect_flagged]
    rfl
  · unfold agentThreeCircleObstacle
    rw [wallLoopThree_eq, wallLoopThree_eq]
    simp only [wallForceThree_flagged, applyEffect_flagged]
    rfl
  · rfl

lemma vMaxLoop_flagged (b : Fin n → Bool) (rows : Crowd n) :
    vMaxLoop (flagged b rows) = vMaxLoop rows := rfl

lemma adaptiveTimestep_flagged (b : Fin n → Bool) (rows : Crowd n) (dtMin dtMax : ℝ) :
    adaptiveTimestep (flagged b rows) dtMin dtMax = adaptiveTimestep rows dtMin dtMax := rfl

lemma verlet_flagged (b : Fin n → Bool) (d : DtypeObj) (rows : Crowd n) (dtMin dtMax : ℝ) :
    velocityVerletIntegrator ⟨d, flagged b rows⟩ dtMin dtMax =
      ((velocityVerletIntegrator ⟨d, rows⟩ dtMin dtMax).1,
        ⟨d, flagged b (velocityVerletIntegrator ⟨d, rows⟩ dtMin dtMax).2.rows⟩) := by
  have e : ∀ m, isModel ⟨d, flagged b rows⟩ m = isModel ⟨d, rows⟩ m := fun m => rfl
  unfold velocityVerletIntegrator
  simp only [e, adaptiveTimestep_flagged]
  split_ifs <;> rfl

lemma leader_flagged (b : Fin n → Bool) (oob : ℤ → ℤ) (argsort : List ℝ → List ℕ)
    (ws : List Wall) (sight : ℝ) (rows : Crowd n) :
    leaderFollowerUpdate oob argsort ws sight (flagged b rows) =
      flagged b (leaderFollowerUpdate oob argsort ws sight rows) := by
  have e : leaderFollowerInteraction oob argsort (flagged b rows) ws sight (0.45 * Real.pi) 0.40 =
      ((leaderFollowerInteraction oob argsort rows ws sight (0.45 * Real.pi) 0.40).1,
        flagged b (leaderFollowerInteraction oob argsort rows ws sight (0.45 * Real.pi) 0.40).2) := rfl
  funext i
  unfold leaderFollowerUpdate
  rw [e]
  generalize leaderFollowerInteraction oob argsort rows ws sight (0.45 * Real.pi) 0.40 = q
  by_cases h : (q.2 i).isFollower = true <;> simp [flagged, h]

lemma herding_flagged (b : Fin n → Bool) (oob : ℤ → ℤ) (argsort : List ℝ → List ℕ)
    (cp : (Fin n → Vec) → ℝ → List (Fin n × Fin n)) (ws : List Wall) (sight : ℝ) (k : ℕ)
    (rows : Crowd n) :
    leaderFollowerWithHerdingUpdate oob argsort cp ws sight k (flagged b rows) =
      (leaderFollowerWithHerdingUpdate oob argsort cp ws sight k rows).map (flagged b) := by
  have e : leaderFollowerWithHerdingInteraction oob argsort cp (flagged b rows) ws sight k
      (0.45 * Real.pi) 0.15 0.40 0.65 =
      (leaderFollowerWithHerdingInteraction oob argsort cp rows ws sight k
        (0.45 * Real.pi) 0.15 0.40 0.65).map fun q => (q.1, flagged b q.2) := by
    unfold leaderFollowerWithHerdingInteraction
    have e1 : (fun i => (flagged b rows i).position) = fun i => (rows i).position := rfl
    simp only [bind, Option.bind, e1]
    cases findNearestNeighbors (fun i => (rows i).position) sight k
      (cp (fun i => (rows i).position) sight) ws with
    | none => rfl
    | some N => rfl
  unfold leaderFollowerWithHerdingUpdate
  rw [e]
  cases leaderFollowerWithHerdingInteraction oob argsort cp rows ws sight k
    (0.45 * Real.pi) 0.15 0.40 0.65 with
  | none => rfl
  | some q =>
    simp only [bind, Option.bind, Option.map_some, Option.some.injEq]
    funext i
    by_cases h : (q.2 i).isFollower = true <;> simp [flagged, h]

lemma exit_flagged (b : Fin n → Bool) (targets : List (List Vec)) (ws : List Wall) (range : ℝ)
    (rows : Crowd n) :
    exitDetectionUpdate targets ws range (flagged b rows) =
      (exitDetectionUpdate targets ws range rows).map (flagged b) := by
  unfold exitDetectionUpdate
  split_ifs
  · rfl
  · simp only [Option.map_some, Option.some.injEq]
    funext i
    simp only [flagged]
    by_cases h : ((rows i).isFollower && ((exitDetection (targets.map meanVec)
        (List.ofFn fun i => (rows i).position) ws range).getD i (-1, false)).2) = true
    · refine (if_pos h).trans ?_
      simp only [if_pos h]
    · refine (if_neg h).trans ?_
      simp only [if_neg h]

lemma navLoop_flagged (b : Fin n → Bool) (env : SimEnv n) (step radius strength : ℝ) (l : List ℕ) :
    ∀ s : SimState n, navigationLoop env step radius strength l (setActive b s) =
      Step.mapActive b (navigationLoop env step radius strength l s) := by
  induction l with
  | nil => intro s; rfl
  | cons t l ih =>
    intro s
    unfold navigationLoop
    split_ifs with h0
    · exact ih s
    · have e : (setActive b s).caches = s.caches := rfl
      rw [e]
      obtain ⟨q, c, hq⟩ : ∃ q c, Field.navigationToTarget env.lib env.fields env.self (.int t) step
        radius strength s.caches = (q, c) := ⟨_, _, rfl⟩
      rw [hq]
      cases q with
      | error e => rfl
      | ok v =>
        simp only
        rw [← ih]
        congr 1
        simp only [SimState.withRows, setActive, SimState.mk.injEq, AgentArray.mk.injEq, true_and,
          and_true]
        funext k
        by_cases h : (s.agents.rows k).target = (t : ℤ)
        · refine (if_pos h).trans ?_
          simp only [if_pos h]
        · refine (if_neg h).trans ?_
          simp only [if_neg h]

lemma fluctuation_flagged (b : Fin n → Bool) (phi : Fin n → ℝ) (z w : Fin n → ℝ → ℝ → ℝ) (d : DtypeObj)
    (rows : Crowd n) : fluctuation phi z w ⟨d, flagged b rows⟩ =
      ⟨d, flagged b (fluctuation phi z w ⟨d, rows⟩).rows⟩ := by
  have e : ∀ r, isModel (n := n) ⟨d, r⟩ .threeCircle = decide (d.kind = .threeCircle) := fun r => rfl
  unfold fluctuation
  simp only [e]
  by_cases h : d.kind = .threeCircle
  · simp only [h, decide_true, if_true]; rfl
  · simp only [h, decide_false, Bool.false_eq_true, if_false]; rfl

lemma adjusting_flagged (b : Fin n → Bool) (d : DtypeObj)
    (rows : Crowd n) : adjusting ⟨d, flagged b rows⟩ =
      ⟨d, flagged b (adjusting ⟨d, rows⟩).rows⟩ := by
  have e : ∀ r, isModel (n := n) ⟨d, r⟩ .threeCircle = decide (d.kind = .threeCircle) := fun r => rfl
  unfold adjusting
  simp only [e]
  by_cases h : d.kind = .threeCircle
  · simp only [h, decide_true, if_true]; rfl
  · simp only [h, decide_false, Bool.false_eq_true, if_false]; rfl

/-- Every node except `InsideDomain` treats active and inactive agents alike. -/
lemma update_flagged (b : Fin n → Bool) (env : SimEnv n) (node : Node) (hn : ¬ IsInsideDomain node)
    (s : SimState n) :
    node.update env (setActive b s) = Step.mapActive b (node.update env s) := by
  have ed : (setActive b s).agents = ⟨s.agents.dtype, flagged b s.agents.rows⟩ := rfl
  have em : ∀ m, isModel ⟨s.agents.dtype, flagged b s.agents.rows⟩ m = isModel s.agents m :=
    fun m => rfl
  cases node with
  | abstract => rfl
  | reset =>
    simp only [Node.update, ed, resetUpdate, em]
    split_ifs <;> rfl
  | integrator dtMin dtMax =>
    simp only [Node.update, integratorUpdate, ed, verlet_flagged]
    rfl
  | fluctuation =>
    obtain ⟨h1, h2⟩ := fluctuation_frame (env.phi s.draws) (env.z s.draws) (env.w s.draws) s.agents
    simp only [Node.update, ed, fluctuation_flagged]
    simp only [Step.mapActive, setActive, h1]
    rfl
  | adjusting =>
    obtain ⟨h1, h2⟩ := adjusting_frame s.agents
    simp only [Node.update, ed, adjusting_flagged]
    simp only [Step.mapActive, setActive, h1]
    rfl
  | agentAgent c =>
    simp only [Node.update, ed, agentAgentBlockList_flagged]
    cases agentAgentBlockList env.cellPairs s.agents c with
    | none => rfl
    | some a => rfl
  | agentObstacle =>
    simp only [Node.update, ed]
    cases obstaclesOf env with
    | error e => rfl
    | ok ws =>
      simp only [agentObstacle_flagged]
      cases CrowdDynamics.agentObstacle s.agents ws with
      | none => rfl
      | some a => rfl
  | navigation step radius strength => exact navLoop_flagged b env step radius strength _ s
  | leaderFollower sight =>
    simp only [Node.update, ed]
    cases obstaclesOf env with
    | error e => rfl
    | ok ws => simp only [leader_flagged]; rfl
  | herding sight size =>
    simp only [Node.update, ed]
    cases obstaclesOf env with
    | error e => rfl
    | ok ws =>
      simp only [herding_flagged]
      cases leaderFollowerWithHerdingUpdate env.oob env.argsort env.cellPairs ws sight size
          s.agents.rows with
      | none => rfl
      | some a => rfl
  | exitDetection range =>
    simp only [Node.update, ed]
    cases targetArrays env env.field.targets with
    | error e => rfl
    | ok arrays =>
      simp only
      split_ifs with h0
      · rfl
      · cases obstaclesOf env with
        | error e => rfl
        | ok ws =>
          simp only [exit_flagged]
          cases exitDetectionUpdate arrays ws range s.agents.rows with
          | none => rfl
          | some a => rfl
  | orientation =>
    simp only [Node.update, ed, orientationUpdate, em]
    split_ifs <;> rfl
  | save outcome =>
    have e : (setActive b s).data = s.data := rfl
    simp only [Node.update, e]
    cases outcome s.data.iterations with
    | none => rfl
    | some e => rfl
  | insideDomain path => exact absurd trivial hn
  | targetReached paths =>
    simp only [Node.update]
    split_ifs <;> rfl

/-! ## Forces -/

/-- A node that does not belong to the forces changes them at most to zero. -/
lemma update_forces (env : SimEnv n) (node : Node) (hn : LeavesForces node) (s s' : SimState n)
    (r : Except PyErr Unit) (h : node.update env s = (r, s')) (i : Fin n) :
    ((s.agents.rows i).force = 0 → (s'.agents.rows i).force = 0) ∧
    ((s.agents.rows i).torque = 0 → (s'.agents.rows i).torque = 0) := by
  cases node with
  | abstract => cases h; exact ⟨fun h => h, fun h => h⟩
  | reset =>
    cases h
    simp only [resetUpdate]
    split_ifs
    · exact ⟨fun _ => rfl, fun _ => rfl⟩
    · exact ⟨fun _ => rfl, fun h => h⟩
  | integrator dtMin dtMax =>
    cases h
    obtain ⟨h1, h2⟩ := verlet_frame s.agents dtMin dtMax
    obtain ⟨p, v, f, o, w, t, l, q, e⟩ := h2 i
    simp only [integratorUpdate]
    rw [e]
    exact ⟨fun h => h, fun h => h⟩
  | fluctuation => exact absurd hn id
  | adjusting => exact absurd hn id
  | agentAgent c => exact absurd hn id
  | agentObstacle => exact absurd hn id
  | navigation step radius strength =>
    obtain ⟨h1, h2, h3⟩ := navLoop_frame env step radius strength _ s s' r h
    obtain ⟨d, e⟩ := h3 i
    rw [e]
    exact ⟨fun h => h, fun h => h⟩
  | leaderFollower sight =>
    simp only [Node.update] at h
    cases ho : obstaclesOf env with
    | error e => rw [ho] at h; cases h; exact ⟨fun h => h, fun h => h⟩
    | ok ws =>
      rw [ho] at h
      cases h
      obtain ⟨t, l, d, e⟩ := leader_frame env.oob env.argsort ws sight s.agents.rows i
      simp only [SimState.withRows]
      rw [e]
      exact ⟨fun h => h, fun h => h⟩
  | herding sight size =>
    simp only [Node.update] at h
    cases ho : obstaclesOf env with
    | error e => rw [ho] at h; cases h; exact ⟨fun h => h, fun h => h⟩
    | ok ws =>
      rw [ho] at h
      simp only at h
      cases ha : leaderFollowerWithHerdingUpdate env.oob env.argsort env.cellPairs ws sight size
          s.agents.rows with
      | none => rw [ha] at h; cases h; exact ⟨fun h => h, fun h => h⟩
      | some a =>
        rw [ha] at h
        cases h
        obtain ⟨t, l, d, e⟩ := herding_frame ha i
        simp only [SimState.withRows]
        rw [e]
        exact ⟨fun h => h, fun h => h⟩
  | exitDetection range =>
    simp only [Node.update] at h
    cases ht : targetArrays env env.field.targets with
    | error e => rw [ht] at h; cases h; exact ⟨fun h => h, fun h => h⟩
    | ok arrays =>
      rw [ht] at h
      simp only at h
      split_ifs at h with h0
      · cases h; exact ⟨fun h => h, fun h => h⟩
      · cases ho : obstaclesOf env with
        | error e => rw [ho] at h; cases h; exact ⟨fun h => h, fun h => h⟩
        | ok ws =>
          rw [ho] at h
          simp only at h
          cases ha : exitDetectionUpdate arrays ws range s.agents.rows with
          | none => rw [ha] at h; cases h; exact ⟨fun h => h, fun h => h⟩
          | some a =>
            rw [ha] at h
            cases h
            obtain ⟨t, f, e, hf⟩ := exit_frame ha i
            simp only [SimState.withRows]
            rw [e]
            exact ⟨fun h => h, fun h => h⟩
  | orientation =>
    cases h
    obtain ⟨h1, h2⟩ := orientation_frame s.agents
    obtain ⟨o, e⟩ := h2 i
    simp only
    rw [e]
    exact ⟨fun h => h, fun h => h⟩
  | save outcome =>
    simp only [Node.update] at h
    cases ho : outcome s.data.iterations with
    | none => rw [ho] at h; cases h; exact ⟨fun h => h, fun h => h⟩
    | some e => rw [ho] at h; cases h; exact ⟨fun h => h, fun h => h⟩
  | insideDomain path =>
    obtain ⟨h1, h2, _⟩ := insideDomain_frame env path s s' r h
    rw [h2 i]
    exact ⟨fun h => h, fun h => h⟩
  | targetReached paths =>
    simp only [Node.update] at h
    split_ifs at h <;> (cases h; exact ⟨fun h => h, fun h => h⟩)

/-- No forces, and no torques if there are any in the array. -/
def AtRest (s : SimState n) : Prop :=
  ∀ i, (s.agents.rows i).force = 0 ∧
    (s.agents.dtype.kind = .threeCircle → (s.agents.rows i).torque = 0)

lemma nodes_forces (env : SimEnv n) (nodes : List Node) (hn : ∀ x ∈ nodes, LeavesForces x) :
    ∀ (s s' : SimState n) (r : Except PyErr Unit), updateNodes env nodes s = (r, s') →
      AtRest s → AtRest s' := by
  induction nodes with
  | nil => intro s s' r h hs; unfold updateNodes at h; cases h; exact hs
  | cons x xs ih =>
    intro s s' r h hs
    unfold updateNodes at h
    obtain ⟨q, t, hq⟩ : ∃ q t, x.update env s = (q, t) := ⟨_, _, rfl⟩
    rw [hq] at h
    have hd := (update_keeps env x s t q hq).1
    have ht : AtRest t := fun i => by
      obtain ⟨a1, a2⟩ := update_forces env x (hn x List.mem_cons_self) s t q hq i
      exact ⟨a1 (hs i).1, fun hk => a2 ((hs i).2 (by rw [← hd]; exact hk))⟩
    cases q with
    | error e => cases h; exact ht
    | ok u => exact ih (fun y hy => hn y (List.mem_cons_of_mem _ hy)) t s' r h ht

lemma reset_atRest (env : SimEnv n) (s s' : SimState n) (r : Except PyErr Unit)
    (h : Node.reset.update env s = (r, s')) : r = .ok () ∧ AtRest s' := by
  cases h
  obtain ⟨hd, hr⟩ := reset_frame s.agents
  refine ⟨rfl, fun i => ⟨?_, fun hk => ?_⟩⟩
  · simp only
    rw [hr i]
  · simp only at hk ⊢
    rw [hd] at hk
    have hm : isModel s.agents .threeCircle = true := decide_eq_true hk
    simp only [resetUpdate, hm, if_true]

/-! ## References to targets and leaders -/

lemma readTarget_mem {m : ℕ} (oob : ℤ → ℤ) (t : Fin n → ℤ) (ht : ∀ i, ValidTarget m (t i)) (k : ℤ)
    (hk : ValidTarget n k) (h1 : k ≠ noLeader) : ValidTarget m (readTarget oob t k) := by
  rcases hk with h | ⟨h2, h3⟩
  · exact absurd h h1
  · have e : k = (((⟨k.toNat, by omega⟩ : Fin n).val : ℕ) : ℤ) := by simp only; omega
    rw [e, readTarget_valid]
    exact ht _

/-- All targets and leaders in the arrays are valid. -/
def FollowValid (m : ℕ) (s : FollowState n) : Prop :=
  ∀ i, ValidTarget m (s.target i) ∧ ValidTarget n (s.indexLeader i)

lemma copyTarget_valid {m : ℕ} (oob : ℤ → ℤ) (s : FollowState n) (hs : FollowValid m s) (i : Fin n)
    (h1 : s.indexLeader i ≠ noLeader) : FollowValid m (s.copyTarget oob i (s.indexLeader i)) := by
  intro k
  refine ⟨?_, (hs k).2⟩
  unfold FollowState.copyTarget
  by_cases hk : k = i
  · subst hk
    simp only [Function.update_self]
    exact readTarget_mem oob _ (fun j => (hs j).1) _ (hs k).2 h1
  · simp only [Function.update_of_ne hk]
    exact (hs k).1

lemma leaderScan_valid {m : ℕ} (oob : ℤ → ℤ) (pos vel : Fin n → Vec) (weight phi : ℝ)
    (ws : List Wall) (sight : ℝ) (i : Fin n) (leaders : List (Fin n)) (ds : List ℝ)
    (s : FollowState n) (hs : FollowValid m s) (ks : List ℕ) :
    FollowValid m (leaderScan oob pos vel weight phi ws sight i leaders ds s ks).1 := by
  induction ks with
  | nil => exact hs
  | cons k ks ih =>
    unfold leaderScan
    split_ifs with h1
    · exact ih
    · cases leaders[k]? with
      | none => exact hs
      | some j =>
        simp only
        split_ifs with h2 h3 h4
        · exact copyTarget_valid oob s hs i h3.1
        · exact ih
        · intro k'
          by_cases hk : k' = i
          · subst hk
            simp only [Function.update_self]
            exact ⟨Or.inl rfl, Or.inr ⟨by positivity, by exact_mod_cast j.2⟩⟩
          · simp only [Function.update_of_ne hk]
            exact hs k'
        · exact ih

lemma followStep_valid {m : ℕ} (oob : ℤ → ℤ) (argsort : List ℝ → List ℕ) (pos vel : Fin n → Vec)
    (weight phi : ℝ) (ws : List Wall) (sight : ℝ) (leaders : List (Fin n)) (s : FollowState n)
    (hs : FollowValid m s) (i : Fin n) :
    FollowValid m (followStep oob argsort pos vel weight phi ws sight leaders s i) := by
  unfold followStep
  simp only
  have h := leaderScan_valid oob pos vel weight phi ws sight i leaders
    (leaders.map fun j => length (pos i - pos j)) s hs
    (argsort (leaders.map fun j => length (pos i - pos j)))
  split_ifs with h1 h2
  · exact copyTarget_valid oob _ h i h2
  · exact h
  · exact h

lemma brute_valid {m : ℕ} (oob : ℤ → ℤ) (argsort : List ℝ → List ℕ) (isF isL : Fin n → Bool)
    (pos vel : Fin n → Vec) (weight phi : ℝ) (target leader : Fin n → ℤ) (ws : List Wall)
    (sight : ℝ) (h : ∀ i, ValidTarget m (target i) ∧ ValidTarget n (leader i)) :
    FollowValid m (leaderFollowerInteractionBrute oob argsort isF isL pos vel weight phi target
      leader ws sight) := by
  unfold leaderFollowerInteractionBrute
  simp only
  have key : ∀ (l : List (Fin n)) (s : FollowState n), FollowValid m s →
      FollowValid m (l.foldl (followStep oob argsort pos vel weight phi ws sight
        ((List.finRange n).filter isL)) s) := by
    intro l
    induction l with
    | nil => intro s hs; exact hs
    | cons i l ih =>
      intro s hs
      exact ih _ (followStep_valid oob argsort pos vel weight phi ws sight _ s hs i)
  exact key _ _ h

/-- All references in a crowd are valid. -/
def RefsValid (m : ℕ) (rows : Crowd n) : Prop := ∀ i, ValidRefs m n (rows i)

lemma refs_ite {m : ℕ} {a : Agent} {t l : ℤ} {d : Vec} (c : Bool) (ht : ValidTarget m t)
    (hl : ValidTarget n l) (hf : ValidTarget m a.familiarExit) :
    ValidRefs m n (if c = true then
        { { a with target := t, indexLeader := l } with targetDirection := d }
      else { a with target := t, indexLeader := l }) := by
  split_ifs <;> exact ⟨ht, hf, hl⟩

lemma leader_refs {m : ℕ} (oob : ℤ → ℤ) (argsort : List ℝ → List ℕ) (ws : List Wall) (sight : ℝ)
    (a : Crowd n) (h : RefsValid m a) : RefsValid m (leaderFollowerUpdate oob argsort ws sight a) := by
  have hb := brute_valid (m := m) oob argsort (fun i => (a i).isFollower) (fun i => (a i).isLeader)
    (fun i => (a i).position) (fun i => (a i).velocity) 0.40 (0.45 * Real.pi)
    (fun i => (a i).target) (fun i => (a i).indexLeader) ws sight
    (fun i => ⟨(h i).target, (h i).leader⟩)
  intro i
  refine refs_ite (a := a i) _ ?_ (hb i).2 (h i).familiar
  split_ifs
  · exact (h i).familiar
  · exact (hb i).1

lemma herding_refs {m : ℕ} {oob : ℤ → ℤ} {argsort : List ℝ → List ℕ}
    {cp : (Fin n → Vec) → ℝ → List (Fin n × Fin n)} {ws : List Wall} {sight : ℝ} {k : ℕ}
    {a a' : Crowd n} (h : leaderFollowerWithHerdingUpdate oob argsort cp ws sight k a = some a')
    (hv : RefsValid m a) : RefsValid m a' := by
  unfold leaderFollowerWithHerdingUpdate leaderFollowerWithHerdingInteraction at h
  simp only [bind, Option.bind] at h
  cases hN : findNearestNeighbors (fun i => (a i).position) sight k
      (cp (fun i => (a i).position) sight) ws with
  | none => simp [hN] at h
  | some N =>
    simp only [hN, Option.some.injEq] at h
    subst h
    obtain ⟨H, hH⟩ : ∃ H, herdingInteraction (fun i => (a i).isFollower) (fun i => (a i).position)
      (fun i => (a i).velocity) N 0.15 (0.45 * Real.pi) = H := ⟨_, rfl⟩
    simp only [hH]
    have hb := brute_valid (m := m) oob argsort (fun i => (a i).isFollower)
      (fun i => (a i).isLeader) (fun i => (a i).position) (fun i => (a i).velocity) 0.40
      (0.45 * Real.pi) (fun i => if (H i).2 = true then noTarget else (a i).target)
      (fun i => (a i).indexLeader) ws 20 (fun i => ⟨by
        split_ifs
        · exact Or.inl rfl
        · exact (hv i).target, (hv i).leader⟩)
    intro i
    refine refs_ite (a := a i) _ ?_ (hb i).2 (hv i).familiar
    split_ifs
    · exact (hv i).familiar
    · exact (hb i).1

lemma exitFold_bound (doors : List Vec) (p : Vec) (ws : List Wall) (l : List ℕ) (N : ℕ)
    (hl : ∀ c ∈ l, c < N) : ∀ s : ExitState, ValidTarget N s.detected →
      ValidTarget N (l.foldl (exitStep doors p ws) s).detected := by
  induction l with
  | nil => intro s hs; exact hs
  | cons c l ih =>
    intro s hs
    refine ih (fun x hx => hl x (List.mem_cons_of_mem _ hx)) _ ?_
    unfold exitStep
    simp only
    have hc := hl c List.mem_cons_self
    split_ifs
    · exact hs
    · exact Or.inr ⟨by simp only; positivity, by simp only; exact_mod_cast hc⟩
    · exact hs

lemma exit_refs {targets : List (List Vec)} {ws : List Wall} {range : ℝ} {a a' : Crowd n}
    (h : exitDetectionUpdate targets ws range a = some a') (hv : RefsValid targets.length a) :
    RefsValid targets.length a' := by
  unfold exitDetectionUpdate at h
  split_ifs at h
  simp only [Option.some.injEq] at h
  subst h
  intro i
  have hr : ValidTarget targets.length ((exitDetection (targets.map meanVec)
      (List.ofFn fun i => (a i).position) ws range).getD i (-1, false)).1 := by
    unfold exitDetection
    rw [List.getD_eq_getElem?_getD, List.getElem?_eq_getElem (by simp), Option.getD_some,
      List.getElem_map]
    refine exitFold_bound _ _ _ _ _ (fun c hc => ?_) _ (Or.inl rfl)
    simpa using hc
  simp only
  split_ifs
  · exact ⟨hr, (hv i).familiar, (hv i).leader⟩
  · exact hv i

lemma targetArrays_length (env : SimEnv n) (gs : List Geom) (l : List (List Vec))
    (h : targetArrays env gs = .ok l) : l.length = gs.length := by
  induction gs generalizing l with
  | nil => cases h; rfl
  | cons g gs ih =>
    unfold targetArrays at h
    simp only [bind, Except.bind] at h
    cases ha : env.asarray g with
    | error e => simp [ha] at h
    | ok a =>
      cases hb : targetArrays env gs with
      | error e => simp [ha, hb] at h
      | ok b =>
        simp only [ha, hb, Except.ok.injEq] at h
        subst h
        simp [ih b hb]

lemma update_refs (env : SimEnv n) (node : Node) (s s' : SimState n) (r : Except PyErr Unit)
    (h : node.update env s = (r, s')) (hv : RefsValid env.field.targets.length s.agents.rows) :
    RefsValid env.field.targets.length s'.agents.rows := by
  have same : ∀ {a b : Agent}, a.target = b.target → a.familiarExit = b.familiarExit →
      a.indexLeader = b.indexLeader → ValidRefs env.field.targets.length n a →
      ValidRefs env.field.targets.length n b := by
    intro a b h1 h2 h3 ha
    exact ⟨h1 ▸ ha.target, h2 ▸ ha.familiar, h3 ▸ ha.leader⟩
  cases node with
  | abstract => cases h; exact hv
  | reset =>
    cases h
    intro i
    obtain ⟨h1, h2⟩ := reset_frame s.agents
    simp only
    rw [h2 i]
    exact same (a := s.agents.rows i) rfl rfl rfl (hv i)
  | integrator dtMin dtMax =>
    cases h
    intro i
    obtain ⟨h1, h2⟩ := verlet_frame s.agents dtMin dtMax
    obtain ⟨p, v, f, o, w, t, l, q, e⟩ := h2 i
    simp only [integratorUpdate]
    rw [e]
    exact same (a := s.agents.rows i) rfl rfl rfl (hv i)
  | fluctuation =>
    cases h
    intro i
    obtain ⟨h1, h2⟩ := fluctuation_frame (env.phi s.draws) (env.z s.draws) (env.w s.draws) s.agents
    obtain ⟨f, t, e⟩ := h2 i
    simp only
    rw [e]
    exact same (a := s.agents.rows i) rfl rfl rfl (hv i)
  | adjusting =>
    cases h
    intro i
    obtain ⟨h1, h2⟩ := adjusting_frame s.agents
    obtain ⟨f, t, e⟩ := h2 i
    simp only
    rw [e]
    exact same (a := s.agents.rows i) rfl rfl rfl (hv i)
  | agentAgent c =>
    simp only [Node.update] at h
    cases ha : agentAgentBlockList env.cellPairs s.agents c with
    | none => rw [ha] at h; cases h; exact hv
    | some a =>
      rw [ha] at h
      cases h
      obtain ⟨h1, e, h2⟩ := agentAgent_frame ha
      intro i
      simp only
      rw [h2]
      exact same (a := s.agents.rows i) rfl rfl rfl (hv i)
  | agentObstacle =>
    simp only [Node.update] at h
    cases ho : obstaclesOf env with
    | error e => rw [ho] at h; cases h; exact hv
    | ok ws =>
      rw [ho] at h
      simp only at h
      cases ha : CrowdDynamics.agentObstacle s.agents ws with
      | none => rw [ha] at h; cases h; exact hv
      | some a =>
        rw [ha] at h
        cases h
        obtain ⟨h1, e, h2⟩ := agentObstacle_frame ha
        intro i
        simp only
        rw [h2]
        exact same (a := s.agents.rows i) rfl rfl rfl (hv i)
  | navigation step radius strength =>
    obtain ⟨h1, h2, h3⟩ := navLoop_frame env step radius strength _ s s' r h
    intro i
    obtain ⟨d, e⟩ := h3 i
    rw [e]
    exact same (a := s.agents.rows i) rfl rfl rfl (hv i)
  | leaderFollower sight =>
    simp only [Node.update] at h
    cases ho : obstaclesOf env with
    | error e => rw [ho] at h; cases h; exact hv
    | ok ws =>
      rw [ho] at h
      cases h
      exact leader_refs env.oob env.argsort ws sight s.agents.rows hv
  | herding sight size =>
    simp only [Node.update] at h
    cases ho : obstaclesOf env with
    | error e => rw [ho] at h; cases h; exact hv
    | ok ws =>
      rw [ho] at h
      simp only at h
      cases ha : leaderFollowerWithHerdingUpdate env.oob env.argsort env.cellPairs ws sight size
          s.agents.rows with
      | none => rw [ha] at h; cases h; exact hv
      | some a => rw [ha] at h; cases h; exact herding_refs ha hv
  | exitDetection range =>
    simp only [Node.update] at h
    cases ht : targetArrays env env.field.targets with
    | error e => rw [ht] at h; cases h; exact hv
    | ok arrays =>
      rw [ht] at h
      simp only at h
      split_ifs at h with h0
      · cases h; exact hv
      · cases ho : obstaclesOf env with
        | error e => rw [ho] at h; cases h; exact hv
        | ok ws =>
          rw [ho] at h
          simp only at h
          cases ha : exitDetectionUpdate arrays ws range s.agents.rows with
          | none => rw [ha] at h; cases h; exact hv
          | some a =>
            rw [ha] at h
            cases h
            have hl := targetArrays_length env _ _ ht
            have := exit_refs ha (by rw [hl]; exact hv)
            rw [hl] at this
            exact this
  | orientation =>
    cases h
    intro i
    obtain ⟨h1, h2⟩ := orientation_frame s.agents
    obtain ⟨o, e⟩ := h2 i
    simp only
    rw [e]
    exact same (a := s.agents.rows i) rfl rfl rfl (hv i)
  | save outcome =>
    simp only [Node.update] at h
    cases ho : outcome s.data.iterations with
    | none => rw [ho] at h; cases h; exact hv
    | some e => rw [ho] at h; cases h; exact hv
  | insideDomain path =>
    obtain ⟨h1, h2, _⟩ := insideDomain_frame env path s s' r h
    intro i
    rw [h2 i]
    exact same (a := s.agents.rows i) rfl rfl rfl (hv i)
  | targetReached paths =>
    simp only [Node.update] at h
    split_ifs at h <;> (cases h; exact hv)

lemma nodes_refs (env : SimEnv n) (nodes : List Node) :
    ∀ (s s' : SimState n) (r : Except PyErr Unit), updateNodes env nodes s = (r, s') →
      RefsValid env.field.targets.length s.agents.rows →
      RefsValid env.field.targets.length s'.agents.rows := by
  induction nodes with
  | nil => intro s s' r h hs; unfold updateNodes at h; cases h; exact hs
  | cons x xs ih =>
    intro s s' r h hs
    unfold updateNodes at h
    obtain ⟨q, t, hq⟩ : ∃ q t, x.update env s = (q, t) := ⟨_, _, rfl⟩
    rw [hq] at h
    have ht := update_refs env x s t q hq hs
    cases q with
    | error e => cases h; exact ht
    | ok u => exact ih t s' r h ht

/-- An invariant of single updates holds at every point of a run and at its end, also if the run
ends with an exception. -/
lemma simRun_invariant {σ : Type} {update : σ → Except PyErr Unit × σ}
    {exit : Option (ℕ → σ → Bool)} (P : σ → Prop) (hP : ∀ s r s', update s = (r, s') → P s → P s')
    (fuel call : ℕ) (s s' : σ) (r : Except PyErr Unit)
    (h : simRun update exit fuel call s = some (r, s')) (hs : P s) : P s' := by
  induction fuel generalizing call s with
  | zero => simp [simRun] at h
  | succ fuel ih =>
    unfold simRun at h
    split_ifs at h with h0
    · cases h; exact hs
    · obtain ⟨q, t, hq⟩ : ∃ q t, update s = (q, t) := ⟨_, _, rfl⟩
      rw [hq] at h
      have ht := hP s q t hq hs
      cases q with
      | error e => cases h; exact ht
      | ok u => exact ih (call + 1) t h ht

/-! ## Counting -/

lemma filter_length_countTrue (p : Fin n → Bool) :
    ((List.finRange n).filter p).length = countTrue p := by
  unfold countTrue
  rw [← List.toFinset_card_of_nodup ((List.nodup_finRange n).filter _)]
  congr 1
  ext i
  simp

lemma countTrue_eq_sum (p : Fin n → Bool) : countTrue p = ∑ i, if p i = true then 1 else 0 := by
  unfold countTrue
  rw [Finset.card_filter]

/-- Changes between two sets of flags. -/
lemma count_changes (a b : Fin n → Bool) :
    countTrue (fun i => xor (a i) (b i)) + 2 * countTrue (fun i => !a i && !b i) =
      countTrue (fun i => !a i) + countTrue (fun i => !b i) := by
  simp only [countTrue_eq_sum, Finset.mul_sum, ← Finset.sum_add_distrib]
  refine Finset.sum_congr rfl fun i _ => ?_
  cases a i <;> cases b i <;> simp

end CrowdDynamics
