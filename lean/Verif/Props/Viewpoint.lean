import Verif.Proofs.ViewpointCases
import Verif.Proofs.Viewpoint
import Verif.Props.Dynamics

/-!
# Coordinates and numbers of agents: C133
-/

namespace CrowdDynamics

open Spec

variable {n : ℕ}

/-- **C133** Neither the coordinate system nor the numbering of the agents matters: if the agents, the
walls and the random directions are turned, reflected or moved together and the agents renumbered, an
update of circular agents (built from the physical nodes) ends in the same way, takes the same time
step, and leads to the turned, moved and renumbered agents. -/
theorem C133_viewpoint (g : RigidMotion) (perm : Equiv.Perm (Fin n)) (env env' : SimEnv n)
    (hw : SameWorld g perm env env') (kind : ℕ → Node) (root : LTree)
    (hp : ∀ x ∈ root.postorder.map kind, Physical x) (s s' : SimState n)
    (hs : SameScene g perm s s') (hk : s.agents.dtype.kind = .circular)
    (hc : ∀ c, .agentAgent c ∈ root.postorder.map kind → 0 < c ∧
      ∀ i j, i ≠ j → 3 + ((s.agents.rows i).radius + (s.agents.rows j).radius) ≤ c)
    (r : Except PyErr Unit) (t : SimState n) (h : simUpdate env kind root s = (r, t)) :
    ∃ t', simUpdate env' kind root s' = (r, t') ∧ SameScene g perm t t' := by
  obtain ⟨h1, h2⟩ := viewpoint_nodes g perm env env' hw _ s s' hp hs hk hc
  unfold simUpdate at h ⊢
  obtain ⟨q, u, hq⟩ : ∃ q u, updateNodes env (root.postorder.map kind) s = (q, u) := ⟨_, _, rfl⟩
  obtain ⟨q', u', hq'⟩ : ∃ q u, updateNodes env' (root.postorder.map kind) s' = (q, u) :=
    ⟨_, _, rfl⟩
  rw [hq] at h
  rw [hq, hq'] at h1 h2
  rw [hq']
  simp only at h1 h2
  subst h1
  cases q' with
  | error e => cases h; exact ⟨u', rfl, h2⟩
  | ok v =>
    cases h
    exact ⟨_, rfl, h2.dtype, h2.rows, by simp only [h2.data], h2.draws⟩

/-- **C133** The same for runs of any length. -/
theorem C133_run (g : RigidMotion) (perm : Equiv.Perm (Fin n)) (env env' : SimEnv n)
    (hw : SameWorld g perm env env') (kind : ℕ → Node) (root : LTree)
    (hp : ∀ x ∈ root.postorder.map kind, Physical x) (s s' : SimState n)
    (hs : SameScene g perm s s') (hk : s.agents.dtype.kind = .circular)
    (hc : ∀ c, .agentAgent c ∈ root.postorder.map kind → 0 < c ∧
      ∀ i j, i ≠ j → 3 + ((s.agents.rows i).radius + (s.agents.rows j).radius) ≤ c)
    (N : ℕ) (t : SimState n) (h : AfterUpdates (simUpdate env kind root) N s t) :
    ∃ t', AfterUpdates (simUpdate env' kind root) N s' t' ∧ SameScene g perm t t' := by
  suffices H : (t.agents.dtype = s.agents.dtype ∧
      ∀ i, (t.agents.rows i).radius = (s.agents.rows i).radius) ∧
      ∃ t', AfterUpdates (simUpdate env' kind root) N s' t' ∧ SameScene g perm t t' from H.2
  induction h with
  | zero => exact ⟨⟨rfl, fun _ => rfl⟩, s', .zero _, hs⟩
  | @succ k s u v h1 h2 ih =>
    obtain ⟨⟨a1, a2⟩, t', b1, b2⟩ := ih hs hk hc
    obtain ⟨u', c1, c2⟩ := C133_viewpoint g perm env env' hw kind root hp _ t' b2
      (by rw [a1]; exact hk)
      (fun c hm => ⟨(hc c hm).1, fun i j hij => by rw [a2, a2]; exact (hc c hm).2 i j hij⟩) _ _ h2
    refine ⟨?_, u', .succ b1 c1, c2⟩
    unfold simUpdate at h2
    obtain ⟨q, w, hq⟩ : ∃ q w, updateNodes env (root.postorder.map kind) u = (q, w) := ⟨_, _, rfl⟩
    rw [hq] at h2
    obtain ⟨d1, d2, -, -⟩ := nodes_keep env _ _ _ _ hq
    cases q with
    | error e => cases h2
    | ok w =>
      cases h2
      exact ⟨d1.trans a1, fun i => (d2 i).1.radius.symm.trans (a2 i)⟩

/-- **C133** Hence a symmetric crowd between symmetric walls stays symmetric. -/
theorem C133_symmetry (g : RigidMotion) (perm : Equiv.Perm (Fin n)) (env : SimEnv n)
    (hw : SameWorld g perm env env) (kind : ℕ → Node) (root : LTree)
    (hp : ∀ x ∈ root.postorder.map kind, Physical x) (s : SimState n)
    (hs : SameScene g perm s s) (hk : s.agents.dtype.kind = .circular)
    (hc : ∀ c, .agentAgent c ∈ root.postorder.map kind → 0 < c ∧
      ∀ i j, i ≠ j → 3 + ((s.agents.rows i).radius + (s.agents.rows j).radius) ≤ c)
    (N : ℕ) (t : SimState n) (h : AfterUpdates (simUpdate env kind root) N s t) :
    ∀ i, t.agents.rows (perm i) = g.agent (t.agents.rows i) := by
  obtain ⟨t', h1, h2⟩ := C133_run g perm env env hw kind root hp s s hs hk hc N t h
  have det : ∀ {N : ℕ} {s t t' : SimState n}, AfterUpdates (simUpdate env kind root) N s t →
      AfterUpdates (simUpdate env kind root) N s t' → t = t' := by
    intro N
    induction N with
    | zero => intro s t t' h h'; cases h; cases h'; rfl
    | succ N ih =>
      intro s t t' h h'
      cases h with
      | succ a1 a2 =>
        cases h' with
        | succ b1 b2 =>
          cases ih a1 b1
          rw [a2] at b2
          cases b2
          rfl
  cases det h h1
  exact h2.rows

/-! ## Examples -/

/-- A quarter turn followed by a translation. -/
noncomputable def quarterTurn : RigidMotion where
  lin :=
    { toFun := fun v => (-v.2, v.1)
      map_add' := fun u v => by ext <;> simp [add_comm]
      map_smul' := fun c v => by ext <;> simp }
  isometry v := by
    unfold len
    congr 1
    show (-v.2) ^ 2 + v.1 ^ 2 = _
    ring
  shift := (3, 1)

/-- The reflection that exchanges the two agents `facing` each other at distance 2. -/
noncomputable def mirror : RigidMotion where
  lin :=
    { toFun := fun v => (-v.1, v.2)
      map_add' := fun u v => by ext <;> simp [add_comm]
      map_smul' := fun c v => by ext <;> simp }
  isometry v := by
    unfold len
    congr 1
    show (-v.1) ^ 2 + v.2 ^ 2 = _
    ring
  shift := (2, 0)

/-- The surroundings of the two agents after the quarter turn, in which random directions point
up instead of to the right. -/
noncomputable def turnedEnv : SimEnv 2 :=
  { facingEnv with
    fields := fun _ => ⟨none, some (.lineString [(2, 1), (2, 10)]), [], []⟩
    phi := fun _ _ => Real.pi / 2 }

/-- The two agents after the quarter turn, in the other order. -/
noncomputable def turned : SimState 2 :=
  demoState fun i => quarterTurn.agent (facing (Equiv.swap 0 1 i))

/-- The hypotheses are met by two agents beside a wall and their turned and renumbered copies; the
positions of agent 1 differ. -/
example : SameWorld quarterTurn (Equiv.swap 0 1) facingEnv turnedEnv ∧
    SameScene quarterTurn (Equiv.swap 0 1) (demoState facing) turned ∧
    (∀ x ∈ facingTree.postorder.map facingKind, Physical x) ∧
    (demoState facing).agents.dtype.kind = .circular ∧
    (∀ c, .agentAgent c ∈ facingTree.postorder.map facingKind → 0 < c ∧
      ∀ i j, i ≠ j → 3 + (((demoState facing).agents.rows i).radius +
        ((demoState facing).agents.rows j).radius) ≤ c) ∧
    (turned.agents.rows 1).position = (3, 1) ∧ ((demoState facing).agents.rows 1).position = (2, 0) ∧
    ∃ t, simUpdate facingEnv facingKind facingTree (demoState facing) = (.ok (), t) := by
  refine ⟨⟨?_, ?_, ?_, fun _ _ => rfl, fun d i => ?_, fun _ _ _ => two_cells _ _,
    fun _ _ _ => two_cells _ _⟩, ⟨rfl, fun i => ?_, rfl, rfl⟩, ?_, rfl, ?_, ?_, ?_,
    (simUpdate facingEnv facingKind facingTree (demoState facing)).2, rfl⟩
  · simp [fieldWalls, SimEnv.field, facingEnv, turnedEnv, demoEnv, fillHoles, outline, consecutive, quarterTurn,
      RigidMotion.point]
    norm_num
  · intro o ho; cases ho; exact .lineString _
  · intro o ho; cases ho; exact .lineString _
  · simp [turnedEnv, facingEnv, demoEnv, quarterTurn]
  · simp [turned, demoState]
  · simp [facingTree, facingKind, LTree.postorder, Physical]
  · intro c hc
    have : c = 3.0 + 2 * 0.3 := by
      simpa [facingTree, facingKind, LTree.postorder] using hc
    subst this
    exact ⟨by norm_num, fun i j _ => by norm_num [demoState, facing]⟩
  · simp [turned, demoState, RigidMotion.agent, RigidMotion.point, quarterTurn, facing]
  · simp [demoState, facing]

/-- An empty world with mirrored random directions. -/
noncomputable def emptyEnv : SimEnv 2 :=
  { demoEnv 2 with
    cellPairs := fun _ _ => [(0, 1)]
    phi := fun _ i => if i = 0 then 0 else Real.pi }

/-- The two agents in an empty world form a scene that is its own mirror image, so they stay mirror
images of each other for ever. -/
example (N : ℕ) (t : SimState 2)
    (h : AfterUpdates (simUpdate emptyEnv facingKind facingTree) N (demoState facing) t) :
    (t.agents.rows 1).position = (2 - (t.agents.rows 0).position.1, (t.agents.rows 0).position.2) := by
  have := C133_symmetry mirror (Equiv.swap 0 1) emptyEnv
    ⟨by simp [fieldWalls, SimEnv.field, emptyEnv, demoEnv], by simp [SimEnv.field, emptyEnv, demoEnv],
      by simp [SimEnv.field, emptyEnv, demoEnv], fun _ _ => rfl, fun d i => ?_, fun _ _ _ => two_cells _ _,
      fun _ _ _ => two_cells _ _⟩ facingKind facingTree
    (by simp [facingTree, facingKind, LTree.postorder, Physical]) (demoState facing)
    ⟨rfl, fun i => ?_, rfl, rfl⟩ rfl (fun c hc => ?_) N t h 0
  · simp only [Equiv.swap_apply_left] at this
    rw [this]
    simp only [RigidMotion.agent, RigidMotion.point, mirror]
    ext <;> simp
    ring
  · fin_cases i <;> simp [mirror, emptyEnv]
  · fin_cases i <;>
      simp [demoState, facing, RigidMotion.agent, RigidMotion.point, mirror, Agent.default, Agent.zero]
  · have : c = 3.0 + 2 * 0.3 := by
      simpa [facingTree, facingKind, LTree.postorder] using hc
    subst this
    exact ⟨by norm_num, fun i j _ => by norm_num [demoState, facing]⟩

end CrowdDynamics
