import Verif.Proofs.BodyIsolationCases

/-!
# C191: three-circle agents out of sight have no influence
-/

namespace CrowdDynamics

open Spec

variable {κ : Type} {n m : ℕ} {ι : κ → Fin n} {ι' : κ → Fin m}

/-- **C191** A group of three-circle agents that nobody else comes near (the gap between any two circles
stays at least 3) moves and turns in the same way in every crowd: two runs of a simulation without
leaders, with different numbers of agents and different others, agree about every attribute of every
member of the group after every update, if they agree about it at the start and the same random numbers
are drawn for the group. -/
def C191_statement : Prop :=
  ∀ (p n m : ℕ) (ι : Fin p → Fin n) (ι' : Fin p → Fin m), Function.Injective ι → Function.Injective ι' →
    ∀ (env : SimEnv n) (env' : SimEnv m), SameBodySurroundings ι ι' env env' →
    ∀ (e : LogicExpr), OwnWay env.field e → ∀ (order : List Node) (s : SimState n) (s' : SimState m)
      (N : ℕ) (S : ℕ → SimState n) (S' : ℕ → SimState m), ShippedBodyRun env e order s N S →
      ShippedBodyRun env' e order s' N S' → SameMembers ι ι' s s' → (∀ j < N, BodiesApart ι (S j)) →
      (∀ j < N, BodiesApart ι' (S' j)) →
      ∀ j ≤ N, ∀ i, (S' j).agents.rows (ι' i) = (S j).agents.rows (ι i)

/-- **C191** False, even if there is nobody else: which torques two agents that rub against each other feel
depends on the order in which the cell lists mention them, and this order may depend on everybody. -/
theorem C191_fails : ¬ C191_statement := by
  intro H
  have := H 2 2 2 id id Function.injective_id Function.injective_id (orderEnv (0, 1)) (orderEnv (1, 0))
    ⟨⟨rfl, rfl, rfl, rfl, rfl, fun _ _ => rfl, fun _ _ => rfl⟩, fun _ _ => rfl⟩ walkLogic (.inl rfl)
    walkOrder rubbingState rubbingState 1 (rubWalk (0, 1)) (rubWalk (1, 0))
    (rubWalk_run _ (.inl rfl) 1) (rubWalk_run _ (.inr rfl) 1) ⟨fun _ => rfl, rfl, rfl⟩
    (fun _ _ _ k hk => absurd ⟨k, rfl⟩ hk) (fun _ _ _ k hk => absurd ⟨k, rfl⟩ hk) 1 le_rfl 0
  obtain ⟨x, h1, h2⟩ := rubWalk_torque
  have h3 := congrArg Agent.torquePrev this
  simp only [id] at h3
  rw [h1, h2] at h3
  linarith

/-- **C191** What holds: the group moves and turns in the same way if in every update the cell lists mention
the members of the group in the same roles (who is the first of a pair). Missing: groups whose members
change their roles. -/
theorem C191_group_partial [Finite κ] (hι : Function.Injective ι) (hι' : Function.Injective ι')
    {env : SimEnv n} {env' : SimEnv m} (hw : SameBodySurroundings ι ι' env env') {e : LogicExpr}
    (he : OwnWay env.field e) {order : List Node} {s : SimState n} {s' : SimState m} {N : ℕ}
    {S : ℕ → SimState n} {S' : ℕ → SimState m} (h : ShippedBodyRun env e order s N S)
    (h' : ShippedBodyRun env' e order s' N S') (hs : SameMembers ι ι' s s')
    (ha : ∀ j < N, BodiesApart ι (S j)) (ha' : ∀ j < N, BodiesApart ι' (S' j))
    (hr : ∀ j < N, SameRoles ι ι' env env' (S j) (S' j)) :
    ∀ j ≤ N, ∀ i, (S' j).agents.rows (ι' i) = (S j).agents.rows (ι i) := by
  intro j hj i
  have := Fintype.ofFinite κ
  have : Nonempty κ := ⟨i⟩
  suffices H : SameMembers ι ι' (S j) (S' j) from H.rows i
  clear i
  induction j with
  | zero => rw [h.completed.first, h'.completed.first]; exact hs
  | succ j ih =>
    exact update_bodies hι hι' hw he h.domain h.order
      (body_regular h (by omega) (run_attached h (by omega)))
      (body_regular h' (by omega) (run_attached h' (by omega))) (ha j (by omega))
      (ha' j (by omega)) (hr j (by omega)) (ih (by omega)) (h.completed.next j (by omega))
      (h'.completed.next j (by omega))

/-- **C191** A single agent that nobody comes near moves and turns in the same way in every crowd: for it
there are no roles. -/
theorem C191_single_partial (i : Fin n) (i' : Fin m) {env : SimEnv n} {env' : SimEnv m}
    (hw : SameBodySurroundings (fun _ : Unit => i) (fun _ => i') env env') {e : LogicExpr}
    (he : OwnWay env.field e) {order : List Node} {s : SimState n} {s' : SimState m} {N : ℕ}
    {S : ℕ → SimState n} {S' : ℕ → SimState m} (h : ShippedBodyRun env e order s N S)
    (h' : ShippedBodyRun env' e order s' N S') (hs : SameMembers (fun _ : Unit => i) (fun _ => i') s s')
    (ha : ∀ j < N, BodiesApart (fun _ : Unit => i) (S j))
    (ha' : ∀ j < N, BodiesApart (fun _ : Unit => i') (S' j)) :
    ∀ j ≤ N, (S' j).agents.rows i' = (S j).agents.rows i := fun j hj =>
  C191_group_partial (fun _ _ _ => rfl) (fun _ _ _ => rfl) hw he h h' hs ha ha'
    (fun j hj _ _ => ⟨fun hm => absurd rfl ((h.cells j hj).distinct _ hm),
      fun hm => absurd rfl ((h'.cells j hj).distinct _ hm)⟩) j hj ()

/-- **C191** Influence cannot outrun the agents: if nobody moves more than `c` per update, then during the
first `N` updates a group does not feel anybody who starts further away than `3 + 2 c N` (gap between
discs around the agents that contain their bodies). -/
theorem C191_horizon_partial [Finite κ] (hι : Function.Injective ι) (hι' : Function.Injective ι')
    {env : SimEnv n} {env' : SimEnv m} (hw : SameBodySurroundings ι ι' env env') {e : LogicExpr}
    (he : OwnWay env.field e) {order : List Node} {s : SimState n} {s' : SimState m} {N : ℕ}
    {S : ℕ → SimState n} {S' : ℕ → SimState m} (h : ShippedBodyRun env e order s N S)
    (h' : ShippedBodyRun env' e order s' N S') (hs : SameMembers ι ι' s s') (c : ℝ)
    (hc : ∀ j < N, ∀ i, Spec.dist ((S (j + 1)).agents.rows i).position ((S j).agents.rows i).position ≤ c)
    (hc' : ∀ j < N, ∀ i,
      Spec.dist ((S' (j + 1)).agents.rows i).position ((S' j).agents.rows i).position ≤ c)
    (r : Fin n → ℝ) (hb : ∀ k, BodyWithin .threeCircle (s.agents.rows k) (r k))
    (r' : Fin m → ℝ) (hb' : ∀ k, BodyWithin .threeCircle (s'.agents.rows k) (r' k))
    (ha : ∀ i, ∀ k ∉ Set.range ι, 3 + 2 * c * N + (r (ι i) + r k) ≤
      Spec.dist (s.agents.rows (ι i)).position (s.agents.rows k).position)
    (ha' : ∀ i, ∀ k ∉ Set.range ι', 3 + 2 * c * N + (r' (ι' i) + r' k) ≤
      Spec.dist (s'.agents.rows (ι' i)).position (s'.agents.rows k).position)
    (hr : ∀ j < N, SameRoles ι ι' env env' (S j) (S' j)) :
    ∀ j ≤ N, ∀ i, (S' j).agents.rows (ι' i) = (S j).agents.rows (ι i) :=
  C191_group_partial hι hι' hw he h h' hs (bodies_horizon h c hc r hb ha)
    (bodies_horizon h' c hc' r' hb' ha') hr

/-! ## Examples -/

/-- The hypotheses of the refuted statement are met by the two agents that rub against each other. -/
example : ShippedBodyRun (orderEnv (0, 1)) walkLogic walkOrder rubbingState 1 (rubWalk (0, 1)) ∧
    ShippedBodyRun (orderEnv (1, 0)) walkLogic walkOrder rubbingState 1 (rubWalk (1, 0)) :=
  ⟨rubWalk_run _ (.inl rfl) 1, rubWalk_run _ (.inr rfl) 1⟩

/-- After the first update the two agents are where they would be without a third one far away. -/
example (i : Fin 2) :
    (rubWalk (0, 1) 1).agents.rows i = (rubbersWalk 1).agents.rows (Fin.castLE (by norm_num) i) :=
  C191_group_partial (κ := Fin 2) (n := 3) (m := 2) (ι := Fin.castLE (by norm_num)) (ι' := id)
    (S := rubbersWalk) (S' := rubWalk (0, 1)) (env := trioEnv) (env' := orderEnv (0, 1))
    (Fin.castLE_injective _) Function.injective_id
    ⟨⟨rfl, rfl, rfl, rfl, rfl, fun _ _ => rfl, fun _ _ => rfl⟩, fun _ _ => rfl⟩ (.inl rfl)
    (rubbersWalk_run 1) (rubWalk_run (0, 1) (.inl rfl) 1)
    ⟨fun i => by fin_cases i <;> rfl, rfl, rfl⟩
    (fun j hj => by obtain rfl : j = 0 := (by omega); exact rubbers_apart)
    (fun _ _ _ k hk => absurd ⟨k, rfl⟩ hk)
    (fun _ _ i k => by
      change _ ∈ [((0 : Fin 3), (1 : Fin 3)), (0, 2), (1, 2)] ↔ _ ∈ [((0 : Fin 2), (1 : Fin 2))]
      fin_cases i <;> fin_cases k <;> decide) 1 le_rfl i

/-- The first of two distant agents: nobody comes near it during 1000 updates. -/
example (j : ℕ) (hj : j ≤ 1000) :
    (pacingAlone j).agents.rows 0 = (pacing j).agents.rows 0 :=
  C191_single_partial (env := orderEnv (0, 1)) (env' := openEnv) 0 0
    ⟨⟨rfl, rfl, rfl, rfl, rfl, fun _ _ => rfl, fun _ _ => rfl⟩, fun _ _ => rfl⟩ (.inl rfl) (pacing_run 1000) (pacingAlone_run 1000)
    ⟨fun _ => by simp [pacerState, pacersState], rfl, rfl⟩ pacing_apart
    (fun _ _ _ k hk => absurd ⟨(), Subsingleton.elim _ _⟩ hk) j hj

/-- The same from the distance at the start. -/
example (j : ℕ) (hj : j ≤ 1000) :
    (pacingAlone j).agents.rows 0 = (pacing j).agents.rows 0 := by
  have hi : (1 : Fin 2) ∉ Set.range (fun _ : Unit => (0 : Fin 2)) := by simp
  refine C191_horizon_partial (κ := Unit) (ι := fun _ => (0 : Fin 2)) (ι' := fun _ => (0 : Fin 1))
    (S := pacing) (S' := pacingAlone) (fun _ _ _ => rfl) (fun _ _ _ => rfl)
    ⟨⟨rfl, rfl, rfl, rfl, rfl, fun _ _ => rfl, fun _ _ => rfl⟩, fun _ _ => rfl⟩ (.inl rfl)
    (pacing_run 1000) (pacingAlone_run 1000) ⟨fun _ => ?_, rfl, rfl⟩ 0.02 pacing_step
    (pacingAlone_step 1000) (fun _ => 0.25) (fun _ => pacer_within _) (fun _ => 0.25)
    (fun _ => pacer_within _) (fun _ k hk => ?_)
    (fun _ k hk => absurd ⟨(), Subsingleton.elim _ _⟩ hk) (fun _ _ _ _ => ?_) j hj ()
  · simp [pacerState, pacersState]
  · have : k = 1 := by
      fin_cases k
      · exact absurd ⟨(), rfl⟩ hk
      · rfl
    subst this
    refine Real.le_sqrt_of_sq_le ?_
    norm_num [pacersState, pacer]
  · simp [orderEnv, openEnv, demoEnv]

end CrowdDynamics
