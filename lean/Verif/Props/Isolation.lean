import Verif.Proofs.IsolationCases
import Verif.Proofs.Isolation
import Verif.Props.LongRun
import Verif.Props.Momentum

/-!
# C151: agents out of sight have no influence
-/

namespace CrowdDynamics

open Spec

variable {κ : Type} {n m : ℕ} {ι : κ → Fin n} {ι' : κ → Fin m}

/-- **C151** A group of agents that nobody else comes near (the gap between the bodies stays at least 3)
moves in the same way in every crowd: two runs of a simulation without leaders, with different numbers
of agents and different others, agree about every attribute of every member of the group after every
update, if they agree about it at the start and the same random numbers are drawn for the group. -/
theorem C151_group [Finite κ] (hι : Function.Injective ι) (hι' : Function.Injective ι') {env : SimEnv n}
    {env' : SimEnv m} (hw : SameSurroundings ι ι' env env') {e : LogicExpr} (he : OwnWay env.field e)
    {order : List Node} {s : SimState n} {s' : SimState m} {N : ℕ} {S : ℕ → SimState n}
    {S' : ℕ → SimState m} (h : ShippedRun env e order s N S) (h' : ShippedRun env' e order s' N S')
    (hs : SameMembers ι ι' s s') (ha : ∀ j < N, KeptApart ι (S j)) (ha' : ∀ j < N, KeptApart ι' (S' j)) :
    ∀ j ≤ N, ∀ i, (S' j).agents.rows (ι' i) = (S j).agents.rows (ι i) := by
  intro j hj i
  have := Fintype.ofFinite κ
  have : Nonempty κ := ⟨i⟩
  suffices H : SameMembers ι ι' (S j) (S' j) from H.rows i
  clear i
  induction j with
  | zero => rw [h.completed.first, h'.completed.first]; exact hs
  | succ j ih =>
    exact update_members hι hι' hw he h.domain h.order
      (completed_regular h.order h.completed h.regular h.cells j (by omega))
      (completed_regular h'.order h'.completed h'.regular h'.cells j (by omega)) (ha j (by omega))
      (ha' j (by omega)) (ih (by omega)) (h.completed.next j (by omega)) (h'.completed.next j (by omega))

/-- After the first update the two agents are where they would be without the third. -/
example (i : Fin 2) :
    (meeting 1).agents.rows i = (threeWalk 1).agents.rows (Fin.castLE (by norm_num) i) :=
  C151_group (ι := Fin.castLE (by norm_num)) (ι' := id) (S := threeWalk) (S' := meeting)
    (Fin.castLE_injective _) Function.injective_id trio_same (.inl rfl)
    (threeWalk_run 1) (meeting_run 1) trio_members
    (fun j hj => by obtain rfl : j = 0 := (by omega); exact trio_apart)
    (fun _ _ _ k hk => absurd ⟨k, rfl⟩ hk) 1 le_rfl i

/-! ## How fast influence spreads -/

/-- **C151** Influence cannot outrun the agents: if nobody moves more than `c` per update, then during the
first `N` updates a group does not feel anybody who starts further away than `3 + 2 c N` (gap between
the bodies): its members move as in every other crowd for which the same is true. -/
theorem C151_horizon [Finite κ] (hι : Function.Injective ι) (hι' : Function.Injective ι') {env : SimEnv n}
    {env' : SimEnv m} (hw : SameSurroundings ι ι' env env') {e : LogicExpr} (he : OwnWay env.field e)
    {order : List Node} {s : SimState n} {s' : SimState m} {N : ℕ} {S : ℕ → SimState n}
    {S' : ℕ → SimState m} (h : ShippedRun env e order s N S) (h' : ShippedRun env' e order s' N S')
    (hs : SameMembers ι ι' s s') (c : ℝ)
    (hc : ∀ j < N, ∀ i, Spec.dist ((S (j + 1)).agents.rows i).position ((S j).agents.rows i).position ≤ c)
    (hc' : ∀ j < N, ∀ i,
      Spec.dist ((S' (j + 1)).agents.rows i).position ((S' j).agents.rows i).position ≤ c)
    (ha : ∀ i, ∀ k ∉ Set.range ι, 3 + 2 * c * N + ((s.agents.rows (ι i)).radius + (s.agents.rows k).radius) ≤
      Spec.dist (s.agents.rows (ι i)).position (s.agents.rows k).position)
    (ha' : ∀ i, ∀ k ∉ Set.range ι',
      3 + 2 * c * N + ((s'.agents.rows (ι' i)).radius + (s'.agents.rows k).radius) ≤
      Spec.dist (s'.agents.rows (ι' i)).position (s'.agents.rows k).position) :
    ∀ j ≤ N, ∀ i, (S' j).agents.rows (ι' i) = (S j).agents.rows (ι i) :=
  C151_group hι hι' hw he h h' hs (apart_horizon h c hc ha) (apart_horizon h' c hc' ha')

/-- For 1000 updates (ten seconds) the first of the two moves as if it were alone. -/
example (j : ℕ) (hj : j ≤ 1000) : (wandering j).agents.rows 0 = (ambling j).agents.rows 0 := by
  refine C151_horizon (κ := Unit) (ι := fun _ => (0 : Fin 2)) (ι' := fun _ => (0 : Fin 1)) (S := ambling)
    (S' := wandering) (env := amblersEnv) (env' := openEnv)
    (fun _ _ _ => rfl) (fun _ _ _ => rfl) ⟨rfl, rfl, rfl, rfl, rfl, fun _ _ => rfl, fun _ _ => rfl⟩
    (.inl rfl) (ambling_run 1000) (wandering_run 1000) ⟨fun _ => ?_, rfl, rfl⟩ 0.02
    ambling_step (wandering_step 1000) (fun _ k hk => ?_)
    (fun _ k hk => absurd ⟨(), Subsingleton.elim _ _⟩ hk) j hj ()
  · simp [demoState, amblers, wanderer, Agent.default, Agent.zero]
  · have : k = 1 := by
      fin_cases k
      · exact absurd ⟨(), rfl⟩ hk
      · rfl
    subst this
    refine Real.le_sqrt_of_sq_le ?_
    norm_num [demoState, amblers, wanderer]

end CrowdDynamics
