import Verif.Proofs.NoSwapCases
import Verif.Props.LongRun

/-!
# Nobody jumps over another agent: C197
-/

namespace CrowdDynamics

open Spec

variable {n : ℕ}

/-- **C197** (full statement): in no run of a shipped simulation do two agents whose bodies do not overlap
change sides in the next update. -/
def C197_statement : Prop :=
  ∀ (n : ℕ) (env : SimEnv n) (e : LogicExpr) (order : List Node) (s : SimState n) (N : ℕ)
    (S : ℕ → SimState n), ShippedRun env e order s N S →
    ∀ i k, i ≠ k → 1 / 30 ≤ (s.agents.rows i).tauAdj → 1 / 30 ≤ (s.agents.rows k).tauAdj →
    ∀ j < N, (s.agents.rows i).radius + (s.agents.rows k).radius ≤
        Spec.dist ((S j).agents.rows i).position ((S j).agents.rows k).position →
      KeepSides ((S j).agents.rows i).position ((S j).agents.rows k).position
        ((S (j + 1)).agents.rows i).position ((S (j + 1)).agents.rows k).position

/-- **C197** What holds (1): with a bound `V i` on the speed that an agent would settle at as in C130, the
agents `i` and `k` do not change sides in an update if their bodies do not overlap and what they can move
in it, `dt * V * (1 + dt / tauAdj)`, is together less than the sum of their radii. What is missing: such
bounds do not follow from the code. -/
theorem C197_no_swap_partial {env : SimEnv n} {e : LogicExpr} {order : List Node} {s : SimState n}
    {N : ℕ} {S : ℕ → SimState n} (h : ShippedRun env e order s N S) (i k : Fin n) (F V : Fin n → ℝ)
    (ht : ∀ m ∈ [i, k], 1 / 30 ≤ (s.agents.rows m).tauAdj)
    (hv : ∀ m ∈ [i, k], 0 ≤ (s.agents.rows m).targetVelocity)
    (hd : ∀ m ∈ [i, k], ∀ j < N, len ((S (j + 1)).agents.rows m).targetDirection ≤ 1)
    (hF : ∀ m ∈ [i, k], ∀ j < N, ∀ d, Disturbs env order (S j) (S (j + 1)) m d → len d ≤ F m)
    (hV : ∀ m ∈ [i, k], V m = (s.agents.rows m).targetVelocity +
      (s.agents.rows m).tauAdj * F m / (s.agents.rows m).mass)
    (h0 : ∀ m ∈ [i, k], len (s.agents.rows m).velocity ≤ V m)
    (hr : 0.01 * V i * (1 + 0.01 / (s.agents.rows i).tauAdj) +
      0.01 * V k * (1 + 0.01 / (s.agents.rows k).tauAdj) <
        (s.agents.rows i).radius + (s.agents.rows k).radius)
    (j : ℕ) (hj : j < N) (ho : (s.agents.rows i).radius + (s.agents.rows k).radius ≤
      Spec.dist ((S j).agents.rows i).position ((S j).agents.rows k).position) :
    KeepSides ((S j).agents.rows i).position ((S j).agents.rows k).position
      ((S (j + 1)).agents.rows i).position ((S (j + 1)).agents.rows k).position := by
  have move : ∀ m ∈ [i, k], Spec.dist ((S (j + 1)).agents.rows m).position
      ((S j).agents.rows m).position ≤ 0.01 * V m * (1 + 0.01 / (s.agents.rows m).tauAdj) :=
    fun m hm => (C132_no_jump_partial h m (ht m hm) (hv m hm) (hd m hm) (F m) (V m) (hF m hm)
      (hV m hm) (h0 m hm) j hj).1
  exact keepSides_of_steps (move i (by simp)) (move k (by simp)) (hr.trans_le ho)

/-- **C197** What holds (2): as long as two agents touch nobody and no wall, no bound on the forces has to
be assumed: besides the random force at most 2000 N act on them from each other agent. So if they do not
start faster than `V`, and `V` is small enough for the size of their bodies, they do not change sides. -/
theorem C197_untouched_partial {env : SimEnv n} {e : LogicExpr} {order : List Node} {s : SimState n}
    {N : ℕ} {S : ℕ → SimState n} (h : ShippedRun env e order s N S) (i k : Fin n) (hik : i ≠ k)
    (V : Fin n → ℝ)
    (ht : ∀ m ∈ [i, k], 1 / 30 ≤ (s.agents.rows m).tauAdj)
    (hv : ∀ m ∈ [i, k], 0 ≤ (s.agents.rows m).targetVelocity)
    (hd : ∀ m ∈ [i, k], ∀ j < N, len ((S (j + 1)).agents.rows m).targetDirection ≤ 1)
    (hu : ∀ m ∈ [i, k], ∀ j < N, TouchesNothing env (S j).agents.rows m)
    (hV : ∀ m ∈ [i, k], V m = (s.agents.rows m).targetVelocity + (s.agents.rows m).tauAdj *
      (3 * (s.agents.rows m).stdRandForce + 2000 * (n - 1) / (s.agents.rows m).mass))
    (h0 : ∀ m ∈ [i, k], len (s.agents.rows m).velocity ≤ V m)
    (hr : 0.01 * V i * (1 + 0.01 / (s.agents.rows i).tauAdj) +
      0.01 * V k * (1 + 0.01 / (s.agents.rows k).tauAdj) <
        (s.agents.rows i).radius + (s.agents.rows k).radius) :
    ∀ j < N, KeepSides ((S j).agents.rows i).position ((S j).agents.rows k).position
      ((S (j + 1)).agents.rows i).position ((S (j + 1)).agents.rows k).position := by
  intro j hj
  refine C197_no_swap_partial h i k (fun m => 3 * (s.agents.rows m).mass *
    (s.agents.rows m).stdRandForce + 2000 * (n - 1)) V ht hv hd (fun m hm j hj d hdj => ?_)
    (fun m hm => ?_) h0 hr j hj ?_
  · have := disturbs_untouched (hu m hm j hj) hdj
    have hb := (completed_body h.order h.completed j hj.le).2 m
    rwa [← hb.mass, ← hb.stdRandForce] at this
  · rw [hV m hm]
    have := (h.regular.mass m).ne'
    field_simp
  · have := (hu i (by simp) j hj).1 k hik.symm
    have hi := (completed_body h.order h.completed j hj.le).2 i
    have hk := (completed_body h.order h.completed j hj.le).2 k
    rwa [← hi.radius, ← hk.radius] at this

/-- Two agents of 80 kg who walk towards each other at a distance of 2 m. -/
example : KeepSides ((meeting 0).agents.rows 0).position ((meeting 0).agents.rows 1).position
    ((meeting (0 + 1)).agents.rows 0).position ((meeting (0 + 1)).agents.rows 1).position := by
  have hdir : ∀ m, len ((meeting (0 + 1)).agents.rows m).targetDirection ≤ 1 := by
    intro m
    obtain ⟨t, ht⟩ := walk_total meetingEnv (meeting 0)
    rw [show meeting (0 + 1) = (walkLogic.update meetingEnv (meeting 0)).2 from
      Function.iterate_succ_apply' _ _ _, ht]
    rw [walk_direction _ _ _ ht m]
    show len (facing m).targetDirection ≤ 1
    fin_cases m <;> norm_num [facing, len]
  have := C197_untouched_partial (meeting_run 1) 0 1 (by decide) (fun _ => 13.65)
    (fun m _ => by norm_num [demoState, facing]) (fun m _ => by norm_num [demoState, facing])
    (fun m _ j hj => by
      obtain rfl : j = 0 := by omega
      exact hdir m)
    (fun m _ j hj => by
      obtain rfl : j = 0 := by omega
      refine two_touch_nothing _ ?_ m
      show (facing 0).radius + (facing 1).radius ≤ Spec.dist (facing 0).position (facing 1).position
      unfold Spec.dist
      simp only [facing, if_true, one_ne_zero, if_false, Prod.mk_sub_mk, sub_zero, zero_sub]
      rw [len_axis]
      norm_num)
    (fun m _ => by norm_num [demoState, facing, Agent.default, Agent.zero])
    (fun m _ => by fin_cases m <;> norm_num [demoState, facing, len])
    (by norm_num [demoState, facing])
  exact this 0 (by norm_num)

/-- **C197** fails: nothing limits the speed of an agent. One with 100 m/s at a distance of 0.6 m from a
standing agent is behind it after one update, though the social force pushes with up to 2000 N. -/
theorem C197_fails : ¬ C197_statement := by
  intro h
  have hrun := rush_run 1
  have hdist : (rushing 0).radius + (rushing 1).radius ≤
      Spec.dist (rushing 0).position (rushing 1).position := by
    unfold Spec.dist
    simp only [rushing, if_true, one_ne_zero, if_false, Prod.mk_sub_mk, sub_zero, zero_sub]
    rw [len_axis]
    norm_num
  have hk := h 2 meetingEnv walkLogic _ _ 1 _ hrun 0 1 (by decide) (by norm_num [demoState, rushing])
    (by norm_num [demoState, rushing]) 0 (by norm_num) hdist
  have far : ∀ m : Fin 2, |((rush 1).agents.rows m).position.1 -
      ((rushing m).position.1 + 0.01 * (rushing m).velocity.1 * 0.98)| ≤ 0.005 := by
    intro m
    obtain ⟨A, U, hD, hU⟩ := run_drive hrun m
    obtain ⟨⟨d, hd, hUd⟩, hp⟩ := hU 0 (by norm_num)
    have hd0 : len d ≤ 2000 := by
      have := disturbs_untouched (two_touch_nothing _ hdist m) hd
      have e : ((rush 0).agents.rows m).stdRandForce = 0 := rfl
      rw [e] at this
      norm_num at this
      exact this
    have hA := hD.accel (by norm_num [demoState, rushing]) (show 0 < 1 by norm_num)
    have hv := hD.first (by norm_num)
    rw [hUd] at hA
    have hA1 : (A 0).1 = 2 * (d.1 / 160 - (rushing m).velocity.1) := by
      have := congrArg Prod.fst hA
      simp only [Prod.smul_fst, Prod.fst_sub, Prod.fst_add, smul_eq_mul] at this
      rw [this]
      have e1 : ((demoState rushing).agents.rows m).tauAdj = 0.5 := rfl
      have e2 : ((demoState rushing).agents.rows m).mass = 80 := rfl
      have e3 : ((demoState rushing).agents.rows m).targetVelocity = 0 := rfl
      have e4 : ((rush 0).agents.rows m).velocity = (rushing m).velocity := rfl
      rw [e1, e2, e3, e4]
      ring
    have hv1 := congrArg Prod.fst hv
    have hp1 := congrArg Prod.fst hp
    simp only [Prod.smul_fst, Prod.fst_add, smul_eq_mul] at hv1 hp1
    have e4 : ((rush 0).agents.rows m).velocity = (rushing m).velocity := rfl
    have e5 : ((rush 0).agents.rows m).position = (rushing m).position := rfl
    rw [e5, show (0 : ℕ) + 1 = 1 from rfl] at hp1
    rw [e4] at hv1
    have hx := abs_le.1 ((abs_fst_le_len d).trans hd0)
    rw [abs_le]
    constructor <;> linarith
  have k1 := hk 1 (by norm_num) le_rfl
  have f0 := abs_le.1 (far 0)
  have f1 := abs_le.1 (far 1)
  have p0 : ((rush 0).agents.rows 0).position = (0, 0) := by
    show (rushing 0).position = _
    simp [rushing]
  have p1 : ((rush 0).agents.rows 1).position = (0.6, 0) := by
    show (rushing 1).position = _
    simp [rushing]
  rw [one_smul, one_smul, add_sub_cancel, add_sub_cancel, p0, p1, show (0 : ℕ) + 1 = 1 from rfl] at k1
  simp only [rushing, if_true, one_ne_zero, if_false] at f0 f1
  unfold Spec.inner at k1
  simp only [Prod.mk_sub_mk, Prod.fst_sub, sub_zero, zero_sub, zero_mul, add_zero] at k1
  linarith

end CrowdDynamics
