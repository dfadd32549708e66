import Verif.Proofs.RoundedWalkCases
import Mathlib.Topology.Algebra.Order.Field

/-!
# Property C187: undisturbed agents reach the velocity they want, in floating point
-/

namespace CrowdDynamics

open Spec Filter Topology

/-- The full statement of C187: the velocity of an agent on which only the adjusting force acts tends to
its target velocity times its target direction, in floating point too. -/
def C187_statement : Prop :=
  ∀ (dt : ℝ) (agent : Agent), Binary64 dt → Binary64 agent.velocity.1 → Binary64 agent.mass →
    Binary64 agent.tauAdj → Binary64 agent.targetVelocity → Binary64 agent.targetDirection.1 →
    agent.forcePrev = 0 → 0 < dt → 0 < agent.mass → 0 < agent.tauAdj →
    dt / agent.tauAdj ≤ 3 / 10 →
    Tendsto (fun j => ((walkStepF fl64 dt)^[j] agent).velocity.1) atTop
      (𝓝 (agent.targetVelocity * agent.targetDirection.1))

/-- **C187** False of the code. With the time step 0.01 and the relaxation time 1/2 an agent that
wants to walk at 1 m/s along the first axis and walks at `1 - 2 ** -53` never gets faster: what the
step adds to its velocity is lost in the sum. -/
theorem C187_stall_fails : ¬ C187_statement := by
  intro H
  obtain ⟨dt, hdt⟩ : ∃ dt, fl64 (1 / 100) = dt := ⟨_, rfl⟩
  have bdt : Binary64 dt := hdt ▸ binary64_fl64 _
  have dt0 : 0 < dt := by
    have : fl64 ((2 : ℝ) ^ (-7 : ℤ)) ≤ fl64 (1 / 100) := fl64_mono (by norm_num)
    rw [fl64_two_zpow (by norm_num), hdt] at this
    exact (two_zpow_pos _).trans_le this
  have dt1 : dt ≤ 1 / 8 := by
    have : fl64 (1 / 100) ≤ fl64 ((2 : ℝ) ^ (-3 : ℤ)) := fl64_mono (by norm_num)
    rw [fl64_two_zpow (by norm_num), hdt] at this
    norm_num at this ⊢
    exact this
  obtain ⟨agent, hv, hm, hτ, ht, hd, hp⟩ : ∃ agent : Agent,
      agent.velocity.1 = 1 - 2 ^ (-53 : ℤ) ∧ agent.mass = 64 ∧ agent.tauAdj = 1 / 2 ∧
      agent.targetVelocity = 1 ∧ agent.targetDirection = (1, 0) ∧ agent.forcePrev = 0 :=
    ⟨{ Agent.zero with
        velocity := (1 - 2 ^ (-53 : ℤ), 0)
        mass := 64
        tauAdj := 1 / 2
        targetVelocity := 1
        targetDirection := (1, 0)
        forcePrev := 0 }, rfl, rfl, rfl, rfl, rfl, rfl⟩
  have stay : ∀ j, ((walkStepF fl64 dt)^[j] agent).velocity.1 = 1 - 2 ^ (-53 : ℤ) :=
    fun j => (walk_stall dt0 dt1 hv hm hτ ht hd hp j).1
  have b1 : Binary64 1 := (binary64_iff _).2 fl64_one
  have lim := H dt agent bdt (by rw [hv]; exact ⟨2 ^ 53 - 1, -53, by norm_num, by norm_num, by norm_num⟩)
    (by rw [hm]; exact ⟨1, 6, by norm_num, by norm_num, by norm_num⟩)
    (by rw [hτ]; exact ⟨1, -1, by norm_num, by norm_num, by norm_num⟩) (by rw [ht]; exact b1)
    (by rw [hd]; exact b1) hp dt0 (by rw [hm]; norm_num) (by rw [hτ]; norm_num)
    (by rw [hτ]; norm_num; linarith)
  simp only [stay] at lim
  have := tendsto_nhds_unique lim tendsto_const_nhds
  rw [ht, hd] at this
  norm_num at this

/-- **C187** (partial) After `j` steps the velocity of an agent on which only the adjusting force acts
differs from its target velocity times its target direction by no more than `2 (1 - dt/tau) ** j`
times the difference at the start plus `tau/dt` times a few rounding errors, in each coordinate.
Missing: the limit itself, which is not always reached. -/
theorem C187_converges_partial (dt : ℝ) (agent : Agent) (hdt0 : (2 : ℝ) ^ (-500 : ℤ) ≤ dt)
    (hdt1 : dt ≤ 1) (hm : (2 : ℝ) ^ (-100 : ℤ) ≤ agent.mass) (hτ0 : 0 < agent.tauAdj)
    (hτ : agent.tauAdj ≤ 2 ^ (100 : ℤ)) (hlo : (2 : ℝ) ^ (-40 : ℤ) ≤ dt / agent.tauAdj)
    (hhi : dt / agent.tauAdj ≤ 3 / 10) (hp : agent.forcePrev = 0)
    (hv1 : Binary64 agent.velocity.1) (hv2 : Binary64 agent.velocity.2) (j : ℕ) :
    |((walkStepF fl64 dt)^[j] agent).velocity.1 -
        agent.targetVelocity * agent.targetDirection.1| ≤
      2 * (1 - dt / agent.tauAdj) ^ j *
        |agent.velocity.1 - agent.targetVelocity * agent.targetDirection.1| +
      (2 ^ (-43 : ℤ) * (|agent.targetVelocity * agent.targetDirection.1| + |agent.velocity.1|) +
        2 ^ (-890 : ℤ)) / (dt / agent.tauAdj) ∧
    |((walkStepF fl64 dt)^[j] agent).velocity.2 -
        agent.targetVelocity * agent.targetDirection.2| ≤
      2 * (1 - dt / agent.tauAdj) ^ j *
        |agent.velocity.2 - agent.targetVelocity * agent.targetDirection.2| +
      (2 ^ (-43 : ℤ) * (|agent.targetVelocity * agent.targetDirection.2| + |agent.velocity.2|) +
        2 ^ (-890 : ℤ)) / (dt / agent.tauAdj) :=
  have hp0 := (two_zpow_pos _).trans_le hdt0
  ⟨walkSeq_limit (walkSeq_fst hdt0 hdt1 hp hv1) hm hτ0 hτ hp0 hdt1 hlo hhi j,
    walkSeq_limit (walkSeq_snd hdt0 hdt1 hp hv2) hm hτ0 hτ hp0 hdt1 hlo hhi j⟩

/-- An adult with the default relaxation time who starts from rest, with the default time step: the
difference at the start is not zero. -/
example : ∃ (dt : ℝ) (agent : Agent), (2 : ℝ) ^ (-500 : ℤ) ≤ dt ∧ dt ≤ 1 ∧
    (2 : ℝ) ^ (-100 : ℤ) ≤ agent.mass ∧ 0 < agent.tauAdj ∧ agent.tauAdj ≤ 2 ^ (100 : ℤ) ∧
    (2 : ℝ) ^ (-40 : ℤ) ≤ dt / agent.tauAdj ∧ dt / agent.tauAdj ≤ 3 / 10 ∧
    agent.forcePrev = 0 ∧ Binary64 agent.velocity.1 ∧ Binary64 agent.velocity.2 ∧
    agent.velocity.1 ≠ agent.targetVelocity * agent.targetDirection.1 := by
  refine ⟨1 / 100, { Agent.zero with
    mass := 147 / 2
    tauAdj := 1 / 2
    targetVelocity := 5 / 4
    targetDirection := (1, 0)
    velocity := 0
    forcePrev := 0 }, ?_, by norm_num, by norm_num, by norm_num, by norm_num, by norm_num,
    by norm_num, rfl, (binary64_iff _).2 fl64_zero, (binary64_iff _).2 fl64_zero, by norm_num⟩
  exact (zpow_le_zpow_right₀ (by norm_num) (by norm_num : (-500 : ℤ) ≤ -7)).trans (by norm_num)

/-- **C187** (partial) In the long run the velocity of such an agent differs from what it wants by less
than `tau/dt * 2 ** -42` times its target speed plus its speed at the start: nothing but rounding
errors is left. Missing: the limit itself, which is not always reached. -/
theorem C187_limit_partial (dt : ℝ) (agent : Agent) (hdt0 : (2 : ℝ) ^ (-500 : ℤ) ≤ dt)
    (hdt1 : dt ≤ 1) (hm : (2 : ℝ) ^ (-100 : ℤ) ≤ agent.mass) (hτ0 : 0 < agent.tauAdj)
    (hτ : agent.tauAdj ≤ 2 ^ (100 : ℤ)) (hlo : (2 : ℝ) ^ (-40 : ℤ) ≤ dt / agent.tauAdj)
    (hhi : dt / agent.tauAdj ≤ 3 / 10) (hp : agent.forcePrev = 0)
    (hv1 : Binary64 agent.velocity.1)
    (hw : (2 : ℝ) ^ (-500 : ℤ) ≤ |agent.targetVelocity * agent.targetDirection.1|)
    (hv2 : Binary64 agent.velocity.2) :
    ∀ᶠ j in atTop, |((walkStepF fl64 dt)^[j] agent).velocity.1 -
        agent.targetVelocity * agent.targetDirection.1| <
      2 ^ (-42 : ℤ) * (|agent.targetVelocity * agent.targetDirection.1| + |agent.velocity.1|) /
        (dt / agent.tauAdj) := by
  have bound := fun j => (C187_converges_partial dt agent hdt0 hdt1 hm hτ0 hτ hlo hhi hp hv1 hv2 j).1
  obtain ⟨h, hh⟩ : ∃ h, dt / agent.tauAdj = h := ⟨_, rfl⟩
  obtain ⟨d, hd⟩ : ∃ d, |agent.velocity.1 - agent.targetVelocity * agent.targetDirection.1| = d :=
    ⟨_, rfl⟩
  rw [hh] at hlo hhi
  simp only [hh, hd] at bound ⊢
  have hh0 : 0 < h := (two_zpow_pos _).trans_le hlo
  exact walk_eventually hh0 hhi bound hw

/-- The same adult. -/
example : (2 : ℝ) ^ (-500 : ℤ) ≤ |(5 / 4 : ℝ) * 1| := by
  refine (zpow_le_zpow_right₀ (by norm_num) (by norm_num : (-500 : ℤ) ≤ 0)).trans ?_
  norm_num

/-- **C187** An agent that walks exactly at the rounded product of its target velocity and its target
direction, on which no force acted before, keeps this velocity exactly, for ever. -/
theorem C187_steady (dt : ℝ) (agent : Agent) (hp : agent.forcePrev = 0)
    (hv : agent.velocity = (fl64 (agent.targetVelocity * agent.targetDirection.1),
      fl64 (agent.targetVelocity * agent.targetDirection.2))) (j : ℕ) :
    ((walkStepF fl64 dt)^[j] agent).velocity = agent.velocity ∧
    ((walkStepF fl64 dt)^[j] agent).forcePrev = 0 := by
  induction j with
  | zero => exact ⟨rfl, hp⟩
  | succ j ih =>
    obtain ⟨a, b, c, d⟩ := walkStepF_frame fl64 dt agent j
    rw [Function.iterate_succ_apply']
    obtain ⟨x, hx⟩ : ∃ x, (walkStepF fl64 dt)^[j] agent = x := ⟨_, rfl⟩
    rw [hx] at ih a b c d ⊢
    have f1 := (binary64_iff _).1 (binary64_fl64 (agent.targetVelocity * agent.targetDirection.1))
    have f2 := (binary64_iff _).1 (binary64_fl64 (agent.targetVelocity * agent.targetDirection.2))
    rw [ih.1.symm] at hv
    rw [← ih.1]
    simp only [walkStepF, forceAdjustRowF, forceAdjustF, translationalVerletRowF, ih.2, c, d, hv,
      sub_self, fl64_zero, mul_zero, add_zero, zero_div, zero_mul, Prod.fst_zero, Prod.snd_zero,
      f1, f2, true_and]
    rfl

/-- Walking at 5/4 m/s towards `(3/5, 4/5)`. -/
example : ∃ agent : Agent, agent.forcePrev = 0 ∧
    agent.velocity = (fl64 (agent.targetVelocity * agent.targetDirection.1),
      fl64 (agent.targetVelocity * agent.targetDirection.2)) ∧ agent.targetVelocity = 5 / 4 ∧
    agent.targetDirection = (3 / 5, 4 / 5) :=
  ⟨{ Agent.zero with
      velocity := (fl64 (5 / 4 * (3 / 5)), fl64 (5 / 4 * (4 / 5)))
      targetVelocity := 5 / 4
      targetDirection := (3 / 5, 4 / 5)
      forcePrev := 0 }, rfl, rfl, rfl, rfl⟩

end CrowdDynamics
