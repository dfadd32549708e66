import Verif.Proofs.Convergence
import Mathlib.Analysis.SpecialFunctions.ExpDeriv
import Mathlib.Analysis.Calculus.Deriv.Prod
import Mathlib.Analysis.Calculus.Deriv.Pi

/-!
# Cases and helper lemmas for `Verif.Props.Convergence`
-/

namespace CrowdDynamics

open Spec Real

variable {n : ℕ}

/-- The law of an agent who adjusts its velocity to `(1, 0)` within one second. -/
noncomputable def adjustingLaw : Points 1 → Points 1 → Points 1 := fun _ v i => (1, 0) - v i

/-- Position and velocity of an agent who follows this law from rest. -/
noncomputable def adjustingPath (t : ℝ) : Points 1 := fun _ => (t - 1 + exp (-t), 0)

noncomputable def adjustingSpeed (t : ℝ) : Points 1 := fun _ => (1 - exp (-t), 0)

theorem adjusting_solves (T : ℝ) : Solves adjustingLaw T adjustingPath adjustingSpeed := by
  have h1 : ∀ t : ℝ, HasDerivAt (fun t : ℝ => exp (-t)) (-exp (-t)) t := fun t => by
    have := (hasDerivAt_neg t).exp
    simpa using this
  refine ⟨fun t _ => HasDerivAt.hasDerivWithinAt (hasDerivAt_pi.2 fun i => ?_),
    fun t _ => HasDerivAt.hasDerivWithinAt (hasDerivAt_pi.2 fun i => ?_)⟩
  · have h2 : HasDerivAt (fun t : ℝ => t - 1 + exp (-t)) (1 - exp (-t)) t := by
      rw [sub_eq_add_neg]
      exact ((hasDerivAt_id t).sub_const 1).add (h1 t)
    exact h2.prodMk (hasDerivAt_const t (0 : ℝ))
  · have h2 : HasDerivAt (fun t : ℝ => 1 - exp (-t)) (exp (-t)) t := by
      have := (h1 t).const_sub 1
      simpa using this
    have h3 := h2.prodMk (hasDerivAt_const t (0 : ℝ))
    have e : adjustingLaw (adjustingPath t) (adjustingSpeed t) i = (exp (-t), 0) := by
      simp [adjustingLaw, adjustingSpeed]
    rw [e]
    exact h3

theorem adjusting_lipschitz : LipschitzLaw adjustingLaw 1 := by
  intro x v x' v'
  have : adjustingLaw x v - adjustingLaw x' v' = -(v - v') := by
    funext i
    simp [adjustingLaw]
  rw [this, norm_neg]
  have := norm_nonneg (x - x')
  linarith

/-- The run of an integrator under a law, from `s`. -/
noncomputable def runOf (integrator : AgentArray n → ℝ × AgentArray n)
    (A : Points n → Points n → Points n) (s : AgentArray n) : ℕ → ℝ × AgentArray n
  | 0 => (0, s)
  | k + 1 =>
    let r := (runOf integrator A s k).2
    let q := integrator ⟨r.dtype, fun i =>
      { r.rows i with force := (r.rows i).mass • A (positions r) (velocities r) i }⟩
    ((runOf integrator A s k).1 + q.1, q.2)

theorem runOf_run (integrator : AgentArray n → ℝ × AgentArray n)
    (A : Points n → Points n → Points n) (s : AgentArray n) :
    Run integrator A (fun k => (runOf integrator A s k).2) (fun k => (runOf integrator A s k).1) := by
  refine ⟨rfl, fun k => ⟨⟨(runOf integrator A s k).2.dtype, fun i =>
    { (runOf integrator A s k).2.rows i with
      force := ((runOf integrator A s k).2.rows i).mass • A (positions (runOf integrator A s k).2)
        (velocities (runOf integrator A s k).2) i }⟩, ⟨rfl, fun i => rfl⟩, ?_⟩⟩
  simp only [runOf, add_sub_cancel_left]

/-- The law of constant acceleration `(1, 0)` and its solution from rest. -/
noncomputable def constantLaw : Points 1 → Points 1 → Points 1 := fun _ _ _ => (1, 0)

noncomputable def constantPath (t : ℝ) : Points 1 := fun _ => (t ^ 2 / 2, 0)

noncomputable def constantSpeed (t : ℝ) : Points 1 := fun _ => (t, 0)

theorem constant_solves (T : ℝ) : Solves constantLaw T constantPath constantSpeed := by
  refine ⟨fun t _ => HasDerivAt.hasDerivWithinAt (hasDerivAt_pi.2 fun i => ?_),
    fun t _ => HasDerivAt.hasDerivWithinAt (hasDerivAt_pi.2 fun i => ?_)⟩
  · have h2 : HasDerivAt (fun t : ℝ => t ^ 2 / 2) t t := by
      have := (hasDerivAt_pow 2 t).div_const 2
      simpa using this
    exact h2.prodMk (hasDerivAt_const t (0 : ℝ))
  · exact (hasDerivAt_id t).prodMk (hasDerivAt_const t (0 : ℝ))

theorem constant_lipschitz : LipschitzLaw constantLaw 0 := by
  intro x v x' v'
  rw [show constantLaw x v - constantLaw x' v' = 0 from sub_self _, norm_zero, zero_mul]

/-- An agent of 1 kg at rest under a force of 1 N. -/
noncomputable def pushedAgent : AgentArray 1 :=
  ⟨.const .circular, fun _ => { Agent.default with mass := 1, forcePrev := (1, 0) }⟩

theorem pushed_start : Massive pushedAgent ∧ Settled constantLaw pushedAgent ∧
    positions pushedAgent = constantPath 0 ∧ velocities pushedAgent = constantSpeed 0 := by
  refine ⟨fun i => by norm_num [pushedAgent], fun i => ?_, ?_, ?_⟩
  · simp [pushedAgent, constantLaw]
  · funext i; simp [positions, pushedAgent, Agent.default, Agent.zero, constantPath]
  · funext i; simp [velocities, pushedAgent, Agent.default, Agent.zero, constantSpeed]

end CrowdDynamics
