import Verif.Model.Integrator
import Mathlib.Analysis.Calculus.Deriv.Basic

/-!
# Specification of convergence

A law of motion `A` gives the accelerations of `n` agents for their positions and velocities. The norm
of a family of vectors is the largest absolute value of all coordinates of all vectors.
-/

namespace CrowdDynamics.Spec

/-- The positions and velocities of all agents. -/
abbrev Points (n : ℕ) : Type := Fin n → ℝ × ℝ

/-- Positions `X` and velocities `W` solve the equation of motion `X'' = A (X, X')` up to time `T`. -/
structure Solves {n : ℕ} (A : Points n → Points n → Points n) (T : ℝ) (X W : ℝ → Points n) : Prop where
  position : ∀ t ∈ Set.Icc 0 T, HasDerivWithinAt X (W t) (Set.Icc 0 T) t
  velocity : ∀ t ∈ Set.Icc 0 T, HasDerivWithinAt W (A (X t) (W t)) (Set.Icc 0 T) t

/-- Accelerations change at most by `L` times the change of positions and velocities. -/
def LipschitzLaw {n : ℕ} (A : Points n → Points n → Points n) (L : ℝ) : Prop :=
  ∀ x v x' v', ‖A x v - A x' v'‖ ≤ L * (‖x - x'‖ + ‖v - v'‖)

/-- The positions in an array of agents. -/
def positions {n : ℕ} (s : AgentArray n) : Points n := fun i => (s.rows i).position

/-- The velocities in an array of agents. -/
def velocities {n : ℕ} (s : AgentArray n) : Points n := fun i => (s.rows i).velocity

/-- How far an array of agents is from positions `x` and velocities `v`. -/
noncomputable def deviation {n : ℕ} (s : AgentArray n) (x v : Points n) : ℝ :=
  ‖positions s - x‖ + ‖velocities s - v‖

/-- The array `s'` is the array `s` after all forces are set to mass times acceleration. -/
def ForcesSet {n : ℕ} (A : Points n → Points n → Points n) (s s' : AgentArray n) : Prop :=
  s'.dtype = s.dtype ∧ ∀ i, s'.rows i =
    { s.rows i with force := (s.rows i).mass • A (positions s) (velocities s) i }

/-- The arrays `S 0`, `S 1`, … at times `t 0 = 0`, `t 1`, … arise by setting the forces and calling an
integrator, which returns time step and new array, over and over. -/
structure Run {n : ℕ} (integrator : AgentArray n → ℝ × AgentArray n)
    (A : Points n → Points n → Points n) (S : ℕ → AgentArray n) (t : ℕ → ℝ) : Prop where
  start : t 0 = 0
  step : ∀ k, ∃ s, ForcesSet A (S k) s ∧ integrator s = (t (k + 1) - t k, S (k + 1))

/-- All agents have a positive mass. -/
def Massive {n : ℕ} (s : AgentArray n) : Prop := ∀ i, 0 < (s.rows i).mass

/-- The force stored from the last step is the force that the law gives now. -/
def Settled {n : ℕ} (A : Points n → Points n → Points n) (s : AgentArray n) : Prop :=
  ∀ i, (s.rows i).forcePrev = (s.rows i).mass • A (positions s) (velocities s) i

end CrowdDynamics.Spec
