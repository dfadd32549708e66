import Mathlib.Data.Real.Basic
import Mathlib.Algebra.BigOperators.Group.Finset.Basic

/-!
# Ticks of a Poisson clock

Nothing here refers to the model of the Python code.
-/

namespace CrowdDynamics.Spec

/-- Time of the tick number `k` (counted from 0) of a clock whose intervals are
`draws start, draws (start + 1), …`. -/
noncomputable def tick (draws : ℕ → ℝ) (start k : ℕ) : ℝ :=
  ∑ i ∈ Finset.range (k + 1), draws (start + i)

/-- Exactly the first `m` ticks of the clock are before `dt`. -/
def TicksBefore (draws : ℕ → ℝ) (dt : ℝ) (start m : ℕ) : Prop :=
  ∀ k, tick draws start k < dt ↔ k < m

/-- `events` holds, player after player, all ticks before `dt` of the clocks of the players;
the clock of each player uses the intervals that follow those of the player before. -/
inductive AllTicks (draws : ℕ → ℝ) (dt : ℝ) : List ℤ → ℕ → List (ℝ × ℤ) → Prop
  | nil (start : ℕ) : AllTicks draws dt [] start []
  | cons (i : ℤ) (players : List ℤ) (start m : ℕ) (rest : List (ℝ × ℤ)) :
      TicksBefore draws dt start m → AllTicks draws dt players (start + m + 1) rest →
      AllTicks draws dt (i :: players) start
        ((List.range m).map (fun k => (tick draws start k, i)) ++ rest)

/-- What is assumed of `np.argsort`: it returns the positions in an order in which the values
do not decrease. -/
def IsArgsort {α : Type} [LE α] [Zero α] (argsort : List α → List ℕ) : Prop :=
  ∀ l, (argsort l).Perm (List.range l.length) ∧
    ((argsort l).map fun j => l.getD j 0).Pairwise (· ≤ ·)

end CrowdDynamics.Spec
