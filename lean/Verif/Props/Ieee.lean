import Verif.Proofs.IeeeCases
import Verif.Proofs.IeeeLength
import Verif.Props.CoreTests

/-!
# C184: the social force is a number
-/

namespace CrowdDynamics

open Spec Real

/-- **C184** (full statement, refuted below): for agents of ordinary size and speed the social
force is computed without an exception, and its components are finite numbers. -/
def C184_statement : Prop :=
  ∀ ai aj : Agent, SmallAgent ai → SmallAgent aj →
    ∃ p q r s : ℝ, forceSocialCircularI Arith.machine ai aj =
      .ok ((.num p, .num q), (.num r, .num s))

/-- **C184** (refutation): an agent that touches another and slides past it gets the force NaN.
The time to collision is positive only because the square of the speed of approach, about
`10 ^ -160` m/s, was rounded; the magnitude of the force is then infinite, and truncating an
infinite vector multiplies infinity by zero. -/
theorem C184_nan_fails : ¬ C184_statement ∧
    ∃ ai aj : Agent, SmallAgent ai ∧ SmallAgent aj ∧
      ∃ y z, forceSocialCircularI Arith.machine ai aj = .ok ((.nan, y), (.nan, z)) := by
  have hs := slider_small (T := 50) (by norm_num) (by norm_num)
  obtain ⟨y, z, h⟩ := slider_nan
  refine ⟨fun H => ?_, slider 50, stander, hs, stander_small, y, z, h⟩
  obtain ⟨p, q, r, s, e⟩ := H _ _ hs stander_small
  rw [h] at e
  injection e with e
  injection e with e
  injection e with e
  exact F64.noConfusion e

/-- **C184** (refutation): if the agent slides past at one metre per second, the square of the time
to collision is rounded to zero, and the division by it raises `ZeroDivisionError`, whatever the
library functions return. -/
theorem C184_zero_division_fails :
    ∃ ai aj : Agent, SmallAgent ai ∧ SmallAgent aj ∧ ai.velocity.2 = 1 ∧
      ∀ A : Arith, A.rnd = fl64 → forceSocialCircularI A ai aj = .error .other :=
  ⟨slider 0, stander, slider_small le_rfl (by norm_num), stander_small,
    show (2 : ℝ) ^ (-0 : ℤ) = 1 by norm_num, fun _ hr => slider_zero_division hr⟩

/-- **C184** (what holds): if the coordinates, velocities and radii are also multiples of `2 ^ -60`
(less than `10 ^ -18`), no exception is raised, and the components of the forces are the finite
numbers that the rounded operations without overflow give. -/
theorem C184_finite_partial {A : Arith} (hr : A.rnd = fl64) (hh : AccurateHypot A.hypot)
    (he : SaneExp A.exp) {ai aj : Agent} (hi : ModerateAgent ai) (hj : ModerateAgent aj) :
    ∃ p q r s : ℝ, forceSocialCircularI A ai aj = .ok ((.num p, .num q), (.num r, .num s)) ∧
      forceSocialCircularF A ai aj = ((p, q), (r, s)) :=
  ⟨_, _, _, _, forceSocialCircularI_num hr hh he hi hj, rfl⟩

/-- **C184** (what holds): for all agents, if the forces have finite components, then they are not
longer than 2000 N, up to `10 ^ -9` N. -/
theorem C184_length_partial {A : Arith} (hr : A.rnd = fl64) (hh : AccurateHypot A.hypot)
    {ai aj : Agent} {p q r s : ℝ}
    (h : forceSocialCircularI A ai aj = .ok ((.num p, .num q), (.num r, .num s))) :
    √(p ^ 2 + q ^ 2) ≤ 2000 + 1 / 10 ^ 9 ∧ √(r ^ 2 + s ^ 2) ≤ 2000 + 1 / 10 ^ 9 :=
  forceSocialCircularI_length hr hh h

/-- The hypotheses of `C184_finite_partial` hold for an agent that walks towards another. -/
example : ∃ p q r s : ℝ, forceSocialCircularI Arith.machine comer stander =
    .ok ((.num p, .num q), (.num r, .num s)) ∧
      forceSocialCircularF Arith.machine comer stander = ((p, q), (r, s)) :=
  C184_finite_partial rfl accurate_machine sane_machine comer_moderate stander_moderate

/-- The hypotheses of `C184_length_partial` hold for these agents. -/
example : ∃ p q r s : ℝ, forceSocialCircularI Arith.machine comer stander =
    .ok ((.num p, .num q), (.num r, .num s)) ∧ √(p ^ 2 + q ^ 2) ≤ 2000 + 1 / 10 ^ 9 := by
  obtain ⟨p, q, r, s, h, -⟩ :=
    C184_finite_partial rfl accurate_machine sane_machine comer_moderate stander_moderate
  exact ⟨p, q, r, s, h, (C184_length_partial rfl accurate_machine h).1⟩

/-- The agents of the refutations are small, as `C184_statement` asks. -/
example : SmallAgent (slider 50) ∧ SmallAgent stander :=
  ⟨slider_small (by norm_num) (by norm_num), stander_small⟩

end CrowdDynamics
