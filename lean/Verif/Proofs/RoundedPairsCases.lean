import Verif.Proofs.RoundedTotal

/-!
# Cases and helper lemmas for `Verif.Props.RoundedPairs`
-/

namespace CrowdDynamics

open Spec

/-- An agent that stands at `(x, 0)`; three of them are the witness below. -/
noncomputable def axisAgent (x r : ℝ) : Agent :=
  { Agent.default with
    mass := 80, position := (x, 0), velocity := 0, radius := r, mu := 1, kappa := 0, damping := 0,
    force := 0 }

theorem axis_pair {xi xj ri rj D R h : ℝ} (hD : fl64 (xi - xj) = -D) (hD0 : 0 < D)
    (hR : fl64 (ri + rj) = R) (hh : fl64 (D - R) = h) (hneg : h < 0) (fi fj : Vec) :
    pairForcesF Arith.machine { axisAgent xi ri with force := fi }
      { axisAgent xj rj with force := fj } = some ((h, 0), (-h, 0)) :=
  standing_pair rfl rfl rfl rfl rfl rfl rfl rfl rfl rfl hD hD0 hR hh hneg

/-- Agents with given forces along the axis. -/
def pushed {n : ℕ} (base : Crowd n) (F : Fin n → ℝ) : Crowd n :=
  fun k => { base k with force := (F k, 0) }

theorem pushed_step {n : ℕ} {i j : Fin n} (hij : i ≠ j) (base : Crowd n) (F : Fin n → ℝ) {h : ℝ}
    (hp : pairForcesF Arith.machine { base i with force := (F i, 0) }
      { base j with force := (F j, 0) } = some ((h, 0), (-h, 0))) :
    interactionAgentAgentCircularF Arith.machine i j (pushed base F) =
      pushed base (Function.update (Function.update F i (fl64 (F i + h))) j
        (fl64 (F j + -h))) := by
  have hz : fl64 (0 + 0) = 0 := by rw [add_zero, fl64_zero]
  have hr : Arith.machine.rnd = fl64 := rfl
  unfold interactionAgentAgentCircularF
  rw [show pushed base F i = { base i with force := (F i, 0) } from rfl,
    show pushed base F j = { base j with force := (F j, 0) } from rfl, hp]
  simp only [addForceF, hr]
  funext k
  unfold pushed
  by_cases hj : k = j
  · subst hj
    simp only [Function.update_self, Function.update_of_ne hij.symm, hz]
  · by_cases hi : k = i
    · subst hi
      simp only [Function.update_self, Function.update_of_ne hij, hz]
    · simp only [Function.update_of_ne hj, Function.update_of_ne hi]

/-- Two overlapping agents with the same parameters have forces. -/
theorem overlapping_pair : pairForcesF Arith.machine (axisAgent 0 (1 / 2)) (axisAgent (1 / 2) (1 / 2)) =
    some ((-1 / 2, 0), (1 / 2, 0)) := by
  have h2 : fl64 (1 / 2) = 1 / 2 := by
    have := fl64_two_zpow (e := -1) (by norm_num); norm_num at this ⊢; exact this
  have h1 : fl64 1 = 1 := by have := fl64_int (n := 1) (by norm_num); simpa using this
  have := axis_pair (xi := 0) (xj := 1 / 2) (ri := 1 / 2) (rj := 1 / 2) (D := 1 / 2) (R := 1)
    (h := -(1 / 2)) (by rw [zero_sub, fl64_neg, h2]) (by norm_num) (by norm_num [h1])
    (by rw [show (1 : ℝ) / 2 - 1 = -(1 / 2) by norm_num, fl64_neg, h2]) (by norm_num) 0 0
  have e : (-1 / 2 : ℝ) = -(1 / 2) := by norm_num
  rw [e]
  rw [neg_neg] at this
  exact this

end CrowdDynamics
