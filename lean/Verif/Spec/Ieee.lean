import Verif.Model.Ieee

/-!
# Agents of moderate size and speed
-/

namespace CrowdDynamics.Spec

/-- The number is at most `2 ^ k` and a multiple of `2 ^ -60`, which is less than 1e-18. -/
def ModerateNumber (k : ℤ) (x : ℝ) : Prop := |x| ≤ 2 ^ k ∧ ∃ m : ℤ, x = m * (2 : ℝ) ^ (-60 : ℤ)

/-- An agent whose coordinates are at most a million metres, whose speeds and radii are at most a
thousand (in their units), all of them multiples of `2 ^ -60`, whose mass and factor of the social
force are at most a thousand, and whose time horizon is at least a thousandth of a second. -/
structure ModerateAgent (a : Agent) : Prop where
  /-- coordinates -/
  position : ModerateNumber 20 a.position.1 ∧ ModerateNumber 20 a.position.2
  /-- velocity -/
  velocity : ModerateNumber 10 a.velocity.1 ∧ ModerateNumber 10 a.velocity.2
  /-- radius -/
  radius : ModerateNumber 10 a.radius
  /-- mass -/
  mass : |a.mass| ≤ 2 ^ (10 : ℤ)
  /-- `k_soc` -/
  kSoc : |a.kSoc| ≤ 2 ^ (10 : ℤ)
  /-- `tau_0` -/
  tau0 : (2 : ℝ) ^ (-10 : ℤ) ≤ a.tau0 ∧ a.tau0 ≤ 2 ^ (10 : ℤ)

/-- The number is a `float64` and at most `2 ^ k`. -/
def SmallFloat (k : ℤ) (x : ℝ) : Prop := fl64 x = x ∧ |x| ≤ 2 ^ k

/-- The same bounds for an agent, whose attributes may be any `float64`. -/
structure SmallAgent (a : Agent) : Prop where
  /-- coordinates -/
  position : SmallFloat 20 a.position.1 ∧ SmallFloat 20 a.position.2
  /-- velocity -/
  velocity : SmallFloat 10 a.velocity.1 ∧ SmallFloat 10 a.velocity.2
  /-- radius -/
  radius : SmallFloat 10 a.radius
  /-- mass -/
  mass : SmallFloat 10 a.mass
  /-- `k_soc` -/
  kSoc : SmallFloat 10 a.kSoc
  /-- `tau_0` -/
  tau0 : SmallFloat 10 a.tau0 ∧ (2 : ℝ) ^ (-10 : ℤ) ≤ a.tau0

/-- An `exp` that maps numbers that are not positive between zero and one. -/
def SaneExp (exp : ℝ → ℝ) : Prop := ∀ x ≤ 0, 0 ≤ exp x ∧ exp x ≤ 1

end CrowdDynamics.Spec
