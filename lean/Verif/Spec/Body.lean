import Verif.Spec.Placement
import Verif.Model.BodyType

/-!
# Bodies: dimensions, inertia, and how a stored row relates to an agent object
-/

namespace CrowdDynamics.Spec

open CrowdDynamics

/-- The row stores the dimensions and the mass of the object. -/
structure StoresBody (a : Agent) (b : BodyObj) : Prop where
  radius : a.radius = b.val .radius
  rT : a.rT = b.val .rT
  rS : a.rS = b.val .rS
  rTs : a.rTs = b.val .rTs
  mass : a.mass = b.val .mass
  inertiaRot : a.inertiaRot = b.val .inertiaRot
  targetVelocity : a.targetVelocity = b.val .targetVelocity

/-- Whenever radius and a ratio are positive, the dimension is ratio times radius. -/
def ProportionalBody (b : BodyObj) : Prop :=
  0 < b.val .radius →
    (0 < b.val .ratioRt → b.val .rT = b.val .ratioRt * b.val .radius) ∧
    (0 < b.val .ratioRs → b.val .rS = b.val .ratioRs * b.val .radius) ∧
    (0 < b.val .ratioTs → b.val .rTs = b.val .ratioTs * b.val .radius)

/-- Rotational inertia of a body of the given mass and radius, scaled from a reference body
of 80 kg, 0.27 m and `4π` kg m². -/
noncomputable def bodyInertia (mass radius : ℝ) : ℝ :=
  4 * Real.pi * (mass / 80) * (radius / 0.27) ^ 2

/-- The assignment does not write the torso radius, shoulder radius or shoulder distance
directly. -/
def NotADimension : BodyKw → Prop
  | .attr a _ => a ≠ .rT ∧ a ≠ .rS ∧ a ≠ .rTs
  | .bodyType _ => True

/-- The configuration file does not write those either. -/
def NoDimensions (cfg : List (String × List (BodyAttr × ℝ))) : Prop :=
  ∀ e ∈ cfg, ∀ kv ∈ e.2, kv.1 ≠ .rT ∧ kv.1 ≠ .rS ∧ kv.1 ≠ .rTs

/-- All random numbers lie within the bounds of the truncated normal distribution. -/
def InTruncRange (z : ℕ → ℝ → ℝ → ℝ) : Prop :=
  ∀ k a b, a ≤ b → a ≤ z k a b ∧ z k a b ≤ b

/-- The names in the shipped configuration. -/
def shippedNames : List String := ["adult", "male", "female", "child", "eldery"]

/-- The documented range of an attribute: no value is negative, and the ratios are at most 1. -/
def AllowedValue (a : BodyAttr) (v : ℝ) : Prop :=
  0 ≤ v ∧ (a = .ratioRt ∨ a = .ratioRs ∨ a = .ratioTs → v ≤ 1)

/-- All attributes have allowed values. -/
def InRange (b : BodyObj) : Prop := ∀ a, AllowedValue a (b.val a)

/-- The assignment gives an allowed value. -/
def AllowedKw : BodyKw → Prop
  | .attr a v => AllowedValue a v
  | .bodyType _ => True

end CrowdDynamics.Spec
