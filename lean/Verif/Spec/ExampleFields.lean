import Verif.Model.ExampleFields
import Mathlib.Analysis.Convex.Topology
import Mathlib.Topology.Order.DenselyOrdered
import Mathlib.Topology.Instances.Real.Lemmas

/-!
# Specification of the shipped fields
-/

namespace CrowdDynamics.Spec

/-- Only obstacles and targets lie on the boundary of the domain: whoever leaves the domain goes
through one of them. -/
def Enclosed (f : Plan) : Prop :=
  ∀ p ∈ frontier f.domain, p ∈ f.obstacles ∨ ∃ t ∈ f.targets, p ∈ segment ℝ t.1 t.2

/-- Obstacles, targets and spawns are parts of the domain, as documented at
crowddynamics/simulation/field.py:34-68. -/
def Contained (f : Plan) : Prop :=
  f.obstacles ⊆ f.domain ∧ (∀ t ∈ f.targets, segment ℝ t.1 t.2 ⊆ f.domain) ∧
    ∀ s ∈ f.spawns, s ⊆ f.domain

/-- No obstacle stands in an exit; the ends of an exit may touch obstacles. -/
def FreeExits (f : Plan) : Prop :=
  ∀ t ∈ f.targets, t.1 ≠ t.2 → ∀ p ∈ openSegment ℝ t.1 t.2, p ∉ f.obstacles

/-- All points of `s` have at least the distance `d` from all points of `t`. -/
def Clear (d : ℝ) (s t : Set Vec) : Prop :=
  ∀ p ∈ s, ∀ q ∈ t, d ^ 2 ≤ (p.1 - q.1) ^ 2 + (p.2 - q.2) ^ 2

/-- The field has walls all around. -/
def Walled : ExampleField → Prop
  | .outdoor _ _ => False
  | .pillar _ _ _ => False
  | _ => True

/-- A reference to a target: none, or the index of a target. -/
def RefersTo (n : ℕ) (k : ℤ) : Prop := k = -1 ∨ (0 ≤ k ∧ k < n)

/-- The numbers of leaders and of followers that the parameters of a simulation ask for; `none` for
simulations without leaders. -/
def rolesAsked : ExampleSimulation → Option (ℕ × ℕ)
  | .rounding leaders herding _ _ => some (leaders, herding)
  | .avoidObstacle leaders herding _ _ _ _ => some (leaders, herding)
  | .closedRoom leaders herding _ _ => some (leaders, herding)
  | .fourExitsLeaders leaders herding _ => some (leaders, herding)
  | .fixedPlacing leaders herding _ => some (leaders, herding)
  | _ => none

/-- The number of members of the groups for which `q` holds. -/
def membersWith (q : GroupPlan → Bool) (groups : List GroupPlan) : ℕ :=
  ((groups.filter q).map (·.size)).sum

/-- The ray from `p` in the direction `d` reaches the segment. -/
def Reaches (p d : Vec) (t : Vec × Vec) : Prop :=
  ∃ s : ℝ, 0 ≤ s ∧ (p.1 + s * d.1, p.2 + s * d.2) ∈ segment ℝ t.1 t.2

end CrowdDynamics.Spec
