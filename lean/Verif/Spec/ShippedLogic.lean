import Verif.Model.ShippedLogic

/-!
# The tree an expression stands for, and sensible orders of updates
-/

namespace CrowdDynamics.Spec

open CrowdDynamics

/-- The node that a constructor call makes. -/
inductive Makes : NodeCall → Node → Prop
  | plain (node) : Makes (.plain node) node
  | insideDomain (f ring holes) : f.domain = some (ring, holes) →
      Makes (.insideDomain f) (.insideDomain ring)
  | exitDetection (range) : 1 ≤ range → Makes (.exitDetection range) (.exitDetection range)

mutual

/-- The tree stands for the expression: a constructor gives a leaf, and `left << (r₁, …)` is the tree
of `left` with the trees of the `rᵢ` as further children of its root. -/
inductive Stands (kind : ℕ → Option Node) : LogicExpr → LTree → Prop
  | new {call i node} : kind i = some node → Makes call node → Stands kind (.new call) (.node i [])
  | shift {left right i cs ds} : Stands kind left (.node i cs) → StandAll kind right ds →
      Stands kind (.shift left right) (.node i (cs ++ ds))

/-- The trees stand for the expressions, in the same order. -/
inductive StandAll (kind : ℕ → Option Node) : List LogicExpr → List LTree → Prop
  | nil : StandAll kind [] []
  | cons {e es t ts} : Stands kind e t → StandAll kind es ts → StandAll kind (e :: es) (t :: ts)

end

mutual

/-- All constructor calls in the expression are possible: the fields have a domain and the ranges
are at least 1. -/
inductive Possible : LogicExpr → Prop
  | new {call node} : Makes call node → Possible (.new call)
  | shift {left right} : Possible left → PossibleAll right → Possible (.shift left right)

/-- The same for several expressions. -/
inductive PossibleAll : List LogicExpr → Prop
  | nil : PossibleAll []
  | cons {e es} : Possible e → PossibleAll es → PossibleAll (e :: es)

end

/-- Every node of the first kind comes before every node of the second kind. -/
def AllBefore (P Q : Node → Prop) (order : List Node) : Prop :=
  ∀ (i j : ℕ) (a b : Node), order[i]? = some a → order[j]? = some b → P a → Q b → i < j

/-- The nodes that add to the forces. -/
def AddsForces : Node → Prop
  | .fluctuation | .adjusting | .agentAgent _ | .agentObstacle => True
  | _ => False

/-- The nodes that set the directions and orientations that agents aim at. -/
def Steers : Node → Prop
  | .navigation _ _ _ | .leaderFollower _ | .herding _ _ | .exitDetection _ | .orientation => True
  | _ => False

/-- The node moves the agents according to the forces. -/
def Moves : Node → Prop
  | .integrator _ _ => True
  | _ => False

/-- The node turns aims into forces. -/
def Adjusts : Node → Prop
  | .adjusting => True
  | _ => False

/-- The node clears the forces. -/
def Clears : Node → Prop
  | .reset => True
  | _ => False

/-- An order of updates in which every step uses what it needs: aims are set before they are turned
into forces, all forces are added before the agents are moved, and cleared afterwards. -/
structure SensibleOrder (order : List Node) : Prop where
  steer : AllBefore Steers Adjusts order
  forces : AllBefore AddsForces Moves order
  clear : AllBefore Moves Clears order
  moves : ∃ x ∈ order, Moves x
  clears : ∃ x ∈ order, Clears x

/-- No forces act on the agents, now or in the step before. -/
def NoForces {n : ℕ} (s : SimState n) : Prop :=
  ∀ i, (s.agents.rows i).force = (0, 0) ∧ (s.agents.rows i).forcePrev = (0, 0) ∧
    (s.agents.dtype.kind = .threeCircle →
      (s.agents.rows i).torque = 0 ∧ (s.agents.rows i).torquePrev = 0)

/-- `t` is the result of `k` completed updates from `s`. -/
inductive AfterUpdates {σ : Type} (update : σ → Except PyErr Unit × σ) : ℕ → σ → σ → Prop
  | zero (s) : AfterUpdates update 0 s s
  | succ {k s t u} : AfterUpdates update k s t → update t = (.ok (), u) →
      AfterUpdates update (k + 1) s u

end CrowdDynamics.Spec
