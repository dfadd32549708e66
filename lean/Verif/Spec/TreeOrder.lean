import Verif.Model.Logic

/-!
# Trees: descent and order

Only the data type `LTree` of the model is used.
-/

namespace CrowdDynamics.Spec

open CrowdDynamics

/-- `s` is `t` or lies below it. -/
inductive Subtree : LTree → LTree → Prop
  | refl (t) : Subtree t t
  | inside {s c i cs} : c ∈ cs → Subtree s c → Subtree s (.node i cs)

/-- `s` lies in one of the trees. -/
def InForest (s : LTree) (forest : List LTree) : Prop := ∃ t ∈ forest, Subtree s t

/-- The node `a` exists. -/
def HasNode (forest : List LTree) (a : ℕ) : Prop := ∃ cs, InForest (.node a cs) forest

/-- The node `a` is a child of the node `b`. -/
def ChildOf (forest : List LTree) (a b : ℕ) : Prop :=
  ∃ cs ds, InForest (.node b cs) forest ∧ LTree.node a ds ∈ cs

/-- The node `a` lies strictly below the node `b`. -/
inductive BelowNode (forest : List LTree) : ℕ → ℕ → Prop
  | child {a b} : ChildOf forest a b → BelowNode forest a b
  | step {a b c} : ChildOf forest a b → BelowNode forest b c → BelowNode forest a c

/-- `a` occurs in the list before `b`. -/
def RunsBefore (l : List ℕ) (a b : ℕ) : Prop := ∃ l1 l2 l3, l = l1 ++ a :: l2 ++ b :: l3

/-- `b` occurs in the list immediately after `a`. -/
def RunsRightBefore (l : List ℕ) (a b : ℕ) : Prop := ∃ l1 l2, l = l1 ++ a :: b :: l2

/-- Every number is used for one node only. -/
def Distinct (forest : List LTree) : Prop := (preorderAll forest).Nodup

end CrowdDynamics.Spec
