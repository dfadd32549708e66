import Mathlib.Algebra.Order.Floor.Ring
import Mathlib.Algebra.Order.Field.Basic

/-!
# Specification of a spatial index: a log of insertions

Nothing here refers to the model of the Python code.
-/

namespace CrowdDynamics

/-- A call of the public interface. -/
inductive BlockOp (α V : Type) where
  /-- `bl[key] = value` -/
  | set (key : List α) (value : V)
  /-- `bl[item]` -/
  | get (item : List α)
  /-- `bl.nearest(item, radius)` -/
  | nearest (item : List α) (radius : ℤ)

/-- The insertions of a history, in order. -/
def insertions {α V : Type} : List (BlockOp α V) → List (List α × V)
  | [] => []
  | .set key value :: ops => (key, value) :: insertions ops
  | .get _ :: ops => insertions ops
  | .nearest _ _ :: ops => insertions ops

namespace Spec

variable {α : Type} [Field α] [LinearOrder α] [FloorRing α]

/-- Two points of equal dimension whose cell indices (cells of side `c`) differ by at
most `r` in every coordinate. -/
def CellsWithin (c : α) (r : ℤ) (p q : List α) : Prop :=
  List.Forall₂ (fun a b => |⌊a / c⌋ - ⌊b / c⌋| ≤ r) p q

/-- Two points of equal dimension that lie in the same cell. -/
def SameCell (c : α) (p q : List α) : Prop :=
  List.Forall₂ (fun a b => ⌊a / c⌋ = ⌊b / c⌋) p q

end Spec

end CrowdDynamics
