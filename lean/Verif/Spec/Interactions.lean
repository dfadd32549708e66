import Verif.Spec.Placement
import Mathlib.Algebra.Order.Floor.Ring
import Mathlib.Algebra.Order.Archimedean.Real.Basic
import Mathlib.Data.Sym.Sym2
import Mathlib.Data.List.FinRange
import Mathlib.Algebra.BigOperators.Group.Finset.Basic
import Mathlib.Algebra.BigOperators.Pi

/-!
# Notions for the interaction properties

Only the stored data (`Agent` rows) are used, no functions of the model.
-/

namespace CrowdDynamics.Spec

open CrowdDynamics

/-- Two agents with the same physical parameters. -/
def SamePhysics (a b : Agent) : Prop :=
  a.mass = b.mass ∧ a.kSoc = b.kSoc ∧ a.tau0 = b.tau0 ∧ a.mu = b.mu ∧ a.kappa = b.kappa ∧
    a.damping = b.damping

/-- `b` differs from `a` at most in force and torque. -/
def OnlyForcesDiffer (a b : Agent) : Prop :=
  { b with force := a.force, torque := a.torque } = a

/-- `b` differs from `a` at most in the force. -/
def OnlyForceDiffers (a b : Agent) : Prop := { b with force := a.force } = a

/-- All pairs `(i, j)` with `i < j`. -/
def allPairs (n : ℕ) : List (Fin n × Fin n) :=
  (List.finRange n).flatMap fun i => ((List.finRange n).filter fun j => i < j).map fun j => (i, j)

/-- The list contains every unordered pair of different indices exactly once. -/
structure EnumeratesAll {n : ℕ} (l : List (Fin n × Fin n)) : Prop where
  distinct : ∀ p ∈ l, p.1 ≠ p.2
  once : (l.map fun p => s(p.1, p.2)).Nodup
  complete : ∀ i j, i ≠ j → (i, j) ∈ l ∨ (j, i) ∈ l

/-- What is assumed of the cell list library: the list contains no unordered pair twice, and
it contains (in one of the two orders) all pairs whose points are in the same or in adjacent
cells of some square grid of the given cell size. -/
structure EnumeratesNeighbours {n : ℕ} (pos : Fin n → ℝ × ℝ) (c : ℝ)
    (l : List (Fin n × Fin n)) : Prop where
  distinct : ∀ p ∈ l, p.1 ≠ p.2
  once : (l.map fun p => s(p.1, p.2)).Nodup
  complete : ∃ o : ℝ × ℝ, ∀ i j, i ≠ j →
    |⌊((pos i).1 - o.1) / c⌋ - ⌊((pos j).1 - o.1) / c⌋| ≤ 1 →
    |⌊((pos i).2 - o.2) / c⌋ - ⌊((pos j).2 - o.2) / c⌋| ≤ 1 → (i, j) ∈ l ∨ (j, i) ∈ l

/-- `f` is the contact force on an agent one of whose discs, with centre `c` and radius `r`,
is pressed against the point `q`: elastic repulsion and friction proportional to the overlap,
and the normal damping term, all with respect to the unit vector `m` from `q` to `c` (zero if
the points coincide). -/
def IsPush (a : Agent) (c : ℝ × ℝ) (r : ℝ) (q m f : ℝ × ℝ) : Prop :=
  dist c q • m = c - q ∧ (c ≠ q → len m = 1) ∧ (c = q → m = 0) ∧
    f = (r - dist c q) • (a.mu • m - (a.kappa * inner a.velocity (m.2, -m.1)) • (m.2, -m.1)) +
      (a.damping * inner a.velocity m) • m

/-- `e` is the force and torque that a wall between `p` and `q` exerts on an agent: none if the
wall is a single point or if no disc of the body reaches the wall, otherwise the contact force
of the disc that reaches farthest into the wall, acting at the point of the disc nearest to
the wall. (Circular agents have no torque.) -/
def IsWallEffect (k : Kind) (a : Agent) (p q : ℝ × ℝ) (e : (ℝ × ℝ) × ℝ) : Prop :=
  (p = q → e = 0) ∧
  (p ≠ q → ∃ d ∈ discs k a, ∃ z ∈ segment ℝ p q,
    (∀ d' ∈ discs k a, ∀ z' ∈ segment ℝ p q, dist d.1 z - d.2 ≤ dist d'.1 z' - d'.2) ∧
    (d.2 ≤ dist d.1 z → e = 0) ∧
    (dist d.1 z < d.2 → ∃ m : ℝ × ℝ, IsPush a d.1 d.2 z m e.1 ∧
      e.2 = match k with
        | .circular => 0
        | .threeCircle =>
          (d.1 - d.2 • m - a.position).1 * e.1.2 - (d.1 - d.2 • m - a.position).2 * e.1.1))

end CrowdDynamics.Spec
