import Verif.Spec.Sight
import Verif.Spec.Interactions
import Mathlib.Analysis.SpecialFunctions.Trigonometric.Basic

/-!
# Neighbours, herding and leaders

Only the data types `Wall` and `Agent` of the model are used.
-/

namespace CrowdDynamics.Spec

open CrowdDynamics

noncomputable section

/-- Agent `i` can take agent `j` as a neighbour: a different agent, closer than `sight` and not
hidden by any wall. -/
def CanSee {n : ℕ} (pos : Fin n → ℝ × ℝ) (ws : List Wall) (sight : ℝ) (i j : Fin n) : Prop :=
  i ≠ j ∧ dist (pos i) (pos j) < sight ∧ ∀ w ∈ ws, ¬ Hides (pos i) (pos j) w

/-- `row` (with `none` for an unused place) lists the `k` nearest agents that `i` can see, each
once; if there are fewer than `k` then it lists all of them. -/
structure KNearest {n : ℕ} (pos : Fin n → ℝ × ℝ) (ws : List Wall) (sight : ℝ) (k : ℕ) (i : Fin n)
    (row : List (Option (Fin n))) : Prop where
  size : row.length = k
  once : ∀ (a b : ℕ) (j : Fin n), row[a]? = some (some j) → row[b]? = some (some j) → a = b
  sound : ∀ j, some j ∈ row → CanSee pos ws sight i j
  nearest : ∀ j, CanSee pos ws sight i j → some j ∉ row →
    none ∉ row ∧ ∀ j', some j' ∈ row → dist (pos i) (pos j') ≤ dist (pos i) (pos j)

/-- Cosine of the angle between two vectors (0 if one of them is zero). -/
def cosAngle (u v : ℝ × ℝ) : ℝ := inner u v / (len u * len v)

/-- An agent at `x` that moves with velocity `v` heads for the point `y`: the angle between `v`
and the direction to `y` is less than `phi`, but not zero. -/
def HeadsFor (x v y : ℝ × ℝ) (phi : ℝ) : Prop :=
  Real.cos phi < cosAngle (y - x) v ∧ cosAngle (y - x) v < 1

/-- A moving agent at `x` may follow a moving agent at `y` with velocity `w` that does not head
for `x`. -/
def MayFollow (x v y w : ℝ × ℝ) (phi : ℝ) : Prop := v ≠ 0 ∧ w ≠ 0 ∧ ¬ HeadsFor y w x phi

/-- The unit vector in the direction of `v`, zero for `v = 0`. -/
def dir (v : ℝ × ℝ) : ℝ × ℝ := (len v)⁻¹ • v

/-- The leader `j` determines what the follower `i`, who remembers the leader `memory`, does:
it is in sight, and either it is hidden and it is the one that `i` remembers, or it is visible
and `i` may follow it. -/
def Counts {n : ℕ} (a : Fin n → Agent) (ws : List Wall) (sight phi : ℝ) (i j : Fin n) : Prop :=
  (a j).isLeader = true ∧ dist (a i).position (a j).position ≤ sight ∧
    (((∃ w ∈ ws, Hides (a i).position (a j).position w) ∧ (a i).indexLeader = (j.val : ℤ)) ∨
     ((∀ w ∈ ws, ¬ Hides (a i).position (a j).position w) ∧
       MayFollow (a i).position (a i).velocity (a j).position (a j).velocity phi))

/-- `j` is a nearest one of the leaders that count for `i`. -/
def NearestCounting {n : ℕ} (a : Fin n → Agent) (ws : List Wall) (sight phi : ℝ)
    (i j : Fin n) : Prop :=
  Counts a ws sight phi i j ∧ ∀ j', Counts a ws sight phi i j' →
    dist (a i).position (a j).position ≤ dist (a i).position (a j').position

/-- The target that the follower `i` copies from agent `l`: agents are treated one after the
other, so it is the new target of `l` if `l` comes before `i` and the old one otherwise. -/
def copied {n : ℕ} (old new : Fin n → ℤ) (i l : Fin n) : ℤ := if l < i then new l else old l

/-- What happens to a follower `i`. `old` and `new` are the targets before and after the
treatment of all followers, `memory'`, `has`, `d` the new remembered leader, whether a strategy
was found and the new direction. -/
def FollowRule {n : ℕ} (a : Fin n → Agent) (ws : List Wall) (sight phi weight : ℝ)
    (old new : Fin n → ℤ) (i : Fin n) (memory' : ℤ) (has : Bool) (d : ℝ × ℝ) : Prop :=
  -- a visible leader is followed and remembered, the target is given up
  (∃ j, NearestCounting a ws sight phi i j ∧
    (∀ w ∈ ws, ¬ Hides (a i).position (a j).position w) ∧
    new i = -1 ∧ memory' = j.val ∧ has = true ∧
    d = dir (weight • dir ((a j).position - (a i).position) + (1 - weight) • dir (a j).velocity)) ∨
  -- the target of the remembered leader is copied
  (∃ l : Fin n, (a i).indexLeader = l.val ∧
    ((∃ j, NearestCounting a ws sight phi i j ∧
        ∃ w ∈ ws, Hides (a i).position (a j).position w) ∨
      ∀ j, ¬ Counts a ws sight phi i j) ∧
    new i = copied old new i l ∧ memory' = (a i).indexLeader ∧ has = true ∧ d = 0) ∨
  -- nobody to follow and nobody remembered
  ((∀ j, ¬ Counts a ws sight phi i j) ∧ (a i).indexLeader = -1 ∧ new i = old i ∧
    memory' = -1 ∧ has = false ∧ d = 0)

end

end CrowdDynamics.Spec
