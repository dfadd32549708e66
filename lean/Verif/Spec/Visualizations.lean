import Verif.Model.Visualizations
import Mathlib.Analysis.Convex.Segment
import Mathlib.Algebra.Ring.Parity

/-!
# What drawings ought to show
-/

namespace CrowdDynamics.Spec

noncomputable section

open Classical

/-! ## Ranges of axes -/

/-- The length of a range. -/
def size (r : ℝ × ℝ) : ℝ := r.2 - r.1

/-- The range contains the data, with a margin of `m` on both sides. -/
def RoomFor (data : List ℝ) (m : ℝ) (r : ℝ × ℝ) : Prop := ∀ v ∈ data, r.1 + m ≤ v ∧ v ≤ r.2 - m

/-- The range contains the data with a margin that is the given fraction of the distance of any two
data points, on both sides. -/
def RoomForFraction (data : List ℝ) (margin : ℝ) (r : ℝ × ℝ) : Prop :=
  ∀ v ∈ data, ∀ w ∈ data, RoomFor data (margin * (v - w)) r

/-- As much space below the smallest as above the largest value. -/
def CentredOn (data : List ℝ) (r : ℝ × ℝ) : Prop :=
  ∃ lo hi, IsLeast {v | v ∈ data} lo ∧ IsGreatest {v | v ∈ data} hi ∧ lo - r.1 = r.2 - hi

/-! ## Geometries -/

/-- The points on a path through the given points. -/
def onPath : List Vec → Set Vec
  | [] => ∅
  | [p] => {p}
  | p :: q :: rest => segment ℝ p q ∪ onPath (q :: rest)

/-- The ray from `p` to the right meets the edge from `a` to `b`. -/
def Meets (p a b : Vec) : Prop :=
  ¬ (p.2 < a.2 ↔ p.2 < b.2) ∧ p.1 < a.1 + (b.1 - a.1) * (p.2 - a.2) / (b.2 - a.2)

/-- How many edges of the path the ray meets. -/
def crossings (p : Vec) : List Vec → ℕ
  | a :: b :: rest => (if Meets p a b then 1 else 0) + crossings p (b :: rest)
  | _ => 0

/-- The points on and inside of a closed ring. -/
def filling (ring : List Vec) : Set Vec := {p | p ∈ onPath ring ∨ Odd (crossings p ring)}

/-- The points of a geometry; holes of polygons are open. -/
inductive PointOf : Geom → Vec → Prop
  | point (p : Vec) : PointOf (.point p) p
  | line {c p} : p ∈ onPath c → PointOf (.lineString c) p
  | polygon {ext holes p} : p ∈ filling ext → (∀ h ∈ holes, p ∈ filling h → p ∈ onPath h) →
      PointOf (.polygon ext holes) p
  | part {gs g p} : g ∈ gs → PointOf g p → PointOf (.multi gs) p

/-- All parts are points, lines and polygons. -/
inductive Proper : Geom → Prop
  | point (p : Vec) : Proper (.point p)
  | line (c : List Vec) : Proper (.lineString c)
  | polygon (ext : List Vec) (holes : List (List Vec)) : Proper (.polygon ext holes)
  | multi {gs : List Geom} : (∀ g ∈ gs, Proper g) → Proper (.multi gs)

/-- No polygon has a hole. -/
inductive Solid : Geom → Prop
  | point (p : Vec) : Solid (.point p)
  | line (c : List Vec) : Solid (.lineString c)
  | polygon (ext : List Vec) : Solid (.polygon ext [])
  | multi {gs : List Geom} : (∀ g ∈ gs, Solid g) → Solid (.multi gs)

/-- The points that a glyph shows of a geometry. -/
def shows : Glyph → Set Vec
  | .circle p => {p}
  | .line c => onPath c
  | .patch r => filling r
  | _ => ∅

/-- The points that some of the glyphs show. -/
def visible (glyphs : List Glyph) : Set Vec := {p | ∃ g ∈ glyphs, p ∈ shows g}

/-- The points of a field: domain, spawns, targets and obstacles. -/
def PointOfField (f : Field) (p : Vec) : Prop :=
  (∃ d, f.domain = some d ∧ PointOf (.polygon d.1 d.2) p) ∨ (∃ g ∈ f.spawns, PointOf g p) ∨
    (∃ g ∈ f.targets, PointOf g p) ∨ ∃ g, f.obstacles = some g ∧ PointOf g p

/-- All geometries of the field are of the given kind. -/
def AllOf (P : Geom → Prop) (f : Field) : Prop :=
  (∀ d, f.domain = some d → P (.polygon d.1 d.2)) ∧ (∀ g ∈ f.spawns, P g) ∧
    (∀ g ∈ f.targets, P g) ∧ ∀ g, f.obstacles = some g → P g

/-! ## Maps -/

/-- The part of the plane that shows the entry `(i, j)` of an image; row 0 is at the bottom. -/
def pixel (g : Grid ℝ) (x y dw dh : ℝ) (i j : ℕ) : Set Vec :=
  {p | x + j * (dw / g.cols) ≤ p.1 ∧ p.1 ≤ x + (j + 1) * (dw / g.cols) ∧
    y + i * (dh / g.rows) ≤ p.2 ∧ p.2 ≤ y + (i + 1) * (dh / g.rows)}

/-- The direction of a glyph that points upwards before it is turned by `angle`. -/
def turned (angle : ℝ) : Vec := (-Real.sin angle, Real.cos angle)

/-! ## File names -/

/-- The last component of the path ends with the extension, and something other than dots precedes
the extension. -/
def HasExtension (path ext : Text) : Prop :=
  ∃ dir stem : Text, path = dir ++ stem ++ ext ∧ (dir = [] ∨ ∃ d, dir = d ++ ['/']) ∧ '/' ∉ stem ∧
    ∃ c ∈ stem, c ≠ '.'

end

end CrowdDynamics.Spec
