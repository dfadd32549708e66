import Verif.Model.Geometry
import Verif.Spec.Sampling

/-!
# The outline of a geometry

Only the data types `Geom` and `Grid` of the model are used.
-/

namespace CrowdDynamics.Spec

open CrowdDynamics

/-- Consecutive pairs of a list of points. -/
def consecutive : List (ℝ × ℝ) → List ((ℝ × ℝ) × (ℝ × ℝ))
  | a :: b :: t => (a, b) :: consecutive (b :: t)
  | _ => []

mutual

/-- All edges of a geometry: of the line strings, and of all rings of polygons. -/
def outline : Geom → List ((ℝ × ℝ) × (ℝ × ℝ))
  | .point _ => []
  | .lineString c => consecutive c
  | .polygon ext ints => consecutive ext ++ (ints.map consecutive).flatten
  | .multi parts => outlines parts
  | .other => []

/-- All edges of a list of geometries. -/
def outlines : List Geom → List ((ℝ × ℝ) × (ℝ × ℝ))
  | [] => []
  | g :: gs => outline g ++ outlines gs

end

mutual

/-- The geometry with all holes filled. -/
def fillHoles : Geom → Geom
  | .polygon ext _ => .polygon ext []
  | .multi parts => .multi (fillHolesAll parts)
  | g => g

/-- A list of geometries with all holes filled. -/
def fillHolesAll : List Geom → List Geom
  | [] => []
  | g :: gs => fillHoles g :: fillHolesAll gs

end

/-- The geometry consists of points, line strings, polygons and collections of these. -/
inductive Supported : Geom → Prop
  | point (p) : Supported (.point p)
  | lineString (c) : Supported (.lineString c)
  | polygon (ext ints) : Supported (.polygon ext ints)
  | multi (parts) : (∀ g ∈ parts, Supported g) → Supported (.multi parts)

/-- The geometry is supported and has no polygon with holes in it. -/
inductive HoleFree : Geom → Prop
  | point (p) : HoleFree (.point p)
  | lineString (c) : HoleFree (.lineString c)
  | polygon (ext) : HoleFree (.polygon ext [])
  | multi (parts) : (∀ g ∈ parts, HoleFree g) → HoleFree (.multi parts)

/-- A single point, line string or polygon. -/
def Single : Geom → Prop
  | .point _ | .lineString _ | .polygon _ _ => True
  | _ => False

mutual

/-- The pixels that have to be drawn for a geometry without holes, by what the drawing library
says about lines and polygons. -/
def pixels (lib : DrawLib) (indicer : ℝ × ℝ → ℤ × ℤ) : Geom → List (ℤ × ℤ)
  | .point _ => []
  | .lineString c => ((consecutive c).map fun s => lib.line (indicer s.1) (indicer s.2)).flatten
  | .polygon ext _ => lib.polygon (ext.map indicer) ++ lib.perimeter (ext.map indicer)
  | .multi parts => pixelsAll lib indicer parts
  | .other => []

/-- The pixels for a list of geometries. -/
def pixelsAll (lib : DrawLib) (indicer : ℝ × ℝ → ℤ × ℤ) : List Geom → List (ℤ × ℤ)
  | [] => []
  | g :: gs => pixels lib indicer g ++ pixelsAll lib indicer gs

end

/-- The index `k` of an array of the given size stands for place `i`; negative indices count
from the end. -/
def Place (size : ℕ) (k : ℤ) (i : ℕ) : Prop := i < size ∧ (k = i ∨ k = i - size)

/-- The pixel `(x, y)` lies in row `i` and column `j`. -/
def PixelAt (rows cols : ℕ) (p : ℤ × ℤ) (i j : ℕ) : Prop := Place rows p.2 i ∧ Place cols p.1 j

end CrowdDynamics.Spec
