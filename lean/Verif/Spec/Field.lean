import Verif.Spec.Outline
import Verif.Spec.Sampling
import Verif.Spec.Plane
import Verif.Model.Field
import Mathlib.Analysis.Convex.Hull

/-!
# Fields

Geometries on the grid of a field, and what is assumed about the libraries that build the hull of a
spawn.
-/

namespace CrowdDynamics.Spec

open CrowdDynamics

/-- A geometry without holes that lies on the grid of the field. -/
def Drawable (lib : FieldLib) (ext : List Vec) (step : ℝ) (g : Geom) : Prop :=
  ∀ m, m = meshgrid step (polygonBounds ext).1 (polygonBounds ext).2.1 (polygonBounds ext).2.2.1
    (polygonBounds ext).2.2.2 →
  HoleFree g ∧ ∀ p ∈ pixels lib.draw m.index g, ∃ i j, PixelAt m.shape.1 m.shape.2 p i j

/-- The part of the spawn where agents do not overlap with the obstacle. `region` gives the point
sets of geometries. -/
def freeRegion (region : Geom → Set Vec) (spawn o : Geom) (radius : ℝ) : Set Vec :=
  {p | p ∈ region spawn ∧ ∀ q ∈ region o, radius ≤ dist p q}

/-- What is assumed about shapely and scipy: the vertices span the convex hull of the free region,
and the triangles have corners among the vertices and a positive total area. -/
structure HullContract (region : Geom → Set Vec) (lib : HullLib) (spawn o : Geom) (radius : ℝ) :
    Prop where
  hull : convexHull ℝ {v | v ∈ lib.difference spawn o radius} =
    convexHull ℝ (freeRegion region spawn o radius)
  corners : ∀ t ∈ lib.delaunay (lib.difference spawn o radius),
    t.1 ∈ lib.difference spawn o radius ∧ t.2.1 ∈ lib.difference spawn o radius ∧
      t.2.2 ∈ lib.difference spawn o radius
  area : 0 < ((lib.delaunay (lib.difference spawn o radius)).map
    fun t => triArea t.1 t.2.1 t.2.2).sum

end CrowdDynamics.Spec
