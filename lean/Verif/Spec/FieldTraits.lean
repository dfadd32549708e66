import Verif.Model.FieldTraits

/-!
# Fields with valid geometries
-/

namespace CrowdDynamics.Spec

/-- Neither domain nor obstacles are invalid or empty. -/
def WellFormed (lib : ShapelyLib) (f : Field) : Prop :=
  (∀ d, f.domain = some d →
    lib.isValid (.polygon d.1 d.2) = true ∧ lib.isEmpty (.polygon d.1 d.2) = false) ∧
  ∀ g, f.obstacles = some g → lib.isValid g = true ∧ lib.isEmpty g = false

/-- A valid geometry that is not empty. -/
def Acceptable (lib : ShapelyLib) (g : Geom) : Prop :=
  g ≠ .other ∧ lib.isValid g = true ∧ lib.isEmpty g = false

end CrowdDynamics.Spec
