import Verif.Model.Field

/-!
# Model of the validators of `Field`

Assignments to traits outside of `hold_trait_notifications` (that is, after the constructor).
-/

namespace CrowdDynamics

/-- What is used of shapely. Source: crowddynamics/simulation/field.py:93, 95, 102, 104. -/
structure ShapelyLib where
  /-- `is_valid` -/
  isValid : Geom → Bool
  /-- `is_empty` -/
  isEmpty : Geom → Bool

/-- A value that is assigned. Source: crowddynamics/simulation/field.py:72-79. -/
inductive TraitValue where
  /-- `None` -/
  | none
  /-- a geometry -/
  | geom (g : Geom)
  /-- anything else -/
  | object

/-- The body of both validators.
Source: crowddynamics/simulation/field.py:90-106 (`_valid_domain`, `_valid_obstacles`). -/
def validateGeom (lib : ShapelyLib) (value : Geom) : Except PyErr Geom :=
  if !lib.isValid value then .error .validation
  else if lib.isEmpty value then .error .validation
  else .ok value

/-- `field.domain = value`: `None` is accepted without validation, anything but a polygon raises
`TraitError`. Source: crowddynamics/simulation/field.py:72-75, 90-97. -/
def assignDomain (lib : ShapelyLib) (f : Field) : TraitValue → Except PyErr Unit × Field
  | .none => (.ok (), { f with domain := Option.none })
  | .geom (.polygon ext ints) =>
    match validateGeom lib (.polygon ext ints) with
    | .error e => (.error e, f)
    | .ok _ => (.ok (), { f with domain := some (ext, ints) })
  | _ => (.error .other, f)

/-- `field.obstacles = value`: `None` is accepted without validation, anything but a geometry raises
`TraitError`. Source: crowddynamics/simulation/field.py:76-79, 99-106. -/
def assignObstacles (lib : ShapelyLib) (f : Field) : TraitValue → Except PyErr Unit × Field
  | .none => (.ok (), { f with obstacles := Option.none })
  | .geom .other => (.error .other, f)
  | .geom g =>
    match validateGeom lib g with
    | .error e => (.error e, f)
    | .ok g => (.ok (), { f with obstacles := some g })
  | .object => (.error .other, f)

/-- An assignment in a program. Source: crowddynamics/simulation/field.py:72-79. -/
inductive FieldAssignment where
  /-- to `domain` -/
  | domain (v : TraitValue)
  /-- to `obstacles` -/
  | obstacles (v : TraitValue)

/-- Source: crowddynamics/simulation/field.py:72-106. -/
def FieldAssignment.run (lib : ShapelyLib) (f : Field) : FieldAssignment → Except PyErr Unit × Field
  | .domain v => assignDomain lib f v
  | .obstacles v => assignObstacles lib f v

end CrowdDynamics
