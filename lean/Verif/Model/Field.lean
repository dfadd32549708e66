import Verif.Model.Navigation
import Verif.Model.Sampling

/-!
# Model of `crowddynamics/simulation/field.py`

The caches made by `lru_cache` belong to the class, so they are shared by all fields; a field is
identified by a number (objects are hashed by identity).
-/

namespace CrowdDynamics

noncomputable section

open Classical

/-- A field. The domain is a polygon, given by its exterior and interior rings.
Source: crowddynamics/simulation/field.py:72-85. -/
structure Field where
  /-- `domain` -/
  domain : Option (List Vec × List (List Vec))
  /-- `obstacles` -/
  obstacles : Option Geom
  /-- `targets` -/
  targets : List Geom
  /-- `spawns` -/
  spawns : List Geom

/-- `bounds` of a polygon: minimum and maximum of the coordinates of the exterior.
Source: shapely, used at crowddynamics/simulation/field.py:136. -/
def polygonBounds : List Vec → ℝ × ℝ × ℝ × ℝ
  | [] => (0, 0, 0, 0)
  | p :: ps =>
    (ps.foldl (fun m q => min m q.1) p.1, ps.foldl (fun m q => min m q.2) p.2,
      ps.foldl (fun m q => max m q.1) p.1, ps.foldl (fun m q => max m q.2) p.2)

/-- The argument `index` of `shortest_path_target`.
Source: crowddynamics/simulation/field.py:140-146. -/
inductive TargetIndex where
  /-- an integer -/
  | int (k : ℤ)
  /-- the string `'closest'` -/
  | closest
  /-- anything else -/
  | other

/-- `targets[index]` for a Python list. Source: crowddynamics/simulation/field.py:141. -/
def pyListGet {α : Type} (l : List α) (k : ℤ) : Except PyErr α :=
  match (npIndex l.length k).bind (fun i => l[i]?) with
  | some x => .ok x
  | none => .error .index

/-- A cache made by `lru_cache()`: entries from the most recently to the least recently used.
Source: crowddynamics/simulation/field.py:131, 138, 151, 155. -/
abbrev Lru (κ ν : Type) : Type := List (κ × ν)

/-- The default `maxsize` of `lru_cache`. Source: crowddynamics/simulation/field.py:131. -/
def lruSize : ℕ := 128

/-- The four caches. The keys start with the identity of the field.
Source: crowddynamics/simulation/field.py:131, 138, 151, 155. -/
structure Caches where
  /-- of `meshgrid(self, step)` -/
  mesh : Lru (ℕ × ℝ) MeshGrid
  /-- of `shortest_path_target(self, step, index, radius)` -/
  path : Lru (ℕ × ℝ × TargetIndex × ℝ) (Grid (Option Vec) × Grid (Option ℝ))
  /-- of `direction_map_obstacles(self, step)` -/
  obs : Lru (ℕ × ℝ) (Grid (Option Vec) × Grid ℝ)
  /-- of `navigation_to_target(self, index, step, radius, strength)` -/
  nav : Lru (ℕ × TargetIndex × ℝ × ℝ × ℝ) (MeshGrid × Grid (Option ℝ) × Grid (Option Vec))

/-- A call of a function decorated with `lru_cache`: a known key gives the stored value and becomes
the most recently used one; otherwise the body runs, and unless it raises, its value is stored
and the least recently used entries beyond the maximal size are dropped. `get` and `set` select
the cache. Source: functools, used at crowddynamics/simulation/field.py:131, 138, 151, 155. -/
def callCached {κ ν : Type} (get : Caches → Lru κ ν) (set : Caches → Lru κ ν → Caches) (key : κ)
    (body : Caches → Except PyErr ν × Caches) (c : Caches) : Except PyErr ν × Caches :=
  match (get c).find? (fun e => e.1 = key) with
  | some e => (.ok e.2, set c (e :: (get c).filter fun e' => e'.1 ≠ key))
  | none =>
    match body c with
    | (.error err, c) => (.error err, c)
    | (.ok v, c) => (.ok v, set c (((key, v) :: get c).take lruSize))

/-- Body of `Field.meshgrid`. Source: crowddynamics/simulation/field.py:132-136. -/
def meshgridBody (f : Field) (step : ℝ) : Except PyErr MeshGrid :=
  match f.domain with
  | none => .error .crowdDynamics
  | some d =>
    let b := polygonBounds d.1
    .ok (meshgrid step b.1 b.2.1 b.2.2.1 b.2.2.2)

/-- Source: crowddynamics/simulation/field.py:131-136 (`Field.meshgrid`). -/
def Field.meshgrid (fields : ℕ → Field) (self : ℕ) (step : ℝ) (c : Caches) :
    Except PyErr MeshGrid × Caches :=
  callCached Caches.mesh (fun c m => { c with mesh := m }) (self, step)
    (fun c => (meshgridBody (fields self) step, c)) c

/-- What is used of the libraries: those of `shortest_path` and the union of a nonempty list of
geometries (`reduce` raises `TypeError` for an empty one).
Source: crowddynamics/simulation/field.py:143 and crowddynamics/core/geometry.py:133-135. -/
structure FieldLib extends PathLib where
  /-- `union(*geoms)` -/
  union : List Geom → Geom

/-- The choice of the targets in `shortest_path_target`.
Source: crowddynamics/simulation/field.py:140-146. -/
def selectTargets (lib : FieldLib) (f : Field) : TargetIndex → Except PyErr Geom
  | .int k => pyListGet f.targets k
  | .closest => if f.targets = [] then .error .type else .ok (lib.union f.targets)
  | .other => .error .invalidType

/-- `self.domain` as an argument of `shortest_path`. It is not `None` there, because
`self.meshgrid` is evaluated before. Source: crowddynamics/simulation/field.py:148. -/
def Field.domainGeom (f : Field) : Geom :=
  match f.domain with
  | none => .other
  | some d => .polygon d.1 d.2

/-- Source: crowddynamics/simulation/field.py:138-149 (`Field.shortest_path_target`). -/
def Field.shortestPathTarget (lib : FieldLib) (fields : ℕ → Field) (self : ℕ) (step : ℝ)
    (index : TargetIndex) (radius : ℝ) (c : Caches) :
    Except PyErr (Grid (Option Vec) × Grid (Option ℝ)) × Caches :=
  callCached Caches.path (fun c m => { c with path := m }) (self, step, index, radius)
    (fun c =>
      match selectTargets lib (fields self) index with
      | .error e => (.error e, c)
      | .ok targets =>
        match Field.meshgrid fields self step c with
        | (.error e, c) => (.error e, c)
        | (.ok mgrid, c) =>
          (shortestPath lib.toPathLib mgrid (fields self).domainGeom targets
            (fields self).obstacles radius, c)) c

/-- Source: crowddynamics/simulation/field.py:151-153 (`Field.direction_map_obstacles`). -/
def Field.directionMapObstacles (lib : FieldLib) (fields : ℕ → Field) (self : ℕ) (step : ℝ)
    (c : Caches) : Except PyErr (Grid (Option Vec) × Grid ℝ) × Caches :=
  callCached Caches.obs (fun c m => { c with obs := m }) (self, step)
    (fun c =>
      match Field.meshgrid fields self step c with
      | (.error e, c) => (.error e, c)
      | (.ok mgrid, c) =>
        (CrowdDynamics.directionMapObstacles lib.toPathLib mgrid (fields self).obstacles, c)) c

/-- Source: crowddynamics/simulation/field.py:155-164 (`Field.navigation_to_target`). -/
def Field.navigationToTarget (lib : FieldLib) (fields : ℕ → Field) (self : ℕ)
    (index : TargetIndex) (step radius strength : ℝ) (c : Caches) :
    Except PyErr (MeshGrid × Grid (Option ℝ) × Grid (Option Vec)) × Caches :=
  callCached Caches.nav (fun c m => { c with nav := m }) (self, index, step, radius, strength)
    (fun c =>
      if (fields self).targets = [] then (.error .crowdDynamics, c)
      else
        match Field.shortestPathTarget lib fields self step index radius c with
        | (.error e, c) => (.error e, c)
        | (.ok t, c) =>
          match Field.directionMapObstacles lib fields self step c with
          | (.error e, c) => (.error e, c)
          | (.ok o, c) =>
            let dirMap := obstacleHandling o.2 o.1 t.1 radius strength
            match Field.meshgrid fields self step c with
            | (.error e, c) => (.error e, c)
            | (.ok mgrid, c) => (.ok (mgrid, t.2, dirMap), c)) c

/-- What is used of shapely in `_samples`: the exterior of the convex hull of
`spawn - obstacles.buffer(radius)`, or of `spawn`.
Source: crowddynamics/simulation/field.py:122-123. -/
structure HullLib where
  /-- `np.asarray((spawn - obstacles.buffer(radius)).convex_hull.exterior)` -/
  difference : Geom → Geom → ℝ → List Vec
  /-- `np.asarray(spawn.convex_hull.exterior)` -/
  plain : Geom → List Vec
  /-- the triangulation made by scipy -/
  delaunay : List Vec → List (Vec × Vec × Vec)

/-- One value of the generator `Field._samples` for the random numbers `x, r1, r2`.
Source: crowddynamics/simulation/field.py:119-124 (`_samples`); `if obstacles` is false for
`None` (an empty geometry is not modelled). -/
def fieldSamples (lib : HullLib) (spawn : Geom) (obstacles : Option Geom) (radius x r1 r2 : ℝ) :
    Option Vec :=
  let vertices := match obstacles with
    | some o => lib.difference spawn o radius
    | none => lib.plain spawn
  polygonSample lib.delaunay vertices x r1 r2

/-- Source: crowddynamics/simulation/field.py:126-129 (`Field.sample_spawn`), one value. -/
def Field.sampleSpawn (lib : HullLib) (f : Field) (spawnIndex : ℤ) (radius x r1 r2 : ℝ) :
    Except PyErr (Option Vec) := do
  let spawn ← pyListGet f.spawns spawnIndex
  .ok (fieldSamples lib spawn f.obstacles radius x r1 r2)

end

end CrowdDynamics
