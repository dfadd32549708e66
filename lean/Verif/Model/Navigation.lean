import Verif.Model.Integrator
import Verif.Model.Geometry
import Mathlib.Analysis.SpecialFunctions.Pow.Real

/-!
# Model of `crowddynamics/core/steering/quickest_path.py`, `navigation.py`,
`obstacle_handling.py`, `orientation.py`

Direction maps are grids of `Option Vec`; `none` is NaN or a masked entry (both components are
always NaN or masked together; what the compiled functions read from a masked entry is treated
as undefined, too). The fast marching solver `skfmm`, the interpolation of scipy and
`skimage` are parameters.
-/

namespace CrowdDynamics

noncomputable section

open Classical

/-! ## `quickest_path.py` -/

/-- `astype(np.int64)`: truncation towards zero.
Source: the call at crowddynamics/core/steering/quickest_path.py:44. -/
def truncInt (x : ℝ) : ℤ := if 0 ≤ x then ⌊x⌋ else ⌈x⌉

/-- `np.arange(start, stop, step)`: `ceil((stop - start)/step)` values.
Source: the calls at crowddynamics/core/steering/quickest_path.py:36-37. -/
def arange (start stop step : ℝ) : List ℝ :=
  (List.range ⌈(stop - start) / step⌉.toNat).map fun k : ℕ => start + k * step

/-- Source: crowddynamics/core/steering/quickest_path.py:11-15 (`MeshGrid`). The function
`indicer` is the field `index` for a single position. -/
structure MeshGrid where
  /-- `values[0]` -/
  x : Grid ℝ
  /-- `values[1]` -/
  y : Grid ℝ
  /-- `shape` -/
  shape : ℕ × ℕ
  /-- `step` -/
  step : ℝ
  /-- `bounds` -/
  bounds : ℝ × ℝ × ℝ × ℝ
  /-- `indicer` -/
  index : Vec → ℤ × ℤ

/-- Source: crowddynamics/core/steering/quickest_path.py:22-49 (`meshgrid`). Step 0 (an exception
in the code) is not modelled. -/
def meshgrid (step minx miny maxx maxy : ℝ) : MeshGrid :=
  let x := arange minx (maxx + step) step
  let y := arange miny (maxy + step) step
  -- `np.meshgrid(x, y, indexing='xy')`
  let vx : Grid ℝ := ⟨y.length, x.length, fun _ j => x.getD j 0⟩
  let vy : Grid ℝ := ⟨y.length, x.length, fun i _ => y.getD i 0⟩
  { x := vx
    y := vy
    shape := (vx.rows, vx.cols)
    step := step
    bounds := (minx, miny, maxx, maxy)
    index := fun position =>
      (truncInt ((position.1 - minx) / step), truncInt ((position.2 - miny) / step)) }

/-- The solver `skfmm.distance` with `dx = step`: contour (the entries of `phi`) and mask give the
distances, `none` where masked. Exceptions of the solver (no zero contour) are `none` results.
Source: the call at crowddynamics/core/steering/quickest_path.py:115. -/
abbrev FmmSolver : Type := Grid ℝ → Grid Bool → ℝ → Option (Grid (Option ℝ))

/-- Source: crowddynamics/core/steering/quickest_path.py:54-117 (`distance_map`). -/
def distanceMap (lib : DrawLib) (fmm : FmmSolver) (mgrid : MeshGrid) (targets : Geom)
    (obstacles : Option Geom) : Except PyErr (Grid (Option ℝ)) := do
  let emptyRegion : ℝ := -1
  let targetRegion : ℝ := 1
  let contour : Grid ℝ := ⟨mgrid.shape.1, mgrid.shape.2, fun _ _ => emptyRegion⟩
  let mask : Grid Bool := ⟨mgrid.shape.1, mgrid.shape.2, fun _ _ => false⟩
  let contour ← drawGeom lib 0 mgrid.index targetRegion targets contour
  let mask ← match obstacles with
    | none => .ok mask
    | some o => drawGeom lib false mgrid.index true o mask
  match fmm contour mask mgrid.step with
  | none => .error .value
  | some dmap => .ok dmap

/-- One entry of `np.gradient` along one axis: `f` is the row or column of length `n ≥ 2`.
Differences with a masked entry are masked.
Source: numpy, called at crowddynamics/core/steering/quickest_path.py:158. -/
def gradient1 (n : ℕ) (f : ℕ → Option ℝ) (k : ℕ) : Option ℝ := do
  if k = 0 then
    let a ← f 1
    let b ← f 0
    some (a - b)
  else if k + 1 = n then
    let a ← f k
    let b ← f (k - 1)
    some (a - b)
  else
    let a ← f (k + 1)
    let b ← f (k - 1)
    some ((a - b) / 2)

/-- Source: crowddynamics/core/steering/quickest_path.py:144-163 (`direction_map`). `np.gradient`
raises `ValueError` if an axis has fewer than two entries. -/
def directionMap (dmap : Grid (Option ℝ)) : Except PyErr (Grid (Option Vec)) :=
  if dmap.rows < 2 ∨ dmap.cols < 2 then .error .value
  else .ok ⟨dmap.rows, dmap.cols, fun i j => do
    let u ← gradient1 dmap.rows (fun k => dmap.val k j) i
    let v ← gradient1 dmap.cols (fun k => dmap.val i k) j
    let l := √(u ^ 2 + v ^ 2)
    if l = 0 then none else some (v / l, u / l)⟩

/-- `fill_missing`: the entries in `mask` get the value of the grid at the boundary cell that the
nearest neighbour interpolation of scipy picks (`nearest`).
Source: crowddynamics/core/steering/quickest_path.py:168-181 (`fill_missing`). -/
def fillMissing (nearest : ℕ → ℕ → ℕ × ℕ) (mask : ℕ → ℕ → Bool) (uv : Grid (Option Vec)) :
    Grid (Option Vec) :=
  ⟨uv.rows, uv.cols, fun i j =>
    if mask i j then uv.val (nearest i j).1 (nearest i j).2 else uv.val i j⟩

/-- What is used of shapely and scipy in `shortest_path`.
Source: crowddynamics/core/steering/quickest_path.py:173-181, 186. -/
structure PathLib where
  /-- `skimage.draw` -/
  draw : DrawLib
  /-- `skfmm.distance` -/
  fmm : FmmSolver
  /-- `obstacles.buffer(radius).intersection(domain)` -/
  buffered : Geom → ℝ → Geom → Geom
  /-- The boundary cell chosen for a missing entry; depends on where the map is masked. -/
  nearest : Grid (Option Vec) → ℕ → ℕ → ℕ × ℕ
  /-- Whether an entry of the direction map is masked (rather than NaN). -/
  masked : Grid (Option ℝ) → ℕ → ℕ → Bool

/-- Source: crowddynamics/core/steering/quickest_path.py:184-197 (`shortest_path`). If there are
no obstacles then `None.buffer` raises `AttributeError`. -/
def shortestPath (lib : PathLib) (mgrid : MeshGrid) (domain targets : Geom)
    (obstacles : Option Geom) (bufferRadius : ℝ) :
    Except PyErr (Grid (Option Vec) × Grid (Option ℝ)) := do
  match obstacles with
  | none => .error .attribute
  | some obstacles =>
    let obstaclesBuffered := lib.buffered obstacles bufferRadius domain
    let dmapTargets ← distanceMap lib.draw lib.fmm mgrid targets (some obstaclesBuffered)
    let dirMapTargets ← directionMap dmapTargets
    let mask : Grid Bool := ⟨mgrid.shape.1, mgrid.shape.2, fun _ _ => false⟩
    let mask ← drawGeom lib.draw false mgrid.index true obstacles mask
    let filled := fillMissing (lib.nearest dirMapTargets)
      (fun i j => xor (mask.val i j) (lib.masked dmapTargets i j)) dirMapTargets
    .ok (filled, dmapTargets)

/-! ## `obstacle_handling.py` -/

/-- One cell of `obstacle_handling`: `d` is `dmap_obs[i, j]`, `e1` and `e2` are the entries of the
direction maps from obstacles and to the targets. 0/0 is NaN.
Source: crowddynamics/core/steering/obstacle_handling.py:64-74. -/
def obstacleHandlingCell (d : ℝ) (e1 e2 : Option Vec) (radius strength : ℝ) : Option Vec := do
  let x := -d
  let out ←
    if 0 < x ∧ x < radius then do
      let p := strength ^ (x / radius)
      let e1 ← e1
      let e2 ← e2
      some (-p * e1.1 + (1 - p) * e2.1, -p * e1.2 + (1 - p) * e2.2)
    else e2
  let l := √(out.1 ^ 2 + out.2 ^ 2)
  if l = 0 then none else some (out.1 / l, out.2 / l)

/-- Source: crowddynamics/core/steering/obstacle_handling.py:11-74 (`obstacle_handling`). The
distance map of the obstacles has no masked entries. -/
def obstacleHandling (dmapObs : Grid ℝ) (dirMapObs dirMapTargets : Grid (Option Vec))
    (radius strength : ℝ) : Grid (Option Vec) :=
  ⟨dirMapTargets.rows, dirMapTargets.cols, fun i j =>
    obstacleHandlingCell (dmapObs.val i j) (dirMapObs.val i j) (dirMapTargets.val i j) radius
      strength⟩

/-- One agent of `obstacle_handling_continuous`: index `(i, j)` of its cell and its direction.
Both `u2` and `v2` are the second component. The value of `dmap_obs` that is read at an index
outside of the grid (without bounds check) is not used.
Source: crowddynamics/core/steering/obstacle_handling.py:86-100. -/
def obstacleHandlingContinuousRow (dmapObs : Grid ℝ) (dirMapObs : Grid Vec) (radius strength : ℝ)
    (index : ℤ × ℤ) (directionTarget : Vec) : Vec :=
  let i := index.1
  let j := index.2
  let u2 := directionTarget.2
  let v2 := directionTarget.2
  if ¬ ((0 ≤ i ∧ i < dmapObs.rows) ∧ (0 ≤ j ∧ j < dmapObs.cols)) then directionTarget
  else
    let x := -dmapObs.val i.toNat j.toNat
    if 0 < x ∧ x < radius then
      let p := strength ^ (x / radius)
      let e := dirMapObs.val i.toNat j.toNat
      normalize (-p * e.1 + (1 - p) * u2, -p * e.2 + (1 - p) * v2)
    else directionTarget

/-- Source: crowddynamics/core/steering/obstacle_handling.py:77-102
(`obstacle_handling_continuous`). Rows without an index keep the copied direction; more indices
than directions (access beyond the end of the array) are left out. -/
def obstacleHandlingContinuous (dmapObs : Grid ℝ) (dirMapObs : Grid Vec)
    (directionTarget : List Vec) (indices : List (ℤ × ℤ)) (radius strength : ℝ) : List Vec :=
  directionTarget.mapIdx fun k e =>
    match indices[k]? with
    | none => e
    | some index => obstacleHandlingContinuousRow dmapObs dirMapObs radius strength index e

/-- Source: crowddynamics/core/steering/obstacle_handling.py:105-110 (`direction_map_obstacles`).
If there are no obstacles then `draw_geom(None, …)` raises `TypeError`. Nothing is masked, so the
distances are all defined (entries the solver leaves undefined are read as 0). -/
def directionMapObstacles (lib : PathLib) (mgrid : MeshGrid) (obstacles : Option Geom) :
    Except PyErr (Grid (Option Vec) × Grid ℝ) := do
  match obstacles with
  | none => .error .type
  | some obstacles =>
    let dmapObs ← distanceMap lib.draw lib.fmm mgrid obstacles none
    let dirMapObs ← directionMap dmapObs
    .ok (dirMapObs, ⟨dmapObs.rows, dmapObs.cols, fun i j => (dmapObs.val i j).getD 0⟩)

/-! ## `navigation.py` -/

/-- Source: crowddynamics/core/steering/navigation.py:25-56 (`static_potential`). `bounds` is
`domain.bounds`. -/
def staticPotential (lib : PathLib) (bounds : ℝ × ℝ × ℝ × ℝ) (domain targets : Geom)
    (obstacles : Option Geom) (step radius strength : ℝ) :
    Except PyErr (MeshGrid × Grid (Option ℝ) × Grid (Option Vec)) := do
  let mgrid := meshgrid step bounds.1 bounds.2.1 bounds.2.2.1 bounds.2.2.2
  let t ← shortestPath lib mgrid domain targets obstacles radius
  let o ← directionMapObstacles lib mgrid obstacles
  let dirMap := obstacleHandling o.2 o.1 t.1 radius strength
  .ok (mgrid, t.2, dirMap)

/-- Source: crowddynamics/core/steering/navigation.py:59-64 (`is_inside`), for pairs. -/
def isInside (a lower upper : ℤ × ℤ) : Bool :=
  if ¬ (lower.1 ≤ a.1 ∧ a.1 < upper.1) then false
  else if ¬ (lower.2 ≤ a.2 ∧ a.2 < upper.2) then false
  else true

/-- One row of `getdefault`. `nan` stands for the value of an undefined entry.
Source: crowddynamics/core/steering/navigation.py:67-78 (`getdefault`). -/
def getdefaultRow (nan : Vec) (index : ℤ × ℤ) (dirMap : Grid (Option Vec)) (dflt : Vec) : Vec :=
  if isInside index (0, 0) (dirMap.rows, dirMap.cols) then
    (dirMap.val index.1.toNat index.2.toNat).getD nan
  else dflt

/-- One iteration of the loop over the targets in `Navigation.update`. `np.fliplr` exchanges the
two components of the index. `nan` stands for an undefined direction.
Source: crowddynamics/simulation/logic.py:154-165. -/
def navigationStep {n : ℕ} (nan : Vec)
    (navigationToTarget : ℕ → Except PyErr (MeshGrid × Grid (Option ℝ) × Grid (Option Vec)))
    (agents : Crowd n) (target : ℕ) : Except PyErr (Crowd n) := do
  if n = 0 then .ok agents -- `not has_target.size`
  else
    let r ← navigationToTarget target
    .ok fun k =>
      if (agents k).target = (target : ℤ) then
        let index := r.1.index (agents k).position
        { agents k with
          targetDirection := getdefaultRow nan (index.2, index.1) r.2.2
            (agents k).targetDirection }
      else agents k

/-- Source: crowddynamics/simulation/logic.py:149-165 (`Navigation.update`). `numTargets` is
`len(field.targets)`; `navigationToTarget` is `field.navigation_to_target` for the parameters of
the node. -/
def navigationUpdate {n : ℕ} (nan : Vec)
    (navigationToTarget : ℕ → Except PyErr (MeshGrid × Grid (Option ℝ) × Grid (Option Vec)))
    (numTargets : ℕ) (agents : Crowd n) : Except PyErr (Crowd n) :=
  (List.range numTargets).foldlM (navigationStep nan navigationToTarget) agents

/-! ## `orientation.py` -/

/-- Source: crowddynamics/core/steering/orientation.py:17-21
(`orient_towards_target_direction`). -/
def orientTowardsTargetDirection {n : ℕ} (agents : Crowd n) : Crowd n := fun i =>
  { agents i with targetOrientation := angle (agents i).targetDirection }

/-- Source: crowddynamics/simulation/logic.py:258-261 (`Orientation.update`). -/
def orientationUpdate {n : ℕ} (agents : AgentArray n) : AgentArray n :=
  if isModel agents .threeCircle then
    { agents with rows := orientTowardsTargetDirection agents.rows }
  else agents

end

end CrowdDynamics
