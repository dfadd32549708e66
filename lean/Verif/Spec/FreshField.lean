import Verif.Model.Field

/-!
# Navigation queries without caches

What the queries of a field would return if every query were computed from the present
attributes of the field.
-/

namespace CrowdDynamics.Spec

open CrowdDynamics

noncomputable section

open Classical

/-- The grid over the bounding box of the domain. -/
def freshMesh (f : Field) (step : ℝ) : Except PyErr MeshGrid := do
  let d ← match f.domain with
    | none => .error .crowdDynamics
    | some d => .ok d
  .ok (meshgrid step (polygonBounds d.1).1 (polygonBounds d.1).2.1 (polygonBounds d.1).2.2.1
    (polygonBounds d.1).2.2.2)

/-- Directions and distances to a target. -/
def freshPath (lib : FieldLib) (f : Field) (step : ℝ) (index : TargetIndex) (radius : ℝ) :
    Except PyErr (Grid (Option Vec) × Grid (Option ℝ)) := do
  let targets ← selectTargets lib f index
  let mgrid ← freshMesh f step
  shortestPath lib.toPathLib mgrid f.domainGeom targets f.obstacles radius

/-- Directions and distances to the obstacles. -/
def freshObs (lib : FieldLib) (f : Field) (step : ℝ) :
    Except PyErr (Grid (Option Vec) × Grid ℝ) := do
  let mgrid ← freshMesh f step
  directionMapObstacles lib.toPathLib mgrid f.obstacles

/-- The final direction map. -/
def freshNav (lib : FieldLib) (f : Field) (index : TargetIndex) (step radius strength : ℝ) :
    Except PyErr (MeshGrid × Grid (Option ℝ) × Grid (Option Vec)) := do
  if f.targets = [] then .error .crowdDynamics
  else
    let t ← freshPath lib f step index radius
    let o ← freshObs lib f step
    let mgrid ← freshMesh f step
    .ok (mgrid, t.2, obstacleHandling o.2 o.1 t.1 radius strength)

/-- A query. -/
inductive Query where
  /-- `meshgrid(step)` -/
  | mesh (step : ℝ)
  /-- `shortest_path_target(step, index, radius)` -/
  | path (step : ℝ) (index : TargetIndex) (radius : ℝ)
  /-- `direction_map_obstacles(step)` -/
  | obs (step : ℝ)
  /-- `navigation_to_target(index, step, radius, strength)` -/
  | nav (index : TargetIndex) (step radius strength : ℝ)

/-- An answer. -/
inductive Answer where
  /-- of `meshgrid` -/
  | mesh (r : Except PyErr MeshGrid)
  /-- of `shortest_path_target` -/
  | path (r : Except PyErr (Grid (Option Vec) × Grid (Option ℝ)))
  /-- of `direction_map_obstacles` -/
  | obs (r : Except PyErr (Grid (Option Vec) × Grid ℝ))
  /-- of `navigation_to_target` -/
  | nav (r : Except PyErr (MeshGrid × Grid (Option ℝ) × Grid (Option Vec)))

/-- The answer computed from the present field. -/
def freshAnswer (lib : FieldLib) (f : Field) : Query → Answer
  | .mesh s => .mesh (freshMesh f s)
  | .path s i r => .path (freshPath lib f s i r)
  | .obs s => .obs (freshObs lib f s)
  | .nav i s r k => .nav (freshNav lib f i s r k)

/-- What may happen: a field is queried, or its attributes are changed. -/
inductive FieldEvent where
  /-- a query of the field `id` -/
  | query (id : ℕ) (q : Query)
  /-- the field `id` now has the attributes `f` -/
  | modify (id : ℕ) (f : Field)

/-- The answers to all queries if each is computed from the present field. -/
def freshAnswers (lib : FieldLib) : (ℕ → Field) → List FieldEvent → List Answer
  | _, [] => []
  | fields, .query id q :: es => freshAnswer lib (fields id) q :: freshAnswers lib fields es
  | fields, .modify id f :: es => freshAnswers lib (Function.update fields id f) es

/-- No field is modified after it has been queried; `asked` are the fields queried so far. -/
def ModifiedOnlyBefore : Set ℕ → List FieldEvent → Prop
  | _, [] => True
  | asked, .query id _ :: es => ModifiedOnlyBefore (insert id asked) es
  | asked, .modify id _ :: es => id ∉ asked ∧ ModifiedOnlyBefore asked es

/-- Two different coordinates on both axes, so that the bounding box is a proper rectangle. -/
def ProperBox (ext : List (ℝ × ℝ)) : Prop :=
  (∃ p ∈ ext, ∃ q ∈ ext, p.1 < q.1) ∧ ∃ p ∈ ext, ∃ q ∈ ext, p.2 < q.2

/-- The fast marching solver succeeds and keeps the shape. -/
def SolverTotal (fmm : FmmSolver) : Prop :=
  ∀ contour mask step, ∃ d, fmm contour mask step = some d ∧ d.rows = contour.rows ∧
    d.cols = contour.cols

end

end CrowdDynamics.Spec

namespace CrowdDynamics

open Spec

/-- The program: answer to a query, through the caches. -/
noncomputable def answer (lib : FieldLib) (fields : ℕ → Field) (id : ℕ) (c : Caches) :
    Query → Answer × Caches
  | .mesh s => let r := Field.meshgrid fields id s c; (.mesh r.1, r.2)
  | .path s i r => let r := Field.shortestPathTarget lib fields id s i r c; (.path r.1, r.2)
  | .obs s => let r := Field.directionMapObstacles lib fields id s c; (.obs r.1, r.2)
  | .nav i s r k => let r := Field.navigationToTarget lib fields id i s r k c; (.nav r.1, r.2)

/-- The program: answers to a history of events, through the caches. -/
noncomputable def answers (lib : FieldLib) : (ℕ → Field) → Caches → List FieldEvent → List Answer
  | _, _, [] => []
  | fields, c, .query id q :: es =>
    (answer lib fields id c q).1 :: answers lib fields (answer lib fields id c q).2 es
  | fields, c, .modify id f :: es => answers lib (Function.update fields id f) c es

/-- The empty caches. -/
def emptyCaches : Caches := ⟨[], [], [], []⟩

end CrowdDynamics
