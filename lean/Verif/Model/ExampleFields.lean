import Verif.Model.Vector2D
import Verif.Model.Agent
import Mathlib.Analysis.Convex.Hull
import Mathlib.Analysis.Convex.Segment

/-!
# Model of the shipped fields (`crowddynamics/examples/fields.py`) and of the groups of agents of the
shipped simulations

Geometries are sets of points. The union `|` of shapely is the union of sets. The difference of
shapely contains the end points of what remains in addition to the set difference used here.
-/

namespace CrowdDynamics

noncomputable section

/-- `LineString(points)`: the segments between consecutive points.
Source: shapely, used at crowddynamics/examples/fields.py:54-55. -/
def lineString : List Vec → Set Vec
  | [] => ∅
  | [a] => {a}
  | a :: b :: rest => segment ℝ a b ∪ lineString (b :: rest)

/-- `Polygon(points)` for the corners of a convex polygon.
Source: shapely, used at crowddynamics/examples/fields.py:9-10. -/
def polygonRegion (ring : List Vec) : Set Vec := convexHull ℝ {p | p ∈ ring}

/-- `polygon.exterior`: the closed line through the corners.
Source: shapely, used at crowddynamics/examples/fields.py:114. -/
def polygonExterior (ring : List Vec) : Set Vec := lineString (ring ++ ring.take 1)

/-- Source: crowddynamics/examples/fields.py:8-10 (`rectangle`), the corners. -/
def rectangleRing (x y width height : ℝ) : List Vec :=
  [(x, y), (x + width, y), (x + width, y + height), (x, y + height)]

/-- Source: crowddynamics/examples/fields.py:8-10 (`rectangle`), the region. -/
def rectangle (x y width height : ℝ) : Set Vec := polygonRegion (rectangleRing x y width height)

/-- A field of an example. Targets are line strings with two points, given by these.
Source: crowddynamics/simulation/field.py:72-85. -/
structure Plan where
  /-- `domain` -/
  domain : Set Vec
  /-- `obstacles`; the empty set if it is `None` -/
  obstacles : Set Vec
  /-- `targets` -/
  targets : List (Vec × Vec)
  /-- `spawns` -/
  spawns : List (Set Vec)

/-- The union of a list of sets. Source: crowddynamics/core/geometry.py:133-135 (`union`). -/
def unionAll (l : List (Set Vec)) : Set Vec := {p | ∃ s ∈ l, p ∈ s}

/-- The targets as a set. Source: crowddynamics/simulation/field.py:113-114. -/
def Plan.exits (f : Plan) : Set Vec := unionAll (f.targets.map fun t => lineString [t.1, t.2])

/-- Source: crowddynamics/simulation/field.py:108-117 (`Field.convex_hull`). -/
def Plan.hull (f : Plan) : Set Vec := convexHull ℝ (f.obstacles ∪ f.exits ∪ unionAll f.spawns)

/-- Source: crowddynamics/examples/fields.py:13-30 (`OutdoorField`). -/
def outdoorField (width height : ℝ) : Plan :=
  let domain := polygonRegion [(0, 0), (0, height), (width, height), (width, 0)]
  ⟨domain, ∅, [], [domain]⟩

/-- `HallwayField` with the obstacles, targets and spawns of its parameters, and an old domain.
Source: crowddynamics/examples/fields.py:52-66. -/
def hallwayParts (width height ratio : ℝ) (domain : Set Vec) : Plan where
  domain := domain
  obstacles := lineString [(0, 0), (width, 0)] ∪ lineString [(0, height), (width, height)]
  targets := [((0, 0), (0, height)), ((width, 0), (width, height))]
  spawns := [rectangle 0 0 (ratio * width) height,
    rectangle ((1 - ratio) * width) 0 (ratio * width) height]

/-- Source: crowddynamics/examples/fields.py:52-70 (`HallwayField`). -/
def hallwayField (width height ratio : ℝ) : Plan :=
  let f := hallwayParts width height ratio ∅
  { f with domain := f.hull }

/-- Source: crowddynamics/examples/fields.py:100-119 (`Rounding.__init__`). -/
def roundingField (width height ratio : ℝ) : Plan :=
  let ring : List Vec := [(0, 0), (0, height), (width, height), (width, 0)]
  let target := lineString [(0, height / 2), (0, height)]
  { domain := polygonRegion ring
    obstacles := lineString [(0, height / 2), (width * ratio, height / 2)] ∪
      (polygonExterior ring \ target)
    targets := [((0, height / 2), (0, height))]
    spawns := [polygonRegion [(0, 0), (0, height / 2), (width / 2, height / 2), (width / 2, 0)]] }

/-- Source: crowddynamics/examples/fields.py:136-150 (`AvoidObstacle.__init__`). -/
def avoidObstacleField (width height exitWidth ratioObs : ℝ) : Plan :=
  let ring := rectangleRing 0 0 width height
  let target := lineString [(width, 0), (width, exitWidth)]
  { domain := polygonRegion ring
    obstacles := (polygonExterior ring \ target) ∪
      lineString [(ratioObs * width, 0), (ratioObs * width, 0.5 * height)]
    targets := [((width, 0), (width, exitWidth))]
    spawns := [rectangle 0 (0.5 * height) (ratioObs * width) (0.5 * height),
      rectangle 0 0 (ratioObs * width) height] }

/-- Source: crowddynamics/examples/fields.py:161-172 (`ClosedRoom.__init__`). -/
def closedRoomField (width height : ℝ) : Plan :=
  let ring : List Vec := [(0, 0), (0, height), (width, height), (width, 0)]
  ⟨polygonRegion ring, polygonExterior ring, [], [polygonRegion ring]⟩

/-- Source: crowddynamics/examples/fields.py:189-210 (`RoomWithOneExit.__init__`). -/
def roomWithOneExitField (width height exitWidth hallWidth : ℝ) : Plan :=
  let room := lineString [(width, 0), (0, 0), (0, height), (width, height)]
  let hall := rectangle width ((height + exitWidth) / 2) hallWidth ((height - exitWidth) / 2) ∪
    rectangle width 0 hallWidth ((height - exitWidth) / 2)
  let f : Plan :=
    { domain := ∅
      obstacles := room ∪ hall
      targets := [((width + hallWidth, (height - exitWidth) / 2),
        (width + hallWidth, (height + exitWidth) / 2))]
      spawns := [convexHull ℝ room] }
  { f with domain := f.hull }

/-- Source: crowddynamics/examples/fields.py:218-279 (`FourExitsField.__init__`). -/
def fourExitsField (exitWidth : ℝ) : Plan :=
  let A : Vec := (0, 0)
  let B : Vec := (87, 0)
  let C : Vec := (0, 10)
  let D : Vec := (20, 40)
  let E : Vec := (20, 0)
  let F : Vec := (20, 20)
  let G : Vec := (40, 20)
  let H : Vec := (60, 0)
  let I : Vec := (60, 20)
  let J : Vec := (0, 10 + exitWidth)
  let K : Vec := (0, 80)
  let L : Vec := (6, 80)
  let M : Vec := (0, 60)
  let N : Vec := (40, 60)
  let O : Vec := (6 + exitWidth, 80)
  let P : Vec := (100, 80)
  let Q : Vec := (100, 50 + exitWidth)
  let R : Vec := (60, 60)
  let S : Vec := (100, 60)
  let T : Vec := (70, 60)
  let U : Vec := (70, 40)
  let V : Vec := (87 + exitWidth, 0)
  let W : Vec := (100, 0)
  let Z : Vec := (100, 50)
  let obstacles := unionAll [lineString [C, A, B], lineString [E, D], lineString [F, G],
    lineString [H, I], lineString [J, K, L], lineString [M, N], lineString [O, P, Q],
    lineString [S, R], lineString [T, U], lineString [Z, W, V]]
  let f : Plan :=
    { domain := ∅
      obstacles := obstacles
      targets := [(C, J), (L, O), (Q, Z), (B, V)]
      spawns := [convexHull ℝ obstacles] }
  { f with domain := f.hull }

/-- Source: crowddynamics/examples/fields.py:293-302 (`PillarInTheMiddle.__init__`). The buffer of a
point is the disc (shapely uses a polygon that approximates it). -/
def pillarField (width height radius : ℝ) : Plan :=
  let domain := rectangle (width / 2) (height / 2) (width / 2) (height / 2)
  ⟨domain, {p | p.1 ^ 2 + p.2 ^ 2 ≤ radius ^ 2}, [], [domain]⟩

/-! ## Changing the parameters of a field -/

/-- The state after `OutdoorField._observe_field`.
Source: crowddynamics/examples/fields.py:32-38. -/
def outdoorObserve (width height : ℝ) (f : Plan) : Plan :=
  let f := { f with domain := polygonRegion [(0, 0), (0, height), (width, height), (width, 0)] }
  { f with spawns := [f.domain] }

/-- The state after `HallwayField._observe_field`: obstacles, spawns, targets and then the domain.
Source: crowddynamics/examples/fields.py:72-86. -/
def hallwayObserve (width height ratio : ℝ) (f : Plan) : Plan :=
  let walls := lineString [(0, 0), (width, 0)] ∪ lineString [(0, height), (width, height)]
  let f := { f with obstacles := walls }
  let f := { f with spawns := [rectangle 0 0 (ratio * width) height,
    rectangle ((1 - ratio) * width) 0 (ratio * width) height] }
  let f := { f with targets := [((0, 0), (0, height)), ((width, 0), (width, height))] }
  { f with domain := f.hull }

/-- The fields whose geometry depends on parameters, with the parameters.
Source: the classes of crowddynamics/examples/fields.py:13, 41, 89, 122, 153, 175, 213, 282. -/
inductive ExampleField where
  /-- `OutdoorField` -/
  | outdoor (width height : ℝ)
  /-- `HallwayField` -/
  | hallway (width height ratio : ℝ)
  /-- `Rounding` -/
  | rounding (width height ratio : ℝ)
  /-- `AvoidObstacle` -/
  | avoidObstacle (width height exitWidth ratioObs : ℝ)
  /-- `ClosedRoom` -/
  | closedRoom (width height : ℝ)
  /-- `RoomWithOneExit` -/
  | roomWithOneExit (width height exitWidth hallWidth : ℝ)
  /-- `FourExitsField` -/
  | fourExits (exitWidth : ℝ)
  /-- `PillarInTheMiddle` -/
  | pillar (width height radius : ℝ)

/-- The geometry of a new field.
Source: the constructors and defaults in crowddynamics/examples/fields.py:13-302. -/
def ExampleField.plan : ExampleField → Plan
  | .outdoor w h => outdoorField w h
  | .hallway w h r => hallwayField w h r
  | .rounding w h r => roundingField w h r
  | .avoidObstacle w h e r => avoidObstacleField w h e r
  | .closedRoom w h => closedRoomField w h
  | .roomWithOneExit w h e l => roomWithOneExitField w h e l
  | .fourExits e => fourExitsField e
  | .pillar w h r => pillarField w h r

/-- The ranges that the traits of a field accept.
Source: crowddynamics/examples/fields.py:14-19, 42-50, 90-98, 123-134, 154-159, 176-187, 214-216,
283-291. -/
def ExampleField.Accepted : ExampleField → Prop
  | .outdoor w h => 0 ≤ w ∧ 0 ≤ h
  | .hallway w h r => 0 ≤ w ∧ 0 ≤ h ∧ 0 ≤ r ∧ r ≤ 1
  | .rounding w h r => 0 ≤ w ∧ 0 ≤ h ∧ 0 ≤ r ∧ r ≤ 1
  | .avoidObstacle w h e r => 0 ≤ w ∧ 0 ≤ h ∧ 1.0 ≤ e ∧ 0 ≤ r ∧ r ≤ 1
  | .closedRoom w h => 0 ≤ w ∧ 0 ≤ h
  | .roomWithOneExit w h e l => 0 ≤ w ∧ 0 ≤ h ∧ 0 ≤ e ∧ e ≤ 10 ∧ 0 ≤ l
  | .fourExits e => 0 ≤ e ∧ e ≤ 10
  | .pillar w h r => 0 ≤ w ∧ 0 ≤ h ∧ 0 ≤ r

/-- Assigning new parameters to a field that has the geometry `f`: only two classes observe their
parameters. Source: crowddynamics/examples/fields.py:32-38, 72-86 and the other classes without
`observe`. -/
def ExampleField.assign (new : ExampleField) (f : Plan) : Plan :=
  match new with
  | .outdoor w h => outdoorObserve w h f
  | .hallway w h r => hallwayObserve w h r f
  | _ => f

/-! ## Groups of agents -/

/-- A group of agents of a shipped simulation: its size, the index of the spawn that is sampled and
attributes of its members; attributes that are not given have their default.
Source: crowddynamics/examples/simulations.py:103-121, 146-163 and
crowddynamics/simulation/agents.py:42-60, 565-602. -/
structure GroupPlan where
  /-- `size` -/
  size : ℕ
  /-- argument of `sample_spawn` -/
  spawn : ℤ
  /-- `target` -/
  target : ℤ := noTarget
  /-- `familiar_exit` -/
  familiarExit : ℤ := noTarget
  /-- `is_leader` -/
  isLeader : Bool := false
  /-- `is_follower` -/
  isFollower : Bool := false
  /-- `target_direction` -/
  direction : Vec := (0, 0)

/-- `Hallway`. Source: crowddynamics/examples/simulations.py:103-121, 146-163. -/
def hallwayGroups (size : ℕ) : List GroupPlan :=
  [{ size := size / 2, spawn := 0, target := 1, direction := unitVector 0 },
    { size := size / 2, spawn := 1, target := 0, direction := unitVector Real.pi }]

/-- `RoomWithOneExit`. Source: crowddynamics/examples/simulations.py:189-199, 225-236. -/
def roomGroups (size : ℕ) : List GroupPlan :=
  [{ size := size, spawn := 0, target := 0, direction := unitVector 0 }]

/-- `FourExitsRandomPlacing` without leaders, with the random numbers drawn for one member.
Source: crowddynamics/examples/simulations.py:254-268, 287-300. -/
def fourExitsGroups (size : ℕ) (randTarget randExit : ℤ) : List GroupPlan :=
  [{ size := size, spawn := 0, target := randTarget, familiarExit := randExit }]

/-- Target of a member of a group with leaders.
Source: crowddynamics/examples/collective_motion.py:128-129, 213-214, 408-409. -/
def chooseTarget (hasTarget : Bool) (randTarget : ℤ) : ℤ := if hasTarget then randTarget else noTarget

/-- `Rounding`. Source: crowddynamics/examples/collective_motion.py:126-142, 160-180. -/
def roundingGroups (leaders herding : ℕ) (randTarget : ℤ) : List GroupPlan :=
  [{ size := leaders, spawn := 0, target := chooseTarget true randTarget,
      isLeader := !false, isFollower := false },
    { size := herding, spawn := 0, target := chooseTarget false randTarget,
      isLeader := !true, isFollower := true }]

/-- `AvoidObstacle`. Source: crowddynamics/examples/collective_motion.py:211-227, 248-268. -/
def avoidObstacleGroups (leaders herding : ℕ) (randTarget : ℤ) : List GroupPlan :=
  [{ size := leaders, spawn := 0, target := chooseTarget true randTarget,
      isLeader := !false, isFollower := false },
    { size := herding, spawn := 1, target := chooseTarget false randTarget,
      isLeader := !true, isFollower := true }]

/-- `ClosedRoom`, with the orientation drawn for one member.
Source: crowddynamics/examples/collective_motion.py:294-307, 324-344. -/
def closedRoomGroups (leaders herding : ℕ) (orientation : ℝ) : List GroupPlan :=
  [{ size := leaders, spawn := 0, isLeader := true, isFollower := !true,
      direction := unitVector orientation },
    { size := herding, spawn := 0, isLeader := false, isFollower := !false,
      direction := unitVector orientation }]

/-- `FourExitsRandomPlacing` with leaders.
Source: crowddynamics/examples/collective_motion.py:406-423, 441-461. -/
def fourExitsLeaderGroups (leaders herding : ℕ) (randTarget randExit : ℤ) : List GroupPlan :=
  [{ size := leaders, spawn := 0, target := chooseTarget true randTarget, familiarExit := randExit,
      isLeader := !false, isFollower := false },
    { size := herding, spawn := 0, target := chooseTarget false randTarget, familiarExit := randExit,
      isLeader := !true, isFollower := true }]

/-- The additional spawns of `FourExitsFixedPlacing`.
Source: crowddynamics/examples/collective_motion.py:522-527. -/
def leaderSpawns : List (Set Vec) :=
  [rectangle 25 45 10 10, rectangle 80 65 10 10, rectangle 75 35 10 10, rectangle 35 5 10 10]

/-- The field of `FourExitsFixedPlacing` after the spawns are added.
Source: crowddynamics/examples/collective_motion.py:512-527. -/
def fixedPlacingField (exitWidth : ℝ) : Plan :=
  let f := fourExitsField exitWidth
  { f with spawns := f.spawns ++ leaderSpawns }

/-- `FourExitsFixedPlacing`. Source: crowddynamics/examples/collective_motion.py:483-498, 516-550. -/
def fixedPlacingGroups (leaders herding : ℕ) (randExit : ℤ) : List GroupPlan :=
  (List.range leaders).map (fun i : ℕ =>
    { size := 1, spawn := (i : ℤ) + 1, target := i, familiarExit := randExit,
      isLeader := !false, isFollower := false }) ++
    [{ size := herding, spawn := 0, target := noTarget, familiarExit := randExit,
        isLeader := !true, isFollower := true }]

/-- The shipped simulations that have a field with walls, with their parameters.
Source: crowddynamics/examples/simulations.py:74, 166, 239 and
crowddynamics/examples/collective_motion.py:104, 183, 271, 387, 464. -/
inductive ExampleSimulation where
  /-- `simulations.Hallway` -/
  | hallway (size : ℕ) (width height ratio : ℝ)
  /-- `simulations.RoomWithOneExit` -/
  | roomWithOneExit (size : ℕ) (width height exitWidth hallWidth : ℝ)
  /-- `simulations.FourExitsRandomPlacing` -/
  | fourExits (size : ℕ) (exitWidth : ℝ)
  /-- `collective_motion.Rounding` -/
  | rounding (leaders herding : ℕ) (width height : ℝ)
  /-- `collective_motion.AvoidObstacle` -/
  | avoidObstacle (leaders herding : ℕ) (width height exitWidth ratioObs : ℝ)
  /-- `collective_motion.ClosedRoom` -/
  | closedRoom (leaders herding : ℕ) (width height : ℝ)
  /-- `collective_motion.FourExitsRandomPlacing` -/
  | fourExitsLeaders (leaders herding : ℕ) (exitWidth : ℝ)
  /-- `collective_motion.FourExitsFixedPlacing` -/
  | fixedPlacing (leaders herding : ℕ) (exitWidth : ℝ)

/-- The ranges that the traits of a simulation accept.
Source: crowddynamics/examples/simulations.py:84-101, 167-187, 240-252 and
crowddynamics/examples/collective_motion.py:105-124, 184-209, 273-292, 388-404, 465-481. -/
def ExampleSimulation.Accepted : ExampleSimulation → Prop
  | .hallway size w h r => 2 ≤ size ∧ 0 ≤ w ∧ 0 ≤ h ∧ 0 ≤ r ∧ r ≤ 1
  | .roomWithOneExit size w h e l => 1 ≤ size ∧ 0 ≤ w ∧ 0 ≤ h ∧ 0 ≤ e ∧ e ≤ 10 ∧ 0 ≤ l
  | .fourExits _ e => 0 ≤ e ∧ e ≤ 10
  | .rounding _ _ w h => 0 ≤ w ∧ 0 ≤ h
  | .avoidObstacle _ _ w h e r => 0 ≤ w ∧ 0 ≤ h ∧ 0 ≤ e ∧ e ≤ 10 ∧ 0 ≤ r ∧ r ≤ 1
  | .closedRoom _ _ w h => 0 ≤ w ∧ 0 ≤ h
  | .fourExitsLeaders _ _ e => 0 ≤ e ∧ e ≤ 10
  | .fixedPlacing leaders _ e => leaders = 4 ∧ 0 ≤ e ∧ e ≤ 10

/-- The field that a simulation makes.
Source: crowddynamics/examples/simulations.py:138-143, 216-222, 282-284 and
crowddynamics/examples/collective_motion.py:156-158, 242-246, 320-322, 437-439, 512-514. The ratio
of `Rounding` keeps its default. -/
def ExampleSimulation.field : ExampleSimulation → ExampleField
  | .hallway _ w h r => .hallway w h r
  | .roomWithOneExit _ w h e l => .roomWithOneExit w h e l
  | .fourExits _ e => .fourExits e
  | .rounding _ _ w h => .rounding w h 0.6
  | .avoidObstacle _ _ w h e r => .avoidObstacle w h e r
  | .closedRoom _ _ w h => .closedRoom w h
  | .fourExitsLeaders _ _ e => .fourExits e
  | .fixedPlacing _ _ e => .fourExits e

/-- The geometry when the agents are placed.
Source: as `ExampleSimulation.field` and crowddynamics/examples/collective_motion.py:522-527. -/
def ExampleSimulation.plan : ExampleSimulation → Plan
  | .fixedPlacing _ _ e => fixedPlacingField e
  | s => s.field.plan

/-- The groups of a simulation with the random numbers that are drawn for a member.
Source: as the groups above.
Source: crowddynamics/examples/simulations.py:146-298 and crowddynamics/examples/collective_motion.py:161-548. -/
def ExampleSimulation.groups (randTarget randExit : ℤ) (orientation : ℝ) :
    ExampleSimulation → List GroupPlan
  | .hallway size _ _ _ => hallwayGroups size
  | .roomWithOneExit size _ _ _ _ => roomGroups size
  | .fourExits size _ => fourExitsGroups size randTarget randExit
  | .rounding leaders herding _ _ => roundingGroups leaders herding randTarget
  | .avoidObstacle leaders herding _ _ _ _ => avoidObstacleGroups leaders herding randTarget
  | .closedRoom leaders herding _ _ => closedRoomGroups leaders herding orientation
  | .fourExitsLeaders leaders herding _ => fourExitsLeaderGroups leaders herding randTarget randExit
  | .fixedPlacing leaders herding _ => fixedPlacingGroups leaders herding randExit

/-- The number of agents that the parameters of a simulation ask for.
Source: crowddynamics/examples/simulations.py:84-86, 167-169, 240-243 and
crowddynamics/examples/collective_motion.py:105-112, 184-191, 273-280, 388-395, 465-472. -/
def ExampleSimulation.requested : ExampleSimulation → ℕ
  | .hallway size _ _ _ => size
  | .roomWithOneExit size _ _ _ _ => size
  | .fourExits size _ => size
  | .rounding leaders herding _ _ => leaders + herding
  | .avoidObstacle leaders herding _ _ _ _ => leaders + herding
  | .closedRoom leaders herding _ _ => leaders + herding
  | .fourExitsLeaders leaders herding _ => leaders + herding
  | .fixedPlacing leaders herding _ => leaders + herding

/-- The detection range of the exit detection of a simulation, if it has this logic node.
Source: crowddynamics/examples/collective_motion.py:236-237, 432, 507 and
crowddynamics/simulation/logic.py:239-241. -/
def ExampleSimulation.detectionRange : ExampleSimulation → Option ℝ
  | .avoidObstacle _ _ w _ _ r => some ((1 - r) * w)
  | .fourExitsLeaders _ _ _ => some 20.0
  | .fixedPlacing _ _ _ => some 20.0
  | _ => none

/-- Whether the traits of the field and of the logic accept what a simulation passes to them, so
that no `TraitError` is raised when they are made.
Source: crowddynamics/simulation/logic.py:239-241 and as `ExampleField.Accepted`. -/
def ExampleSimulation.Constructible (s : ExampleSimulation) : Prop :=
  s.field.Accepted ∧ ∀ range ∈ s.detectionRange, 1.0 ≤ range

end

end CrowdDynamics
