import Verif.Model.Agent
import Verif.Model.BlockList
import Verif.Model.Distance

/-!
# Model of `Agents.add_non_overlapping_group` in `crowddynamics/simulation/agents.py`
-/

namespace CrowdDynamics

noncomputable section

open Classical

/-- Source: crowddynamics/simulation/agents.py:489-506 (`overlapping_circles`). -/
def overlappingCircles (x : Vec) (r : ℝ) : List Agent → Bool
  | [] => false
  | agent :: rest =>
    let h := (distanceCircles agent.position agent.radius x r).1
    if h < 0 then true else overlappingCircles x r rest

/-- Source: crowddynamics/simulation/agents.py:509-533 (`overlapping_three_circles`). -/
def overlappingThreeCircles (x : Fin 3 → Vec) (r : Fin 3 → ℝ) : List Agent → Bool
  | [] => false
  | agent :: rest =>
    let h := (distanceThreeCircles agent.circles agent.radii x r).h
    if h < 0 then true else overlappingThreeCircles x r rest

/-- Source: crowddynamics/simulation/agents.py:536-546 (`overlapping_circle_line`), for
the single row `np.array(self)`. A NaN distance does not count as overlap. -/
def overlappingCircleLine (agent : Agent) : List Wall → Bool
  | [] => false
  | obstacle :: rest =>
    match distanceCircleLine agent.position agent.radius obstacle.p0 obstacle.p1 with
    | some (h, _) => if h < 0 then true else overlappingCircleLine agent rest
    | none => overlappingCircleLine agent rest

/-- Source: crowddynamics/simulation/agents.py:549-562
(`overlapping_three_circle_line`), for a single row. -/
def overlappingThreeCircleLine (agent : Agent) : List Wall → Bool
  | [] => false
  | obstacle :: rest =>
    match distanceThreeCircleLine agent.circles agent.radii obstacle.p0 obstacle.p1 with
    | some (h, _) => if h < 0 then true else overlappingThreeCircleLine agent rest
    | none => overlappingThreeCircleLine agent rest

/-- Offset of the shoulders. Source: crowddynamics/simulation/agents.py:403-404, 484-485. -/
def shoulderOffset (rTs orientation : ℝ) : Vec := rTs • rotate270 (unitVector orientation)

/-- An agent *object* (trait container). The shoulder positions are dynamic defaults:
`none` until the first access, after which the computed value is kept.
Source: crowddynamics/simulation/agents.py:393-409 and traitlets 4.3.2 `TraitType.get`. -/
structure Member where
  /-- all other traits; `positionLs`/`positionRs` of this record are not used -/
  agent : Agent
  /-- cached `position_ls` -/
  ls : Option Vec
  /-- cached `position_rs` -/
  rs : Option Vec

/-- `new_agent.position = p`. Source: crowddynamics/simulation/agents.py:654. -/
def Member.setPosition (m : Member) (p : Vec) : Member :=
  { m with agent := { m.agent with position := p } }

/-- Access to `position_ls` and `position_rs`, which evaluates the defaults at the first
access. Circular agents do not have these traits.
Source: crowddynamics/simulation/agents.py:401-409. -/
def Member.touch (kind : Kind) (m : Member) : Member :=
  match kind with
  | .circular => m
  | .threeCircle =>
    let off := shoulderOffset m.agent.rTs m.agent.orientation
    { m with
      ls := some (m.ls.getD (m.agent.position - off))
      rs := some (m.rs.getD (m.agent.position + off)) }

/-- `np.array(new_agent)` after the shoulders were accessed.
Source: crowddynamics/simulation/agents.py:309-319 (`__array__`). -/
def Member.row (m : Member) : Agent :=
  { m.agent with positionLs := m.ls.getD (0, 0), positionRs := m.rs.getD (0, 0) }

/-- Source: crowddynamics/simulation/agents.py:365-366 and 411-415 (`overlapping`). -/
def Member.overlapping (kind : Kind) (m : Member) (others : List Agent) : Bool :=
  match kind with
  | .circular => overlappingCircles m.agent.position m.agent.radius others
  | .threeCircle => overlappingThreeCircles m.row.circles m.row.radii others

/-- Source: crowddynamics/simulation/agents.py:368-369 and 417-418
(`overlapping_obstacles`). -/
def Member.overlappingObstacles (kind : Kind) (m : Member) (obstacles : List Wall) : Bool :=
  match kind with
  | .circular => overlappingCircleLine m.row obstacles
  | .threeCircle => overlappingThreeCircleLine m.row obstacles

/-- Source: crowddynamics/simulation/agents.py:565-602 (`AgentGroup`): only the parts
used for placement. -/
structure Group where
  /-- `agent_type` -/
  kind : Kind
  /-- `size` -/
  size : ℕ
  /-- `members` -/
  members : List Member

/-- Source: crowddynamics/simulation/agents.py:613-631 (`Agents`): attributes. -/
structure AgentsState where
  /-- `agent_type` -/
  kind : Kind
  /-- `array` -/
  array : List Agent
  /-- `index` -/
  index : ℕ
  /-- `_neighbours` -/
  neighbours : BlockList ℝ ℕ

/-- Source: crowddynamics/simulation/agents.py:626-631 (`Agents.__init__`); `none` if the
assertion of the block list fails. -/
def AgentsState.init (kind : Kind) (cellSize : ℝ) : Option AgentsState :=
  (BlockList.init cellSize).map fun bl => ⟨kind, [], 0, bl⟩

/-- How a call ended.
Source: crowddynamics/simulation/agents.py:641-680. -/
inductive Outcome where
  /-- normal return -/
  | ok
  /-- the position generator raised -/
  | generatorError
  /-- `group.members[index]` raised `IndexError` -/
  | indexError
  /-- `CrowdDynamicsException` because of different agent types -/
  | typeMismatch
  deriving DecidableEq

/-- State after a call, with the (mutated) group members and unused positions.
Source: crowddynamics/simulation/agents.py:641-680. -/
structure PlaceResult where
  /-- the `Agents` object -/
  state : AgentsState
  /-- `group.members` -/
  members : List Member
  /-- positions that were not asked for -/
  rest : List Vec
  /-- number of rejected positions (`overlaps`) -/
  overlaps : ℕ
  /-- how the call ended -/
  outcome : Outcome

/-- `self.array[neighbours]`. Source: crowddynamics/simulation/agents.py:659. Out of range
indices cannot occur (proved), the model uses zero rows for them. -/
def rowsAt (array : List Agent) (indices : List ℕ) : List Agent :=
  indices.map fun i => array.getD i Agent.zero

/-- The `while` loop. The position generator is the list of its future results; when it
is exhausted, the next request raises. An infinite generator or a callable is
represented by any list that is long enough.
Source: crowddynamics/simulation/agents.py:648-673. -/
def placeLoop (size : ℕ) (obstacles : Option (List Wall)) (gen : List Vec)
    (index overlaps : ℕ) (st : AgentsState) (members : List Member) : PlaceResult :=
  if index < size ∧ overlaps < 10 * size then
    match members[index]? with
    | none => ⟨st, members, gen, overlaps, .indexError⟩
    | some m =>
      match gen with
      | [] => ⟨st, members, [], overlaps, .generatorError⟩
      | p :: gen' =>
        let newAgent := (m.setPosition p).touch st.kind
        let members := members.set index newAgent
        let r := st.neighbours.nearest [p.1, p.2] 1
        let st := { st with neighbours := r.2 }
        if newAgent.overlapping st.kind (rowsAt st.array r.1) then
          placeLoop size obstacles gen' index (overlaps + 1) st members
        else if (match obstacles with
            | none => false
            | some obs => newAgent.overlappingObstacles st.kind obs) then
          placeLoop size obstacles gen' index (overlaps + 1) st members
        else
          let st := { st with
            array := st.array.set st.index newAgent.row
            neighbours := st.neighbours.setItem [p.1, p.2] st.index
            index := st.index + 1 }
          placeLoop size obstacles gen' (index + 1) overlaps st members
  else ⟨st, members, gen, overlaps, .ok⟩

/-- Source: crowddynamics/simulation/agents.py:633-680 (`add_non_overlapping_group`). -/
def addNonOverlappingGroup (st : AgentsState) (group : Group) (gen : List Vec)
    (obstacles : Option (List Wall)) : PlaceResult :=
  if st.kind ≠ group.kind then ⟨st, group.members, gen, 0, .typeMismatch⟩
  else
    let st := { st with array := st.array ++ List.replicate group.size Agent.zero }
    placeLoop group.size obstacles gen 0 0 st group.members

/-- A sequence of calls, continuing after exceptions as a caller might.
Source: crowddynamics/simulation/agents.py:633-680. -/
def addGroups (st : AgentsState) : List (Group × List Vec × Option (List Wall)) → AgentsState
  | [] => st
  | (group, gen, obstacles) :: calls =>
    addGroups (addNonOverlappingGroup st group gen obstacles).state calls

end

end CrowdDynamics
