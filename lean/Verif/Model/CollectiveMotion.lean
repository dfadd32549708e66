import Verif.Model.Interactions

/-!
# Model of `crowddynamics/core/steering/collective_motion.py` and of the logic nodes
`LeaderFollower` and `LeaderFollowerWithHerding`
-/

namespace CrowdDynamics

noncomputable section

open Classical

/-- Source: crowddynamics/core/steering/collective_motion.py:16-21 (`normalize_nx2`). -/
def normalizeNx2 {n : ℕ} (v : Fin n → Vec) : Fin n → Vec := fun i => normalize (v i)

/-- Source: crowddynamics/core/steering/collective_motion.py:24-58 (`herding_relationship`). -/
def herdingRelationship (x1 x2 v1 v2 : Vec) (phi : ℝ) : Bool × Bool :=
  if length v1 = 0 ∨ length v2 = 0 then (false, false)
  else
    let eRel := normalize (x2 - x1)
    let ci := dot eRel (normalize v1)
    let cj := -dot eRel (normalize v2)
    let cosPhi := Real.cos phi
    if cosPhi < ci ∧ ci < 1 then
      if cosPhi < cj ∧ cj < 1 then (false, false) else (true, false)
    else
      if cosPhi < cj ∧ cj < 1 then (false, true) else (true, true)

/-- `np.argmax` of a row: the first index of the largest value. `none`: the exception for an
empty row. Source: the call at crowddynamics/core/steering/collective_motion.py:63. -/
def npArgmax : List ℝ → Option ℕ
  | [] => none
  | x :: xs =>
    match npArgmax xs with
    | none => some 0
    | some i => if xs.getD i 0 > x then some (i + 1) else some 0

/-- One row of the arrays `neighbors`, `distances` and `distances_max`. The first two have the
same shape and are always written together, so they are one list of pairs; `none` stands for
`MISSING_NEIGHBOR`.
Source: crowddynamics/core/steering/collective_motion.py:78-90. -/
structure NeighborRow (n : ℕ) where
  /-- `neighbors[i, :]` and `distances[i, :]` -/
  slots : List (Option (Fin n) × ℝ)
  /-- `distances_max[i]` -/
  dmax : ℝ

/-- Source: crowddynamics/core/steering/collective_motion.py:61-66 (`set_neighbor`) for row `i`.
`none` is the exception of `np.argmax` on an empty row. -/
def setNeighbor {n : ℕ} (j : Fin n) (l : ℝ) (row : NeighborRow n) : Option (NeighborRow n) := do
  let argmax ← npArgmax (row.slots.map Prod.snd)
  let slots := row.slots.set argmax (some j, l)
  let dmax ← npMax (slots.map Prod.snd)
  some ⟨slots, dmax⟩

/-- `if l < distances_max[i]: set_neighbor(i, j, …)`.
Source: crowddynamics/core/steering/collective_motion.py:101-105. -/
def offerNeighbor {n : ℕ} (i j : Fin n) (l : ℝ) (rows : Fin n → NeighborRow n) :
    Option (Fin n → NeighborRow n) :=
  if l < (rows i).dmax then do
    let row ← setNeighbor j l (rows i)
    some (Function.update rows i row)
  else some rows

/-- Body of the loop of `find_nearest_neighbors`.
Source: crowddynamics/core/steering/collective_motion.py:92-105. -/
def neighborStep {n : ℕ} (position : Fin n → Vec) (obstacles : List Wall)
    (rows : Fin n → NeighborRow n) (p : Fin n × Fin n) : Option (Fin n → NeighborRow n) :=
  if isObstacleBetweenPoints (position p.1) (position p.2) obstacles then some rows
  else do
    let l := length (position p.1 - position p.2)
    let rows ← offerNeighbor p.1 p.2 l rows
    offerNeighbor p.2 p.1 l rows

/-- Source: crowddynamics/core/steering/collective_motion.py:69-107
(`find_nearest_neighbors`); `pairs` is what `iter_nearest_neighbors` yields. `none` is the
exception raised for `size_nearest_other = 0`. -/
def findNearestNeighbors {n : ℕ} (position : Fin n → Vec) (sight : ℝ) (sizeNearestOther : ℕ)
    (pairs : List (Fin n × Fin n)) (obstacles : List Wall) :
    Option (Fin n → List (Option (Fin n))) := do
  let rows ← pairs.foldlM (neighborStep position obstacles)
    (fun _ => ⟨List.replicate sizeNearestOther (none, sight), sight⟩)
  some fun i => (rows i).slots.map Prod.fst

/-- The accumulators `mean_position`, `mean_velocity`, `num_neigh` of `herding_interaction`
after the inner loop for agent `i`.
Source: crowddynamics/core/steering/collective_motion.py:131-143. -/
def herdingSums {n : ℕ} (position velocity : Fin n → Vec) (phi : ℝ) (i : Fin n)
    (row : List (Option (Fin n))) : Vec × Vec × ℕ :=
  row.foldl (fun acc j =>
    match j with
    | none => acc
    | some j =>
      if (herdingRelationship (position i) (position j) (velocity i) (velocity j) phi).1 then
        (acc.1 + position j, acc.2.1 + velocity j, acc.2.2 + 1)
      else acc) (0, 0, 0)

/-- Source: crowddynamics/core/steering/collective_motion.py:110-155 (`herding_interaction`).
One result `(new_direction[i], has_new_direction[i])` for each agent; the accumulators are
reset to zero after each agent. -/
def herdingInteraction {n : ℕ} (isHerding : Fin n → Bool) (position velocity : Fin n → Vec)
    (neighbors : Fin n → List (Option (Fin n))) (weightPosition phi : ℝ) :
    Fin n → Vec × Bool := fun i =>
  if isHerding i then
    let s := herdingSums position velocity phi i (neighbors i)
    if s.2.2 > 0 then
      (normalize (weightedAverage (normalize ((1 / (s.2.2 : ℝ)) • s.1 - position i))
        (normalize s.2.1) weightPosition), true)
    else (0, false)
  else (0, false)

/-- The arrays written by `leader_follower_interaction_brute`.
Source: crowddynamics/core/steering/collective_motion.py:159-169. -/
structure FollowState (n : ℕ) where
  /-- `target` (a view of the agents array) -/
  target : Fin n → ℤ
  /-- `index_leader` (a view of the agents array) -/
  indexLeader : Fin n → ℤ
  /-- `has_strategy` -/
  hasStrategy : Fin n → Bool
  /-- `new_direction` -/
  newDirection : Fin n → Vec

/-- `target[leader]` with numba's rules: negative indices count from the end, nothing checks
the bounds; `oob` stands for what is read outside of the array.
Source: crowddynamics/core/steering/collective_motion.py:195, 218. -/
def readTarget {n : ℕ} (oob : ℤ → ℤ) (target : Fin n → ℤ) (k : ℤ) : ℤ :=
  let k' := if k < 0 then k + n else k
  if h : 0 ≤ k' ∧ k' < n then target ⟨k'.toNat, by omega⟩ else oob k

/-- `target[i] = target[leader]; has_strategy[i] = True`.
Source: crowddynamics/core/steering/collective_motion.py:195-196, 218-219. -/
def FollowState.copyTarget {n : ℕ} (oob : ℤ → ℤ) (s : FollowState n) (i : Fin n) (leader : ℤ) :
    FollowState n :=
  { s with
    target := Function.update s.target i (readTarget oob s.target leader)
    hasStrategy := Function.update s.hasStrategy i true }

/-- The loop over the leaders, from closest to furthest, for the follower `i`; the two numbers
are `behind_obstacle` and `heading_away`.
Source: crowddynamics/core/steering/collective_motion.py:181-213. -/
def leaderScan {n : ℕ} (oob : ℤ → ℤ) (position velocity : Fin n → Vec) (weightPosition phi : ℝ)
    (obstacles : List Wall) (sight : ℝ) (i : Fin n) (leaders : List (Fin n))
    (distances : List ℝ) (s : FollowState n) : List ℕ → FollowState n × ℕ × ℕ
  | [] => (s, 0, 0)
  | k :: ks =>
    if distances.getD k 0 > sight then
      leaderScan oob position velocity weightPosition phi obstacles sight i leaders distances s ks
    else
      match leaders[k]? with
      | none => (s, 0, 0) -- not reached, `k` is a valid index
      | some j =>
        if isObstacleBetweenPoints (position i) (position j) obstacles then
          let leader := s.indexLeader i
          if leader ≠ noLeader ∧ leader = (j.val : ℤ) then (s.copyTarget oob i leader, 1, 0)
          else leaderScan oob position velocity weightPosition phi obstacles sight i leaders
            distances s ks
        else if (herdingRelationship (position i) (position j) (velocity i) (velocity j) phi).1 then
          ({ target := Function.update s.target i noTarget
             indexLeader := Function.update s.indexLeader i (j.val : ℤ)
             hasStrategy := Function.update s.hasStrategy i true
             newDirection := Function.update s.newDirection i (normalize (weightedAverage
               (normalize (position j - position i)) (normalize (velocity j)) weightPosition)) },
           0, 1)
        else leaderScan oob position velocity weightPosition phi obstacles sight i leaders
          distances s ks

/-- Body of the loop over the followers.
Source: crowddynamics/core/steering/collective_motion.py:171-219. -/
def followStep {n : ℕ} (oob : ℤ → ℤ) (argsort : List ℝ → List ℕ) (position velocity : Fin n → Vec)
    (weightPosition phi : ℝ) (obstacles : List Wall) (sight : ℝ) (leaders : List (Fin n))
    (s : FollowState n) (i : Fin n) : FollowState n :=
  let distances := leaders.map fun j => length (position i - position j)
  let r := leaderScan oob position velocity weightPosition phi obstacles sight i leaders distances s
    (argsort distances)
  if r.2.1 = 0 ∧ r.2.2 = 0 then
    let leader := r.1.indexLeader i
    if leader ≠ noLeader then r.1.copyTarget oob i leader else r.1
  else r.1

/-- Source: crowddynamics/core/steering/collective_motion.py:158-221
(`leader_follower_interaction_brute`). `argsort` is `np.argsort`. -/
def leaderFollowerInteractionBrute {n : ℕ} (oob : ℤ → ℤ) (argsort : List ℝ → List ℕ)
    (isFollower isLeader : Fin n → Bool) (position velocity : Fin n → Vec)
    (weightPosition phi : ℝ) (target indexLeader : Fin n → ℤ) (obstacles : List Wall)
    (sight : ℝ) : FollowState n :=
  let leaders := (List.finRange n).filter isLeader
  let followers := (List.finRange n).filter isFollower
  followers.foldl
    (followStep oob argsort position velocity weightPosition phi obstacles sight leaders)
    ⟨target, indexLeader, fun _ => false, fun _ => 0⟩

/-- Source: crowddynamics/core/steering/collective_motion.py:224-237
(`leader_follower_interaction`). Returns `direction_leader` and the modified agents. -/
def leaderFollowerInteraction {n : ℕ} (oob : ℤ → ℤ) (argsort : List ℝ → List ℕ)
    (agents : Crowd n) (obstacles : List Wall) (sight phi weightPositionLeader : ℝ) :
    (Fin n → Vec) × Crowd n :=
  let s := leaderFollowerInteractionBrute oob argsort (fun i => (agents i).isFollower)
    (fun i => (agents i).isLeader) (fun i => (agents i).position) (fun i => (agents i).velocity)
    weightPositionLeader phi (fun i => (agents i).target) (fun i => (agents i).indexLeader)
    obstacles sight
  (s.newDirection, fun i =>
    let isLost := !s.hasStrategy i && (agents i).isFollower
    { agents i with
      target := if isLost then (agents i).familiarExit else s.target i
      indexLeader := s.indexLeader i })

/-- Source: crowddynamics/core/steering/collective_motion.py:240-279
(`leader_follower_with_herding_interaction`). `cellPairs` stands for the library `cell_lists`.
Returns the directions and the modified agents, or `none` if `find_nearest_neighbors` raises. -/
def leaderFollowerWithHerdingInteraction {n : ℕ} (oob : ℤ → ℤ) (argsort : List ℝ → List ℕ)
    (cellPairs : (Fin n → Vec) → ℝ → List (Fin n × Fin n)) (agents : Crowd n)
    (obstacles : List Wall) (sight : ℝ) (sizeNearestOther : ℕ)
    (phi weightPositionHerding weightPositionLeader weightDirectionLeader : ℝ) :
    Option ((Fin n → Vec) × Crowd n) := do
  let position := fun i => (agents i).position
  let velocity := fun i => (agents i).velocity
  let isLeader := fun i => (agents i).isLeader
  let isFollower := fun i => (agents i).isFollower
  let sightLeader : ℝ := 20
  let neighbors ← findNearestNeighbors position sight sizeNearestOther (cellPairs position sight)
    obstacles
  let herding := herdingInteraction isFollower position velocity neighbors weightPositionHerding phi
  let target := fun i => if (herding i).2 then noTarget else (agents i).target
  let s := leaderFollowerInteractionBrute oob argsort isFollower isLeader position velocity
    weightPositionLeader phi target (fun i => (agents i).indexLeader) obstacles sightLeader
  some (normalizeNx2 fun i => weightedAverage (s.newDirection i) (herding i).1 weightDirectionLeader,
    fun i =>
      let isLost := !((herding i).2 || s.hasStrategy i) && isFollower i
      { agents i with
        target := if isLost then (agents i).familiarExit else s.target i
        indexLeader := s.indexLeader i })

/-- Source: crowddynamics/simulation/logic.py:175-182 (`LeaderFollower.update`), with the default
values of `phi` and `weight_position_leader` of
crowddynamics/core/steering/collective_motion.py:224-226. -/
def leaderFollowerUpdate {n : ℕ} (oob : ℤ → ℤ) (argsort : List ℝ → List ℕ) (obstacles : List Wall)
    (sight : ℝ) (agents : Crowd n) : Crowd n :=
  let r := leaderFollowerInteraction oob argsort agents obstacles sight (0.45 * Real.pi) 0.40
  fun i => if (r.2 i).isFollower then { r.2 i with targetDirection := r.1 i } else r.2 i

/-- Source: crowddynamics/simulation/logic.py:210-221 (`LeaderFollowerWithHerding.update`), with
the default values of crowddynamics/core/steering/collective_motion.py:240-246. -/
def leaderFollowerWithHerdingUpdate {n : ℕ} (oob : ℤ → ℤ) (argsort : List ℝ → List ℕ)
    (cellPairs : (Fin n → Vec) → ℝ → List (Fin n × Fin n)) (obstacles : List Wall)
    (sightFollower : ℝ) (sizeNearestOther : ℕ) (agents : Crowd n) : Option (Crowd n) := do
  let r ← leaderFollowerWithHerdingInteraction oob argsort cellPairs agents obstacles
    sightFollower sizeNearestOther (0.45 * Real.pi) 0.15 0.40 0.65
  some fun i => if (r.2 i).isFollower then { r.2 i with targetDirection := r.1 i } else r.2 i

end

end CrowdDynamics
