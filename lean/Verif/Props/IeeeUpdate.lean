import Verif.Proofs.IeeeUpdateCases

/-!
# C206: an update of an ordinary crowd is finite
-/

namespace CrowdDynamics

open Spec Real

/-- **C206**: for circular agents and walls of ordinary size (coordinates up to `2 ^ 20`, velocities
and radii up to `2 ^ 10`, all of them multiples of `2 ^ -60`; other attributes as in
`ModerateAgent`, `ModerateContact` and `ModerateWalk`) none of which has its centre on the end of a
wall, a whole update raises no exception, leaves finite attributes, and its result is the one that
the rounded operations without overflow give. -/
theorem C206_update {n : ℕ} {A : Arith} (hr : A.rnd = fl64) (hh : AccurateHypot A.hypot)
    (he : SaneExp A.exp) {agents : Crowd n} {pairs : List (Fin n × Fin n)} {walls : List Wall}
    {xi direction : Fin n → Vec} {dtMin dtMax : ℝ}
    (ha : ∀ i, ModerateAgent (agents i) ∧ ModerateContact (agents i) ∧ ModerateWalk (agents i))
    (hf : ModerateForces fun i => (agents i).force) (hx : ModerateForces xi)
    (hd : ∀ i, |(direction i).1| ≤ 2 ^ (1 : ℤ) ∧ |(direction i).2| ≤ 2 ^ (1 : ℤ))
    (hw : ∀ w ∈ walls, ModerateWall w ∧ ∀ i, (agents i).position ≠ w.p0 ∧
      (agents i).position ≠ w.p1)
    (hn : 1 + 2 * pairs.length + n * walls.length < 2 ^ 53)
    (h0 : 0 ≤ dtMin) (h1 : dtMin ≤ dtMax) (h2 : dtMax ≤ 2 ^ (10 : ℤ)) :
    ∃ R, updateF A walls dtMin dtMax xi direction pairs agents = some R ∧
      updateI A walls dtMin dtMax (finiteInput xi direction pairs)
        (fun i => finiteAgent (agents i)) = .ok fun i => finiteAgent (R i) :=
  updateI_finite hr hh he ha hf hx hd hw hn h0 h1 h2

/-- **C206**: this holds for the other agents too if there is one more agent whose position and
velocity are NaN in one coordinate, for a fixed time step. -/
theorem C206_beside_lost {n : ℕ} {A : Arith} (hr : A.rnd = fl64) (hh : AccurateHypot A.hypot)
    (he : SaneExp A.exp) {agents : Crowd n} {pairs : List (Fin n × Fin n)} {walls : List Wall}
    {xi direction : Fin n → Vec} {dt : ℝ}
    (ha : ∀ i, ModerateAgent (agents i) ∧ ModerateContact (agents i) ∧ ModerateWalk (agents i))
    (hf : ModerateForces fun i => (agents i).force) (hx : ModerateForces xi)
    (hd : ∀ i, |(direction i).1| ≤ 2 ^ (1 : ℤ) ∧ |(direction i).2| ≤ 2 ^ (1 : ℤ))
    (hw : ∀ w ∈ walls, ModerateWall w ∧ ∀ i, (agents i).position ≠ w.p0 ∧
      (agents i).position ≠ w.p1)
    (hn : 1 + 2 * pairs.length + n * walls.length < 2 ^ 53)
    (h0 : 0 ≤ dt) (h1 : dt ≤ 2 ^ (10 : ℤ)) {all : Fin (n + 1) → AgentI} {k : Fin (n + 1)}
    {b : Bool} (hk : Lost b (all k).toRowI) (ht : (all k).tauAdj ≠ 0)
    (hv : |(all k).targetVelocity| ≤ 2 ^ (10 : ℤ))
    (ho : (fun i => all (k.succAbove i)) = fun i => finiteAgent (agents i))
    {I : StepInput (n + 1)} (hI : Without k I (finiteInput xi direction pairs)) :
    ∃ R S, updateF A walls dt dt xi direction pairs agents = some R ∧
      updateI A walls dt dt I all = .ok S ∧ ∀ i, S (k.succAbove i) = finiteAgent (R i) := by
  obtain ⟨R, e1, e2⟩ := updateI_finite hr hh he ha hf hx hd hw hn h0 le_rfl h1
  have tv : ∀ i, |(all i).targetVelocity| ≤ 2 ^ (10 : ℤ) := by
    intro i
    by_cases hi : i = k
    · rw [hi]
      exact hv
    · obtain ⟨j, rfl⟩ := Fin.exists_succAbove_eq hi
      rw [congrFun ho j]
      exact (ha j).2.2.targetVelocity
  have s := updateI_without hr walls h0 h1 hI hk.1 ht tv
  rw [ho, e2] at s
  cases e : updateI A walls dt dt I all with
  | error err =>
    rw [e] at s
    cases s
  | ok S =>
    rw [e] at s
    injection s with s
    exact ⟨R, S, e1, rfl, fun i => congrFun s i⟩

/-- The hypotheses of `C206_update` hold for two agents that overlap, with a wall across both of
them. -/
example : ∃ R : Crowd 2, updateI Arith.machine [⟨(-1, 1 / 4), (3, 1 / 4)⟩] (1 / 1000) (1 / 100)
    (finiteInput (fun _ => (0, 0)) (fun _ => (1, 0)) [(0, 1)]) (fun i => finiteAgent (eagerPair i)) =
      .ok fun i => finiteAgent (R i) := by
  obtain ⟨R, -, h⟩ := C206_update (A := Arith.machine) rfl accurate_machine sane_machine
    (pairs := [(0, 1)]) (walls := [⟨(-1, 1 / 4), (3, 1 / 4)⟩]) (xi := fun _ => (0, 0))
    (direction := fun _ => (1, 0)) (dtMin := 1 / 1000) (dtMax := 1 / 100) eagerPair_moderate
    (by rw [eagerPair_force]; exact zero_forces_moderate) zero_forces_moderate
    (fun _ => by norm_num)
    (fun w hw => by rw [List.mem_singleton.1 hw]; exact ⟨long_wall_moderate, pressed_wall⟩)
    (by norm_num) (by norm_num) (by norm_num) (by norm_num)
  exact ⟨R, h⟩

/-- The hypotheses of `C206_beside_lost` hold for the crowd of three agents of C205. -/
example : ∃ (R : Crowd 2) (S : Fin 3 → AgentI), updateI Arith.machine [⟨(-1, 1 / 4), (3, 1 / 4)⟩] (1 / 100) (1 / 100)
    ghostInput ghostCrowd = .ok S ∧ ∀ i, S ((1 : Fin 3).succAbove i) = finiteAgent (R i) := by
  obtain ⟨R, S, -, h⟩ := C206_beside_lost (A := Arith.machine) rfl accurate_machine sane_machine
    (agents := eagerPair)
    (pairs := [(0, 1)]) (walls := [⟨(-1, 1 / 4), (3, 1 / 4)⟩]) (xi := fun _ => (0, 0))
    (direction := fun _ => (1, 0)) (dt := 1 / 100) eagerPair_moderate
    (by rw [eagerPair_force]; exact zero_forces_moderate) zero_forces_moderate
    (fun _ => by norm_num)
    (fun w hw => by rw [List.mem_singleton.1 hw]; exact ⟨long_wall_moderate, pressed_wall⟩)
    (by norm_num) (by norm_num) (by norm_num) ghostCrowd_lost ghostCrowd_tau (ghostCrowd_target 1)
    ghost_others ghost_without
  exact ⟨R, S, h⟩

end CrowdDynamics
