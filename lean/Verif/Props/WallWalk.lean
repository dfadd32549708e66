import Verif.Proofs.WallWalkCases
import Verif.Props.BodyType

/-!
# Walking against a wall: C202
-/

namespace CrowdDynamics

open Spec

variable {n : ℕ}

/-- **C202** In every run of a shipped simulation with circular agents, of any length: an agent who stays
beside a straight wall, and on whom, besides this wall and the adjusting force, never more than `F` acts, is
stopped by the wall, although the damping term pulls it on. It never sinks in by more than `D` (less than its
radius), never moves towards the wall faster than `P`, and never passes the wall, if the constants of the
agent are such that the contact force suffices (see `StopsWithin`). -/
theorem C202_stopped {env : SimEnv n} {e : LogicExpr} {order : List Node} {s : SimState n} {N : ℕ}
    {S : ℕ → SimState n} (h : ShippedRun env e order s N S) (i : Fin n) {p q ν : ℝ × ℝ} {V P D F : ℝ}
    (hpq : p ≠ q) (hν : IsNormal p q ν) (hg : StopsWithin (s.agents.rows i) V P D)
    (hv : 0 ≤ (s.agents.rows i).targetVelocity)
    (hd : ∀ j < N, len ((S (j + 1)).agents.rows i).targetDirection ≤ 1)
    (hF : ∀ j < N, ∀ d, Disturbs env order (S j) (S (j + 1)) i d →
      ∃ f, IsWallEffect .circular (aiming (S j) (S (j + 1)) i) p q f ∧ len (d - f.1) ≤ F)
    (hV : (s.agents.rows i).targetVelocity +
      (s.agents.rows i).tauAdj * F / (s.agents.rows i).mass ≤ V)
    (h0 : len (s.agents.rows i).velocity ≤ V)
    (hside : (s.agents.rows i).radius ≤ offWall p ν (s.agents.rows i).position)
    (hbeside : ∀ j < N, Beside p q ((S j).agents.rows i).position) :
    (∀ j ≤ N, (s.agents.rows i).radius - D ≤ offWall p ν ((S j).agents.rows i).position ∧
      -P ≤ Spec.inner ((S j).agents.rows i).velocity ν) ∧
    ∀ j < N, Disjoint (segment ℝ ((S j).agents.rows i).position ((S (j + 1)).agents.rows i).position)
      (segment ℝ p q) := by
  have key := wall_walk h i hpq hν hg hv hd hF hV h0 hside hbeside
  have hD := hg.2.2.2.1
  exact ⟨key, fun j hj => same_side hν (by linarith [(key j hj.le).1]) (by linarith [(key (j + 1) hj).1])⟩

/-- **C202** In particular with the constants of the code: an agent with the body of a shipped body type,
out of reach of all others, who never touches another wall and starts no faster than it wants to walk, never
gets nearer to the middle line of the wall than 4 cm with its centre, and so stays on its side of the wall. -/
theorem C202_shipped {env : SimEnv n} {e : LogicExpr} {order : List Node} {s : SimState n} {N : ℕ}
    {S : ℕ → SimState n} (h : ShippedRun env e order s N S) (i : Fin n) {p q ν : ℝ × ℝ}
    (ho : .agentObstacle ∈ order) (hpq : p ≠ q) (hν : IsNormal p q ν)
    (z : ℕ → ℝ → ℝ → ℝ) (hz : InTruncRange z) (name : String) (hname : name ∈ shippedNames)
    (hbody : StoresBody (s.agents.rows i) (construct bodyTypesCfg z [.bodyType name]).obj)
    (ht : (s.agents.rows i).tauAdj = 0.5) (hmu : (s.agents.rows i).mu = 1.2e5)
    (hda : (s.agents.rows i).damping = 500) (hs : (s.agents.rows i).stdRandForce ≤ 0.1)
    (hd : ∀ j < N, len ((S (j + 1)).agents.rows i).targetDirection ≤ 1)
    (hu : ∀ j < N, TouchesOnly env (S j).agents.rows i (p, q))
    (h0 : len (s.agents.rows i).velocity ≤ (s.agents.rows i).targetVelocity)
    (hside : (s.agents.rows i).radius ≤ offWall p ν (s.agents.rows i).position)
    (hbeside : ∀ j < N, Beside p q ((S j).agents.rows i).position) :
    (∀ j ≤ N, 0.04 ≤ offWall p ν ((S j).agents.rows i).position ∧
      -2.7 ≤ Spec.inner ((S j).agents.rows i).velocity ν) ∧
    ∀ j < N, Disjoint (segment ℝ ((S j).agents.rows i).position ((S (j + 1)).agents.rows i).position)
      (segment ℝ p q) := by
  obtain ⟨b, hb, r1, r2, m1, m2, v1, v2, -⟩ := C16_shipped_values z hz name hname
  rw [hb] at hbody
  have er := hbody.radius
  have em := hbody.mass
  have ev := hbody.targetVelocity
  simp only at er em ev
  rw [← er] at r1
  rw [← em] at m1 m2
  rw [← ev] at v1 v2
  have hm : 0 < (s.agents.rows i).mass := by linarith
  have key := C202_stopped h i (V := 1.75) (P := 2.7) (D := 0.15)
    (F := 3 * (s.agents.rows i).mass * (s.agents.rows i).stdRandForce) hpq hν
    (shipped_stops ht hmu hda (by linarith) (by linarith) (by linarith)) (by linarith) hd
    (fun j hj d hdj => by
      obtain ⟨f, f1, f2⟩ := touches_only ho (hu j hj) hdj
      have hb := (completed_body h.order h.completed j hj.le).2 i
      rw [← hb.mass, ← hb.stdRandForce] at f2
      exact ⟨f, f1, f2⟩)
    (by
      rw [ht, show 0.5 * (3 * (s.agents.rows i).mass * (s.agents.rows i).stdRandForce) /
        (s.agents.rows i).mass = 1.5 * (s.agents.rows i).stdRandForce by
          rw [div_eq_iff hm.ne']; ring]
      linarith)
    (by linarith) hside hbeside
  exact ⟨fun j hj => ⟨by linarith [(key.1 j hj).1], (key.1 j hj).2⟩, key.2⟩

/-- A leader with an ordinary body in a room with one wall who wants to walk straight on, against the wall:
however long the run, the wall holds. -/
example (b : BodyObj) (hb : OrdinaryBody b) (N : ℕ) : ∀ j ≤ N,
    b.val .radius - 0.15 ≤ offWall (2, -1) (-1, 0) ((marching b j).agents.rows 0).position :=
  fun j hj => ((C202_stopped (marching_run hb N) 0 (by norm_num) one_wall_normal (marching_stops hb)
    (marching_pace hb).1 (fun j _ => by rw [(marching_direction b (j + 1)).1, len_axis]; norm_num)
    (marching_drives hb N) (marching_pace hb).2.1 (marching_pace hb).2.2.1 (marching_pace hb).2.2.2
    (fun j hj => marching_beside b j (marching_holds hb N j hj.le).1)).1 j hj).1

/-- This leader with the body of any shipped body type. -/
example (z : ℕ → ℝ → ℝ → ℝ) (hz : InTruncRange z) (name : String) (hname : name ∈ shippedNames)
    (b : BodyObj) (hb : b = (construct bodyTypesCfg z [.bodyType name]).obj) (N : ℕ) :
    ∀ j ≤ N, ((marching b j).agents.rows 0).position.1 ≤ 1.96 := by
  obtain ⟨b', hb', r1, r2, m1, m2, v1, v2, -⟩ := C16_shipped_values z hz name hname
  have hbb : b = b' := by rw [hb, hb']
  rw [← hbb] at r1 r2 m1 m2 v1 v2
  have ho : OrdinaryBody b := ⟨⟨r1, r2⟩, ⟨m1, m2⟩, v1, v2⟩
  intro j hj
  have h1 := ((C202_shipped (marching_run ho N) 0 (p := (2, -1)) (q := (2, 1)) (by simp [closedOrder])
    (by norm_num) one_wall_normal z hz name hname (by rw [← hb]; exact ⟨rfl, rfl, rfl, rfl, rfl, rfl, rfl⟩)
    (by norm_num [demoState, marcher]) rfl rfl (by norm_num [demoState, marcher])
    (fun j _ => by rw [(marching_direction b (j + 1)).1, len_axis]; norm_num)
    (fun j _ => marching_only b j)
    (by
      have : len ((demoState (marcher b)).agents.rows 0).velocity = 0 := by
        change len (0 : ℝ × ℝ) = 0
        norm_num [len]
      rw [this]
      exact (marching_pace ho).1)
    (marching_pace ho).2.2.2
    (fun j hj => marching_beside b j (marching_holds ho N j hj.le).1)).1 j hj).1
  simp only [offWall, Spec.inner, Prod.fst_sub, Prod.snd_sub] at h1
  norm_num at h1 ⊢
  linarith

end CrowdDynamics
