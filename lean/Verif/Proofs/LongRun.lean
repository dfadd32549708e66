import Verif.Proofs.Dynamics
import Verif.Props.Dynamics
import Verif.Proofs.Placement
import Verif.Spec.LongRun

/-!
# Long runs: the recurrence of velocities
-/

namespace CrowdDynamics

open Spec

variable {n : ℕ}

lemma len_zero' : len 0 = 0 := by simp [len]

lemma len_add_le' (u v : Vec) : len (u + v) ≤ len u + len v := by
  have := dist_triangle' u 0 (-v)
  simpa [Spec.dist] using this

lemma len_smul' (c : ℝ) (v : Vec) : len (c • v) = |c| * len v := by
  unfold len
  rw [← Real.sqrt_sq_eq_abs, ← Real.sqrt_mul (sq_nonneg c)]
  congr 1
  simp
  ring

lemma len_neg' (v : Vec) : len (-v) = len v := by simp [len]

/-- The two rates of the recurrence: `r + s = 1 - h / 2` and `r * s = h / 2`. -/
lemma rates {h : ℝ} (h0 : 0 < h) (h1 : h ≤ 0.3) :
    ∃ r s : ℝ, 0 ≤ r ∧ 0 ≤ s ∧ s < 1 ∧ r + s = 1 - h / 2 ∧ r * s = h / 2 := by
  have hd : 0 ≤ (1 - h / 2) ^ 2 - 2 * h := by nlinarith
  obtain ⟨w, hw, hw2⟩ : ∃ w, 0 ≤ w ∧ w ^ 2 = (1 - h / 2) ^ 2 - 2 * h :=
    ⟨_, Real.sqrt_nonneg _, Real.sq_sqrt hd⟩
  have hlt : w < 1 - h / 2 := by nlinarith
  exact ⟨((1 - h / 2) + w) / 2, ((1 - h / 2) - w) / 2, by linarith, by linarith, by linarith,
    by ring, by nlinarith⟩

/-- Velocities `v`, where the acceleration `A j` in step `j` drives towards `U j`, and every step uses
the mean of the last and the present acceleration. -/
structure Drive (dt tau : ℝ) (N : ℕ) (v A U : ℕ → Vec) : Prop where
  first : 0 < N → v 1 = v 0 + (dt / 2) • A 0
  next : ∀ j, j + 1 < N → v (j + 2) = v (j + 1) + (dt / 2) • (A j + A (j + 1))
  drive : ∀ j < N, tau • A j = U j - v j

variable {dt tau : ℝ} {N : ℕ} {v A U : ℕ → Vec}

lemma Drive.accel (h : Drive dt tau N v A U) (ht : 0 < tau) {j : ℕ} (hj : j < N) :
    A j = (1 / tau) • (U j - v j) := by
  rw [← h.drive j hj, smul_smul, one_div, inv_mul_cancel₀ ht.ne', one_smul]

lemma drive_bound (h : Drive dt tau N v A U) (hdt : 0 < dt) (ht : 0 < tau) (hh : dt / tau ≤ 0.3)
    {V : ℝ} (hU : ∀ j < N, len (U j) ≤ V) (hv : len (v 0) ≤ V) :
    ∀ j ≤ N, len (v j) ≤ V := by
  obtain ⟨r, s, r0, s0, s1, e1, e2⟩ := rates (div_pos hdt ht) hh
  have hV : 0 ≤ V := (Real.sqrt_nonneg _).trans hv
  have key : ∀ j < N, len (v (j + 1) - s • v j) ≤ (1 - s) * V ∧ len (v (j + 1)) ≤ V ∧
      len (v j) ≤ V := by
    intro j
    induction j with
    | zero =>
      intro hN
      have hz : v 1 - s • v 0 = r • v 0 + (r * s) • U 0 := by
        rw [h.first hN, h.accel ht hN, smul_smul, show dt / 2 * (1 / tau) = dt / tau / 2 by ring, ← e2]
        have : r = 1 - r * s - s := by linarith
        ext <;> simp
        · linear_combination (-(v 0).1) * this
        · linear_combination (-(v 0).2) * this
      have b1 : len (v 1 - s • v 0) ≤ (1 - s) * V := by
        rw [hz]
        refine (len_add_le' _ _).trans ?_
        rw [len_smul', len_smul', abs_of_nonneg r0, abs_of_nonneg (mul_nonneg r0 s0)]
        have := mul_le_mul_of_nonneg_left hv r0
        have := mul_le_mul_of_nonneg_left (hU 0 hN) (mul_nonneg r0 s0)
        have : (1 - s) * V = r * V + r * s * V := by
          rw [show (1 : ℝ) - s = r + r * s by linarith]; ring
        linarith
      refine ⟨b1, ?_, hv⟩
      have : v (0 + 1) = s • v 0 + (v 1 - s • v 0) := by simp
      rw [this]
      refine (len_add_le' _ _).trans ?_
      rw [len_smul', abs_of_nonneg s0]
      have := mul_le_mul_of_nonneg_left hv s0
      linarith
    | succ j ih =>
      intro hj
      obtain ⟨i1, i2, i3⟩ := ih (by omega)
      have hz : v (j + 1 + 1) - s • v (j + 1) =
          r • (v (j + 1) - s • v j) + (r * s) • (U j + U (j + 1)) := by
        rw [h.next j hj, h.accel ht (by omega : j < N), h.accel ht hj, ← smul_add, smul_smul,
          show dt / 2 * (1 / tau) = dt / tau / 2 by ring, ← e2, ]
        have : r = 1 - r * s - s := by linarith
        ext <;> simp
        · linear_combination (-(v (j + 1)).1) * this
        · linear_combination (-(v (j + 1)).2) * this
      have b1 : len (v (j + 1 + 1) - s • v (j + 1)) ≤ (1 - s) * V := by
        rw [hz]
        refine (len_add_le' _ _).trans ?_
        rw [len_smul', len_smul', abs_of_nonneg r0, abs_of_nonneg (mul_nonneg r0 s0)]
        have a1 := mul_le_mul_of_nonneg_left i1 r0
        have a2 := mul_le_mul_of_nonneg_left ((len_add_le' _ _).trans
          (add_le_add (hU j (by omega)) (hU (j + 1) hj))) (mul_nonneg r0 s0)
        have : (1 - s) * V = r * ((1 - s) * V) + r * s * (V + V) := by
          have : (1 - s) = r * (1 - s) + 2 * (r * s) := by linarith
          linear_combination V * this
        linarith
      refine ⟨b1, ?_, i2⟩
      have : v (j + 1 + 1) = s • v (j + 1) + (v (j + 1 + 1) - s • v (j + 1)) := by simp
      rw [this]
      refine (len_add_le' _ _).trans ?_
      rw [len_smul', abs_of_nonneg s0]
      have := mul_le_mul_of_nonneg_left i2 s0
      linarith
  intro j hj
  cases j with
  | zero => exact hv
  | succ j => exact (key j (by omega)).2.1

/-- With a constant aim the difference to it keeps its direction and shrinks by a factor. -/
lemma drive_relax (h : Drive dt tau N v A U) (hdt : 0 < dt) (ht : 0 < tau) (hh : dt / tau ≤ 0.3)
    {u : Vec} (hU : ∀ j < N, U j = u) :
    ∀ j ≤ N, ∃ c : ℝ, 0 ≤ c ∧ c ≤ (1 - dt / tau / 2) ^ j ∧ v j - u = c • (v 0 - u) := by
  obtain ⟨r, s, r0, s0, s1, e1, e2⟩ := rates (div_pos hdt ht) hh
  have key : ∀ j < N, ∃ c d : ℝ, 0 ≤ c ∧ c ≤ (1 - dt / tau / 2) ^ j ∧ v j - u = c • (v 0 - u) ∧
      0 ≤ d ∧ d ≤ (1 - dt / tau / 2) ^ (j + 1) ∧ s * c ≤ d ∧ v (j + 1) - u = d • (v 0 - u) := by
    intro j
    induction j with
    | zero =>
      intro hN
      refine ⟨1, r + s, zero_le_one, by simp, by simp, by linarith, by rw [e1]; simp, by linarith, ?_⟩
      rw [h.first hN, h.accel ht hN, hU 0 hN, smul_smul, show dt / 2 * (1 / tau) = dt / tau / 2 by ring,
        e1]
      ext <;> simp <;> ring
    | succ j ih =>
      intro hj
      obtain ⟨c, d, c0, c1, c2, d0, d1, cd, d2⟩ := ih (by omega)
      refine ⟨d, (r + s) * d - r * s * c, d0, d1, d2, ?_, ?_, ?_, ?_⟩
      · nlinarith
      · rw [e1, pow_succ, mul_comm _ (1 - dt / tau / 2)]
        have := mul_le_mul_of_nonneg_left d1 (show 0 ≤ 1 - dt / tau / 2 by linarith)
        have := mul_nonneg (mul_nonneg r0 s0) c0
        linarith
      · nlinarith
      · have hv : v (j + 1 + 1) - u = (r + s) • (v (j + 1) - u) - (r * s) • (v j - u) := by
          rw [h.next j hj, h.accel ht (by omega : j < N), h.accel ht hj, hU j (by omega), hU (j + 1) hj,
            ← smul_add, smul_smul, show dt / 2 * (1 / tau) = dt / tau / 2 by ring, ← e2]
          have : r + s = 1 - r * s := by linarith
          rw [this]
          ext <;> simp <;> ring
        rw [hv, c2, d2]
        module
  intro j hj
  cases j with
  | zero => exact ⟨1, zero_le_one, by simp, by simp⟩
  | succ j =>
    obtain ⟨c, d, -, -, -, d0, d1, -, d2⟩ := key j (by omega)
    exact ⟨d, d0, d1, d2⟩

/-! ## Runs of the shipped simulations -/

/-- Body attributes and the array type stay the same during a run. -/
lemma completed_body {e : LogicExpr} {env : SimEnv n} {s : SimState n} {N : ℕ} {S : ℕ → SimState n}
    {order : List Node} (ho : e.order = .ok order) (h : Completed (e.update env) none s N S) :
    ∀ j ≤ N, (S j).agents.dtype = s.agents.dtype ∧
      ∀ i, SameBody (s.agents.rows i) ((S j).agents.rows i) := by
  intro j
  induction j with
  | zero => intro _; rw [h.first]; exact ⟨rfl, fun i => sameBody_refl _⟩
  | succ j ih =>
    intro hj
    obtain ⟨i1, i2⟩ := ih (by omega)
    obtain ⟨u, hu, ea⟩ := update_order ho env _ _ _ (h.next j (by omega))
    obtain ⟨k1, k2, -⟩ := nodes_keep env _ _ _ _ hu
    rw [ea]
    exact ⟨k1.trans i1, fun i => (i2 i).trans (k2 i).1⟩

/-- The states of a run of a shipped simulation stay regular. -/
lemma completed_regular {e : LogicExpr} {env : SimEnv n} {s : SimState n} {N : ℕ}
    {S : ℕ → SimState n} {order : List Node} (ho : e.order = .ok order)
    (h : Completed (e.update env) none s N S) (hr : Regular env [.agentAgent (3.0 + 2 * 0.3)] s)
    (hc : ∀ j < N, CellsWork env (S j)) :
    ∀ j < N, Regular env [.agentAgent (3.0 + 2 * 0.3)] (S j) := by
  intro j hj
  obtain ⟨hd, hb⟩ := completed_body ho h j hj.le
  refine ⟨by rw [hd]; exact hr.circular, fun k => (hb k).radius ▸ hr.radius k,
    fun k => (hb k).mass ▸ hr.mass k, fun k => (hb k).tauAdj ▸ hr.tau k,
    fun k => (hb k).stdRandForce ▸ hr.std k, hr.draws, hr.obstacles, fun c hcm => ?_⟩
  obtain ⟨c0, c1, -⟩ := hr.cells c hcm
  refine ⟨c0, fun i k hik => (hb i).radius ▸ (hb k).radius ▸ c1 i k hik, ?_⟩
  rw [List.mem_singleton] at hcm
  cases hcm
  exact hc j hj

open Classical in
/-- Every step of a run obeys Newton's law, and no forces are left after it. -/
lemma run_newton {env : SimEnv n} {e : LogicExpr} {order : List Node} {s : SimState n} {N : ℕ}
    {S : ℕ → SimState n} (h : ShippedRun env e order s N S) :
    ∀ j < N, MovesByNewton env order (S j) (S (j + 1)) := by
  obtain ⟨ratioObs, width, k, hw, hk, he⟩ := h.shipped
  intro j hj
  have h0 : ∀ j < N, (∀ i, ((S j).agents.rows i).force = 0) →
      MovesByNewton env order (S j) (S (j + 1)) := by
    intro j hj h0
    obtain ⟨o, ho, hm⟩ := C113_shipped_newton env ratioObs width h.domain hw k e he hk (S j) (S (j + 1))
      (completed_regular h.order h.completed h.regular h.cells j hj) h0 (h.completed.next j hj)
    rw [h.order] at ho
    cases ho
    exact hm
  cases j with
  | zero => exact h0 0 hj fun i => by rw [h.completed.first]; exact (h.start i).1
  | succ j =>
    refine h0 _ hj fun i => ?_
    have : ∀ j < N, ∀ i, ((S j).agents.rows i).force = 0 := by
      intro j
      induction j with
      | zero => intro _ i; rw [h.completed.first]; exact (h.start i).1
      | succ j ih => intro hj i; exact (h0 j (by omega) (ih (by omega)) i).1
    exact this _ hj i

lemma accel_unique {m : ℝ} (hm : 0 < m) {f a : Vec} (h : IsAcceleration m f a) : a = (1 / m) • f := by
  unfold IsAcceleration at h
  rw [← h]
  ext <;> simp [hm.ne']

/-- What the agent `i` is driven to in step `j`, and how it moves. -/
lemma run_drive {env : SimEnv n} {e : LogicExpr} {order : List Node} {s : SimState n} {N : ℕ}
    {S : ℕ → SimState n} (h : ShippedRun env e order s N S) (i : Fin n) :
    ∃ A U : ℕ → Vec,
      Drive 0.01 (s.agents.rows i).tauAdj N (fun j => ((S j).agents.rows i).velocity) A U ∧
      ∀ j < N,
        (∃ d, Disturbs env order (S j) (S (j + 1)) i d ∧
          U j = (s.agents.rows i).targetVelocity • ((S (j + 1)).agents.rows i).targetDirection +
            ((s.agents.rows i).tauAdj / (s.agents.rows i).mass) • d) ∧
        ((S (j + 1)).agents.rows i).position = ((S j).agents.rows i).position +
          (0.01 : ℝ) • ((S (j + 1)).agents.rows i).velocity + ((0.01 : ℝ) ^ 2 / 2) • A j := by
  have hm := h.regular.mass i
  have ht := h.regular.tau i
  have hb := completed_body h.order h.completed
  refine ⟨fun j => (1 / (s.agents.rows i).mass) • ((S (j + 1)).agents.rows i).forcePrev,
    fun j => ((S j).agents.rows i).velocity + (s.agents.rows i).tauAdj •
      (1 / (s.agents.rows i).mass) • ((S (j + 1)).agents.rows i).forcePrev, ⟨?_, ?_, ?_⟩, ?_⟩
  · intro hN
    obtain ⟨-, f, a, p, w, -, -, -, -, x, y, hx, hy, hv, -, hf⟩ := run_newton h 0 hN i
    rw [← ((hb 0 (by omega)).2 i).mass] at hx hy
    rw [hv, accel_unique hm hx, accel_unique hm hy, hf]
    have : ((S 0).agents.rows i).forcePrev = 0 := by rw [h.completed.first]; exact (h.start i).2
    rw [this, smul_zero, zero_add]
  · intro j hj
    obtain ⟨-, f, a, p, w, -, -, -, -, x, y, hx, hy, hv, -, hf⟩ := run_newton h (j + 1) hj i
    rw [← ((hb (j + 1) (by omega)).2 i).mass] at hx hy
    rw [hv, accel_unique hm hx, accel_unique hm hy, hf]
  · intro j hj
    simp
  · intro j hj
    obtain ⟨-, f, a, p, w, cf, ca, cp, cw, x, y, hx, hy, hv, hp, hf⟩ := run_newton h j hj i
    have hbj := (hb j (by omega)).2 i
    rw [← hbj.mass] at hx hy
    refine ⟨⟨f + p + w, ⟨f, p, w, cf, cp, cw, rfl⟩, ?_⟩, ?_⟩
    · have ca' : (s.agents.rows i).tauAdj • a = (s.agents.rows i).mass •
          ((s.agents.rows i).targetVelocity • ((S (j + 1)).agents.rows i).targetDirection -
            ((S j).agents.rows i).velocity) := by
        rw [hbj.tauAdj, hbj.mass, hbj.targetVelocity]
        exact ca
      simp only
      rw [hf, show f + a + p + w = a + (f + p + w) by abel, smul_add, smul_add,
        smul_comm (s.agents.rows i).tauAdj, ca', smul_smul, one_div, inv_mul_cancel₀ hm.ne', one_smul,
        smul_smul]
      rw [div_eq_mul_inv]
      abel
    · simp only
      rw [hp, accel_unique hm hy, hf]

open Classical in
/-- An agent out of reach feels only the random force. -/
lemma disturbs_alone {env : SimEnv n} {order : List Node} {s t : SimState n} {i : Fin n} {d : Vec}
    (hu : OutOfReach env s.agents.rows i) (hd : Disturbs env order s t i d) :
    len d ≤ 3 * (s.agents.rows i).mass * (s.agents.rows i).stdRandForce := by
  obtain ⟨f, p, w, hf, ⟨F, hF, hp⟩, hw, rfl⟩ := hd
  have hp0 : p = 0 := by
    rw [hp]
    refine Finset.sum_eq_zero fun j hj => ?_
    have hj := (Finset.mem_erase.1 hj).1
    exact (hF j hj).1 (hu.1 j hj)
  have hw0 : w = 0 := by
    split_ifs at hw with h
    · obtain ⟨F, hF, rfl⟩ := hw
      refine List.sum_eq_zero fun x hx => ?_
      obtain ⟨v, hv, rfl⟩ := List.mem_map.1 hx
      obtain ⟨h1, h2⟩ := hF v
      by_cases hpq : v.1 = v.2
      · exact congrArg Prod.fst (h1 hpq)
      · obtain ⟨c, hc, z, hz, -, h3, -⟩ := h2 hpq
        have : c = ((aiming s t i).position, (aiming s t i).radius) := by simpa [discs] using hc
        subst this
        exact congrArg Prod.fst (h3 (hu.2 v hv z hz))
    · exact hw
  rw [hp0, hw0, add_zero, add_zero]
  exact hf

/-- Nodes that do not steer keep the directions of walking. -/
lemma nodes_direction (env : SimEnv n) (nodes : List Node)
    (hn : ∀ x ∈ nodes, ¬ Steers x ∨ x = .orientation) :
    ∀ (s t : SimState n) (r : Except PyErr Unit), updateNodes env nodes s = (r, t) →
    ∀ k, (t.agents.rows k).targetDirection = (s.agents.rows k).targetDirection := by
  have step : ∀ (x : Node) (s t : SimState n) (r : Except PyErr Unit), ¬ Steers x ∨ x = .orientation →
      x.update env s = (r, t) →
      ∀ k, (t.agents.rows k).targetDirection = (s.agents.rows k).targetDirection := by
    intro x s t r hx h k
    by_cases hm : Moves x
    · cases x <;> first | exact absurd hm id | skip
      rename_i a b
      cases h
      obtain ⟨-, h2⟩ := verlet_frame s.agents a b
      obtain ⟨_, _, _, _, _, _, _, _, e⟩ := h2 k
      exact (congrArg Agent.targetDirection e).trans rfl
    · rcases hx with hx | rfl
      · exact (node_still env x s t r h hm k).2 hx
      · cases h
        obtain ⟨-, h2⟩ := orientation_frame s.agents
        obtain ⟨_, e⟩ := h2 k
        rw [e]
  induction nodes with
  | nil => intro s t r h k; cases h; rfl
  | cons x xs ih =>
    intro s t r h k
    obtain ⟨q, u, hq⟩ : ∃ q u, x.update env s = (q, u) := ⟨_, _, rfl⟩
    have hs := step x s u q (hn x List.mem_cons_self) hq k
    rw [updateNodes, hq] at h
    cases q with
    | error e => cases h; exact hs
    | ok v => exact (ih (fun y hy => hn y (List.mem_cons_of_mem _ hy)) u t r h k).trans hs

/-- In `Outdoor` nobody is steered. -/
lemma walk_direction (env : SimEnv n) (s t : SimState n) (h : walkLogic.update env s = (.ok (), t))
    (k : Fin n) : (t.agents.rows k).targetDirection = (s.agents.rows k).targetDirection := by
  obtain ⟨u, hu, ea⟩ := update_order order_walk env s t _ h
  rw [ea]
  exact nodes_direction env _ (by simp [Steers]) _ _ _ hu k

end CrowdDynamics
