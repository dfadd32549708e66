import Verif.Proofs.LongRun
import Verif.Props.BodyDynamics
import Verif.Props.Motion
import Verif.Props.BodyType
import Verif.Proofs.Turning
import Verif.Spec.Turning

/-!
# Long runs of three-circle agents: the recurrence of orientations
-/

namespace CrowdDynamics

open Spec

variable {n : ℕ}

/-! ## Shortest turns -/

theorem shortestTurn_exists (phi phi0 : ℝ) : ∃ d, ShortestTurn phi phi0 d ∧ |d| ≤ Real.pi := by
  obtain ⟨d, h1, h2, -⟩ := C32_torque_short_way 0 0 phi0 phi 0 0
  exact ⟨d, h1, h2⟩

theorem shortestTurn_abs {phi phi0 d d' : ℝ} (h : ShortestTurn phi phi0 d)
    (h' : ShortestTurn phi phi0 d') : |d| = |d'| :=
  le_antisymm (h.2 d' h'.1) (h'.2 d h.1)

theorem shortestTurn_le {phi phi0 d : ℝ} (h : ShortestTurn phi phi0 d) : |d| ≤ Real.pi := by
  obtain ⟨e, h1, h2⟩ := shortestTurn_exists phi phi0
  exact (shortestTurn_abs h h1).trans_le h2

theorem shortestTurn_shift {phi phi0 d : ℝ} (h : ShortestTurn phi phi0 d) (k : ℤ) :
    ShortestTurn (phi + k * (2 * Real.pi)) phi0 d := by
  obtain ⟨⟨m, hm⟩, h2⟩ := h
  refine ⟨⟨m + k, by push_cast; linarith⟩, fun e ⟨m', hm'⟩ => h2 e ⟨m' - k, by push_cast; linarith⟩⟩

/-! ## Bodies -/

/-- Bodies of the same size fit into the same disc. -/
theorem within_of_attached {a b : Agent} (ha : ShouldersAttached a) (hb : ShouldersAttached b)
    (h1 : a.rT = b.rT) (h2 : a.rS = b.rS) (h3 : a.rTs = b.rTs) {r : ℝ}
    (hw : BodyWithin .threeCircle a r) : BodyWithin .threeCircle b r := by
  have hd : ∀ c : Agent, ShouldersAttached c →
      Spec.dist c.position c.position = 0 ∧ Spec.dist c.position c.positionLs = |c.rTs| ∧
      Spec.dist c.position c.positionRs = |c.rTs| := by
    intro c ⟨hl, hr⟩
    have hsc := Real.sin_sq_add_cos_sq c.orientation
    refine ⟨by unfold Spec.dist Spec.len; simp, ?_, ?_⟩
    · rw [hl]
      unfold Spec.dist Spec.len
      simp only [Prod.fst_sub, Prod.snd_sub]
      rw [← Real.sqrt_sq_eq_abs]
      congr 1
      linear_combination c.rTs ^ 2 * hsc
    · rw [hr]
      unfold Spec.dist Spec.len
      simp only [Prod.fst_sub, Prod.snd_sub]
      rw [← Real.sqrt_sq_eq_abs]
      congr 1
      linear_combination c.rTs ^ 2 * hsc
  obtain ⟨a0, a1, a2⟩ := hd a ha
  obtain ⟨b0, b1, b2⟩ := hd b hb
  unfold BodyWithin discs at hw ⊢
  simp only [List.mem_cons, List.not_mem_nil, or_false, forall_eq_or_imp, forall_eq] at hw ⊢
  rw [a0, a1, a2, h1, h2, h3] at hw
  rw [b0, b1, b2]
  exact hw

/-! ## Runs -/

/-- The states of a run stay regular as long as the shoulders stay attached. -/
theorem body_regular {env : SimEnv n} {e : LogicExpr} {order : List Node} {s : SimState n} {N : ℕ}
    {S : ℕ → SimState n} (h : ShippedBodyRun env e order s N S) {j : ℕ} (hj : j < N)
    (ha : ∀ k, ShouldersAttached ((S j).agents.rows k)) :
    RegularBody env [.agentAgent (3.0 + 2 * 0.3)] (S j) := by
  obtain ⟨hd, hb⟩ := completed_body h.order h.completed j hj.le
  have hr := h.regular
  refine ⟨by rw [hd]; exact hr.kind, fun k p => ?_, ha,
    fun k => (hb k).mass ▸ hr.mass k, fun k => (hb k).inertiaRot ▸ hr.inertia k,
    fun k => (hb k).tauAdj ▸ hr.tau k, fun k => (hb k).tauRot ▸ hr.tauRot k,
    fun k => (hb k).stdRandForce ▸ hr.std k, fun k => (hb k).stdRandTorque ▸ hr.stdTorque k,
    hr.draws, hr.drawsTorque, hr.obstacles, fun c hcm => ?_⟩
  · have : (s.agents.rows k).radii = ((S j).agents.rows k).radii := by
      unfold Agent.radii
      rw [(hb k).rT, (hb k).rS]
    rw [← this]
    exact hr.radii k p
  · obtain ⟨c0, ⟨r, r1, r2⟩, -⟩ := hr.cells c hcm
    refine ⟨c0, ⟨r, fun k => within_of_attached (hr.attached k) (ha k) (hb k).rT (hb k).rS (hb k).rTs
      (r1 k), r2⟩, ?_⟩
    rw [List.mem_singleton] at hcm
    cases hcm
    exact h.cells j hj

/-- Every step of a run obeys Newton's law. -/
theorem body_newton {env : SimEnv n} {e : LogicExpr} {order : List Node} {s : SimState n} {N : ℕ}
    {S : ℕ → SimState n} (h : ShippedBodyRun env e order s N S) :
    ∀ j < N, TurnsByNewton CodeArm env order (S j) (S (j + 1)) := by
  obtain ⟨ratioObs, width, k, hw, hk, he⟩ := h.shipped
  have step : ∀ j < N, (∀ i, ((S j).agents.rows i).force = 0 ∧ ((S j).agents.rows i).torque = 0) →
      (∀ i, ShouldersAttached ((S j).agents.rows i)) →
      TurnsByNewton CodeArm env order (S j) (S (j + 1)) := by
    intro j hj h0 ha
    obtain ⟨o, ho, hm⟩ := C123_shipped_newton_partial env ratioObs width h.domain hw k e he hk (S j)
      (S (j + 1)) (body_regular h hj ha) h0 (h.completed.next j hj)
    rw [h.order] at ho
    cases ho
    exact hm
  have inv : ∀ j < N, (∀ i, ((S j).agents.rows i).force = 0 ∧ ((S j).agents.rows i).torque = 0) ∧
      ∀ i, ShouldersAttached ((S j).agents.rows i) := by
    intro j
    induction j with
    | zero =>
      intro _
      rw [h.completed.first]
      exact ⟨h.start, h.regular.attached⟩
    | succ j ih =>
      intro hj
      obtain ⟨i1, i2⟩ := ih (by omega)
      have := step j (by omega) i1 i2
      refine ⟨fun i => ⟨(this i).1, (this i).2.1⟩, fun i => ?_⟩
      obtain ⟨-, -, _, _, _, _, -, -, -, -, -, _, _, -, -, -, -, -, -, ha⟩ := this i
      exact ha
  exact fun j hj => step j hj (inv j hj).1 (inv j hj).2

/-- What the three-circle agent `i` is driven to in step `j`, and how it moves and turns. -/
theorem body_drive {env : SimEnv n} {e : LogicExpr} {order : List Node} {s : SimState n} {N : ℕ}
    {S : ℕ → SimState n} (h : ShippedBodyRun env e order s N S) (i : Fin n) {j : ℕ} (hj : j < N) :
    ∃ (f : Vec × ℝ) (d : ℝ), DisturbsBody env order (S j) (S (j + 1)) i f ∧
      ShortestTurn ((S j).agents.rows i).orientation ((S (j + 1)).agents.rows i).targetOrientation d ∧
      (s.agents.rows i).tauAdj • (1 / (s.agents.rows i).mass) • ((S (j + 1)).agents.rows i).forcePrev =
        (s.agents.rows i).targetVelocity • ((S (j + 1)).agents.rows i).targetDirection +
          ((s.agents.rows i).tauAdj / (s.agents.rows i).mass) • f.1 - ((S j).agents.rows i).velocity ∧
      ((S (j + 1)).agents.rows i).velocity = ((S j).agents.rows i).velocity + ((0.01 : ℝ) / 2) •
        ((1 / (s.agents.rows i).mass) • ((S j).agents.rows i).forcePrev +
          (1 / (s.agents.rows i).mass) • ((S (j + 1)).agents.rows i).forcePrev) ∧
      (s.agents.rows i).tauRot *
          (((S (j + 1)).agents.rows i).torquePrev / (s.agents.rows i).inertiaRot) =
        d / Real.pi * (s.agents.rows i).targetAngularVelocity +
          (s.agents.rows i).tauRot / (s.agents.rows i).inertiaRot * f.2 -
          ((S j).agents.rows i).angularVelocity ∧
      ((S (j + 1)).agents.rows i).angularVelocity = ((S j).agents.rows i).angularVelocity + 0.01 / 2 *
        (((S j).agents.rows i).torquePrev / (s.agents.rows i).inertiaRot +
          ((S (j + 1)).agents.rows i).torquePrev / (s.agents.rows i).inertiaRot) ∧
      ∃ k : ℤ, ((S (j + 1)).agents.rows i).orientation + k * (2 * Real.pi) =
        ((S j).agents.rows i).orientation + 0.01 * ((S (j + 1)).agents.rows i).angularVelocity +
          0.01 ^ 2 / 2 * (((S (j + 1)).agents.rows i).torquePrev / (s.agents.rows i).inertiaRot) := by
  have hi := h.regular.inertia i
  have ht := h.regular.tauRot i
  have hm := h.regular.mass i
  obtain ⟨-, hb⟩ := completed_body h.order h.completed j hj.le
  obtain ⟨-, -, f, a, p, w, hf, ha, hp, hw, ⟨x', y', hx', hy', hv', -, hf'⟩, x, y, hx, hy, hv, ho, -,
    hmm, -⟩ := body_newton h j hj i
  obtain ⟨ca, d, hd, ha⟩ := ha
  rw [← (hb i).inertiaRot] at hx hy
  rw [← (hb i).mass] at hx' hy'
  have ex : x = ((S j).agents.rows i).torquePrev / (s.agents.rows i).inertiaRot := by
    rw [← hx]; field_simp
  have ey : y = ((S (j + 1)).agents.rows i).torquePrev / (s.agents.rows i).inertiaRot := by
    rw [hmm, ← hy]; field_simp
  refine ⟨f + p + w, d, ⟨f, p, w, hf, hp, hw, rfl⟩, hd, ?_, ?_, ?_, by rw [hv, ex, ey],
    by rw [← ey]; exact ho⟩
  · have ca' : (s.agents.rows i).tauAdj • a.1 = (s.agents.rows i).mass •
        ((s.agents.rows i).targetVelocity • ((S (j + 1)).agents.rows i).targetDirection -
          ((S j).agents.rows i).velocity) := by
      rw [(hb i).tauAdj, (hb i).mass, (hb i).targetVelocity]
      exact ca
    rw [hf', show (f + a + p + w).1 = a.1 + (f + p + w).1 by simp only [Prod.fst_add]; abel, smul_add,
      smul_add, smul_comm (s.agents.rows i).tauAdj, ca', smul_smul, one_div, inv_mul_cancel₀ hm.ne',
      one_smul, smul_smul, div_eq_mul_inv]
    abel
  · rw [hv', accel_unique hm hx', accel_unique hm hy', hf']
  · have ha' : (s.agents.rows i).tauRot * a.2 =
        (s.agents.rows i).inertiaRot * (d / Real.pi * (s.agents.rows i).targetAngularVelocity -
          ((S j).agents.rows i).angularVelocity) := by
      rw [(hb i).tauRot, (hb i).inertiaRot, (hb i).targetAngularVelocity]
      exact ha
    rw [hmm, show (f + a + p + w).2 = a.2 + (f + p + w).2 by simp only [Prod.snd_add]; ring, add_div,
      mul_add, ← mul_div_assoc, ha', mul_div_cancel_left₀ _ hi.ne']
    ring

open Classical in
/-- An agent out of reach feels only the random force and torque. -/
theorem disturbs_body_alone {env : SimEnv n} {order : List Node} {s t : SimState n} {i : Fin n}
    {d : Vec × ℝ} (hu : BodyOutOfReach env s.agents.rows i) (hd : DisturbsBody env order s t i d) :
    len d.1 ≤ 3 * (s.agents.rows i).mass * (s.agents.rows i).stdRandForce ∧
      |d.2| ≤ 3 * (s.agents.rows i).inertiaRot * (s.agents.rows i).stdRandTorque := by
  obtain ⟨f, p, w, hf, hp, hw, rfl⟩ := hd
  obtain ⟨r1, r2⟩ := hu
  have hp0 : p = 0 := by
    obtain ⟨F, hF, rfl⟩ := hp
    refine Finset.sum_eq_zero fun k hk => ?_
    have hk := (Finset.mem_erase.1 hk).1
    obtain ⟨p, q, m, gap, -, -, hg, h3, -⟩ := hF k hk
    refine h3 ?_
    have := r1 k hk p q
    have hg' : gap = Spec.dist ((s.agents.rows i).circles p) ((s.agents.rows k).circles q) -
      ((s.agents.rows i).radii p + (s.agents.rows k).radii q) := hg
    linarith
  have hw0 : w = 0 := by
    split_ifs at hw with h
    · obtain ⟨F, hF, rfl⟩ := hw
      refine List.sum_eq_zero fun x hx => ?_
      obtain ⟨v, hv, rfl⟩ := List.mem_map.1 hx
      obtain ⟨h1, h2⟩ := hF v
      by_cases hpq : v.1 = v.2
      · exact h1 hpq
      · obtain ⟨c, hc, z, hz, -, h3, -⟩ := h2 hpq
        exact h3 (r2 v hv c hc z hz)
    · exact hw
  rw [hp0, hw0, add_zero, add_zero]
  exact hf

/-- How an agent that is left alone turns in one step. -/
theorem alone_step {env : SimEnv n} {e : LogicExpr} {order : List Node} {s : SimState n} {N : ℕ}
    {S : ℕ → SimState n} (h : ShippedBodyRun env e order s N S) {i : Fin n}
    (hl : LeftAlone env s N S i) {j : ℕ} (hj : j < N) :
    ∃ d : ℝ, ShortestTurn ((S j).agents.rows i).orientation
        ((S (j + 1)).agents.rows i).targetOrientation d ∧
      ((S (j + 1)).agents.rows i).torquePrev / (s.agents.rows i).inertiaRot =
        (d / Real.pi * (s.agents.rows i).targetAngularVelocity -
          ((S j).agents.rows i).angularVelocity) / (s.agents.rows i).tauRot ∧
      ((S (j + 1)).agents.rows i).angularVelocity = ((S j).agents.rows i).angularVelocity + 0.01 / 2 *
        (((S j).agents.rows i).torquePrev / (s.agents.rows i).inertiaRot +
          ((S (j + 1)).agents.rows i).torquePrev / (s.agents.rows i).inertiaRot) ∧
      ∃ k : ℤ, ((S (j + 1)).agents.rows i).orientation + k * (2 * Real.pi) =
        ((S j).agents.rows i).orientation + 0.01 * ((S (j + 1)).agents.rows i).angularVelocity +
          0.01 ^ 2 / 2 * (((S (j + 1)).agents.rows i).torquePrev / (s.agents.rows i).inertiaRot) := by
  have ht := h.regular.tauRot i
  obtain ⟨-, hb⟩ := completed_body h.order h.completed j hj.le
  obtain ⟨f, d, hf, hd, -, -, h1, h2, h3⟩ := body_drive h i hj
  have h0 := (disturbs_body_alone (hl.apart j hj) hf).2
  rw [← (hb i).stdRandTorque, hl.calm, mul_zero] at h0
  rw [abs_nonpos_iff.1 h0, mul_zero, add_zero] at h1
  refine ⟨d, hd, ?_, h2, h3⟩
  rw [eq_div_iff ht.ne', mul_comm]
  exact h1

lemma len_eq_zero' {d : Vec} (h : len d = 0) : d = 0 := by
  unfold len at h
  rw [Real.sqrt_eq_zero (by positivity)] at h
  ext
  · simp; nlinarith [sq_nonneg d.1, sq_nonneg d.2]
  · simp; nlinarith [sq_nonneg d.1, sq_nonneg d.2]

/-- The velocities of a run, as in `Drive`. -/
theorem body_moves {env : SimEnv n} {e : LogicExpr} {order : List Node} {s : SimState n} {N : ℕ}
    {S : ℕ → SimState n} (h : ShippedBodyRun env e order s N S) (i : Fin n)
    (h0 : (s.agents.rows i).forcePrev = 0) :
    ∃ A U : ℕ → Vec,
      Drive 0.01 (s.agents.rows i).tauAdj N (fun j => ((S j).agents.rows i).velocity) A U ∧
      ∀ j < N, ∃ f, DisturbsBody env order (S j) (S (j + 1)) i f ∧
        U j = (s.agents.rows i).targetVelocity • ((S (j + 1)).agents.rows i).targetDirection +
          ((s.agents.rows i).tauAdj / (s.agents.rows i).mass) • f.1 := by
  refine ⟨fun j => (1 / (s.agents.rows i).mass) • ((S (j + 1)).agents.rows i).forcePrev,
    fun j => ((S j).agents.rows i).velocity + (s.agents.rows i).tauAdj •
      (1 / (s.agents.rows i).mass) • ((S (j + 1)).agents.rows i).forcePrev, ⟨?_, ?_, ?_⟩, ?_⟩
  · intro hN
    obtain ⟨f, d, -, -, -, h2, -⟩ := body_drive h i hN
    have : ((S 0).agents.rows i).forcePrev = 0 := by rw [h.completed.first]; exact h0
    simp only [this, smul_zero, zero_add] at h2
    exact h2
  · intro j hj
    obtain ⟨f, d, -, -, -, h2, -⟩ := body_drive h i hj
    exact h2
  · intro j hj
    simp
  · intro j hj
    obtain ⟨f, d, hf, -, h1, -⟩ := body_drive h i hj
    refine ⟨f, hf, ?_⟩
    simp only
    rw [h1]
    abel

/-- The angular velocities of a run, as in `Drive`. -/
theorem body_spins {env : SimEnv n} {e : LogicExpr} {order : List Node} {s : SimState n} {N : ℕ}
    {S : ℕ → SimState n} (h : ShippedBodyRun env e order s N S) (i : Fin n)
    (h0 : (s.agents.rows i).torquePrev = 0) :
    ∃ A U : ℕ → Vec,
      Drive 0.01 (s.agents.rows i).tauRot N (fun j => (((S j).agents.rows i).angularVelocity, (0 : ℝ)))
        A U ∧
      ∀ j < N, ∃ f d, DisturbsBody env order (S j) (S (j + 1)) i f ∧ |d| ≤ Real.pi ∧
        U j = (d / Real.pi * (s.agents.rows i).targetAngularVelocity +
          (s.agents.rows i).tauRot / (s.agents.rows i).inertiaRot * f.2, 0) := by
  refine ⟨fun j => (((S (j + 1)).agents.rows i).torquePrev / (s.agents.rows i).inertiaRot, 0),
    fun j => (((S j).agents.rows i).angularVelocity + (s.agents.rows i).tauRot *
      (((S (j + 1)).agents.rows i).torquePrev / (s.agents.rows i).inertiaRot), 0), ⟨?_, ?_, ?_⟩, ?_⟩
  · intro hN
    obtain ⟨f, d, -, -, -, -, -, h2, -⟩ := body_drive h i hN
    have : ((S 0).agents.rows i).torquePrev = 0 := by rw [h.completed.first]; exact h0
    simp only [this, zero_div, zero_add] at h2
    ext
    · exact h2
    · simp
  · intro j hj
    obtain ⟨f, d, -, -, -, -, -, h2, -⟩ := body_drive h i hj
    ext
    · exact h2
    · simp
  · intro j hj
    ext <;> simp
  · intro j hj
    obtain ⟨f, d, hf, hd, -, -, h1, -⟩ := body_drive h i hj
    refine ⟨f, d, hf, shortestTurn_le hd, ?_⟩
    simp only
    rw [h1]
    ext
    · simp only
      ring
    · rfl

/-- An agent that is left alone and wants to keep an orientation makes a turn as in `TurnSeq`. -/
theorem alone_seq {env : SimEnv n} {e : LogicExpr} {order : List Node} {s : SimState n} {N : ℕ}
    {S : ℕ → SimState n} (h : ShippedBodyRun env e order s N S) {i : Fin n}
    (hl : LeftAlone env s N S i) {phi0 : ℝ}
    (hphi : ∀ j < N, ((S (j + 1)).agents.rows i).targetOrientation = phi0) :
    ∃ d u r : ℕ → ℝ, (∀ j ≤ N, ShortestTurn ((S j).agents.rows i).orientation phi0 (d j)) ∧
      TurnSeq (0.01 / (s.agents.rows i).tauRot)
        (0.01 * (s.agents.rows i).targetAngularVelocity / Real.pi) N d u r := by
  have hpi := Real.pi_pos
  have ht := h.regular.tauRot i
  have hch : ∀ j, ∃ d, ShortestTurn ((S j).agents.rows i).orientation phi0 d ∧
      (j < N → ((S (j + 1)).agents.rows i).torquePrev / (s.agents.rows i).inertiaRot =
        (d / Real.pi * (s.agents.rows i).targetAngularVelocity -
          ((S j).agents.rows i).angularVelocity) / (s.agents.rows i).tauRot) := by
    intro j
    by_cases hj : j < N
    · obtain ⟨d, h1, h2, -⟩ := alone_step h hl hj
      rw [hphi j hj] at h1
      exact ⟨d, h1, fun _ => h2⟩
    · obtain ⟨d, h1, -⟩ := shortestTurn_exists ((S j).agents.rows i).orientation phi0
      exact ⟨d, h1, fun h => absurd h hj⟩
  choose d hd hforce using hch
  obtain ⟨I, hI⟩ : ∃ I, (s.agents.rows i).inertiaRot = I := ⟨_, rfl⟩
  obtain ⟨T, hT⟩ : ∃ T, (s.agents.rows i).tauRot = T := ⟨_, rfl⟩
  obtain ⟨O, hO⟩ : ∃ O, (s.agents.rows i).targetAngularVelocity = O := ⟨_, rfl⟩
  rw [hT] at ht
  refine ⟨d, fun j => 0.01 * ((S j).agents.rows i).angularVelocity +
      0.01 ^ 2 * (((S j).agents.rows i).torquePrev / I) / 2,
    fun j => 0.01 ^ 2 * (((S j).agents.rows i).torquePrev / I), fun j _ => hd j,
    fun j _ => shortestTurn_le (hd j), ?_, ?_, fun j hj => ?_, fun j hj => ?_, fun j hj => ?_⟩
  · simp only [h.completed.first, hl.still.1, hl.still.2]
    simp
  · simp only [h.completed.first, hl.still.2]
    simp
  · have := hforce j hj
    rw [hI, hT, hO] at this
    rw [hT, hO, this]
    field_simp
    ring
  · obtain ⟨_, -, -, h3, -⟩ := alone_step h hl hj
    rw [hI] at h3
    rw [h3]
    ring
  · obtain ⟨_, -, -, -, k, hk⟩ := alone_step h hl hj
    obtain ⟨⟨m, hm⟩, -⟩ := hd j
    obtain ⟨⟨m', hm'⟩, -⟩ := hd (j + 1)
    rw [hI] at hk
    refine ⟨m' - m + k, ?_⟩
    push_cast
    linarith

/-- Without a desired angular velocity the agent keeps its orientation. -/
theorem alone_still {env : SimEnv n} {e : LogicExpr} {order : List Node} {s : SimState n} {N : ℕ}
    {S : ℕ → SimState n} (h : ShippedBodyRun env e order s N S) {i : Fin n}
    (hl : LeftAlone env s N S i) (h0 : (s.agents.rows i).targetAngularVelocity = 0) :
    ∀ j ≤ N, ((S j).agents.rows i).angularVelocity = 0 ∧ ((S j).agents.rows i).torquePrev = 0 ∧
      ∃ k : ℤ, ((S j).agents.rows i).orientation =
        (s.agents.rows i).orientation + k * (2 * Real.pi) := by
  intro j
  induction j with
  | zero =>
    intro _
    rw [h.completed.first]
    exact ⟨hl.still.1, hl.still.2, 0, by simp⟩
  | succ j ih =>
    intro hj
    obtain ⟨h1, h2, k, hk⟩ := ih (by omega)
    obtain ⟨d, -, e1, e2, m, e3⟩ := alone_step h hl (show j < N by omega)
    have hi := (h.regular.inertia i).ne'
    rw [h0, h1, mul_zero, sub_zero, zero_div, div_eq_zero_iff, or_iff_left hi] at e1
    rw [h1, h2, e1] at e2
    rw [e1, hk] at e3
    have e2' : ((S (j + 1)).agents.rows i).angularVelocity = 0 := by rw [e2]; simp
    rw [e2'] at e3
    refine ⟨e2', e1, k - m, ?_⟩
    push_cast
    simp only [zero_div, mul_zero, add_zero] at e3
    linarith

/-! ## Body types -/

/-- The observers of the dimensions do not set the desired angular velocity. -/
theorem spin_assign {a : BodyAttr} (ha : a ≠ .targetAngularVelocity)
    (notify : BodyAttr → BodyObj → BodyOutcome)
    (hn : ∀ b, (notify a b).obj.val .targetAngularVelocity = b.val .targetAngularVelocity)
    (b : BodyObj) (v : ℝ) :
    (assign notify b a v).obj.val .targetAngularVelocity = b.val .targetAngularVelocity := by
  unfold assign
  split_ifs
  · rfl
  · rw [hn, store_val, if_neg ha.symm]
  · rfl

theorem spin_andThen {o : BodyOutcome} {f : BodyObj → BodyOutcome}
    (hf : ∀ b, (f b).obj.val .targetAngularVelocity = b.val .targetAngularVelocity) :
    (o.andThen f).obj.val .targetAngularVelocity = o.obj.val .targetAngularVelocity := by
  unfold BodyOutcome.andThen
  split_ifs
  · rfl
  · exact hf _

theorem spin_noObserver {a : BodyAttr} (ha : a ≠ .targetAngularVelocity) (b : BodyObj) (v : ℝ) :
    (assign noObserver b a v).obj.val .targetAngularVelocity = b.val .targetAngularVelocity :=
  spin_assign ha noObserver (fun _ => rfl) b v

theorem spin_inertia (b : BodyObj) :
    (observeInertiaRot b).obj.val .targetAngularVelocity = b.val .targetAngularVelocity := by
  unfold observeInertiaRot
  simp only
  split_ifs
  · exact spin_noObserver (by decide) b _
  · rfl

theorem spin_scale {q p : BodyAttr} (hp : p ≠ .targetAngularVelocity) (b : BodyObj) :
    (scaleIfRatio q p b).obj.val .targetAngularVelocity = b.val .targetAngularVelocity := by
  unfold scaleIfRatio
  split_ifs
  · exact spin_noObserver hp b _
  · rfl

theorem spin_radius (a : BodyAttr) (b : BodyObj) :
    (observeRadius a b).obj.val .targetAngularVelocity = b.val .targetAngularVelocity := by
  unfold observeRadius
  split_ifs
  · rw [spin_andThen (spin_scale (by decide)), spin_andThen (spin_scale (by decide)),
      spin_scale (by decide)]
  · exact spin_noObserver (by decide) b _
  · exact spin_noObserver (by decide) b _
  · exact spin_noObserver (by decide) b _
  · rfl
  · rfl

theorem spin_dims (a : BodyAttr) (b : BodyObj) :
    (notifyDims a b).obj.val .targetAngularVelocity = b.val .targetAngularVelocity := by
  cases a <;> unfold notifyDims <;> simp only
  case radius => rw [spin_andThen (spin_radius _), spin_inertia]
  case mass => exact spin_inertia b
  case ratioRt | ratioRs | ratioTs => exact spin_radius _ b

theorem spin_truncnorm (z : ℕ → ℝ → ℝ → ℝ) {t m c : BodyAttr} (ht : t ≠ .targetAngularVelocity)
    (b : BodyObj) :
    (observeTruncnorm z t m c b).obj.val .targetAngularVelocity = b.val .targetAngularVelocity := by
  unfold observeTruncnorm
  split_ifs
  · exact spin_assign ht notifyDims (spin_dims t) _ _
  · rfl

theorem spin_attr (z : ℕ → ℝ → ℝ → ℝ) (a : BodyAttr) (b : BodyObj) :
    (notifyAttr z a b).obj.val .targetAngularVelocity = b.val .targetAngularVelocity := by
  cases a <;> unfold notifyAttr <;> simp only
  all_goals first
    | exact spin_truncnorm z (by decide) b
    | exact spin_dims _ b

theorem spin_setAll (z : ℕ → ℝ → ℝ → ℝ) (items : List (BodyAttr × ℝ))
    (hi : ∀ kv ∈ items, kv.1 ≠ .targetAngularVelocity) (b : BodyObj) :
    (setAll z b items).obj.val .targetAngularVelocity = b.val .targetAngularVelocity := by
  unfold setAll
  have key : ∀ (items : List (BodyAttr × ℝ)) (o : BodyOutcome),
      (∀ kv ∈ items, kv.1 ≠ .targetAngularVelocity) →
      (items.foldl (fun o kv => o.andThen fun b => setAttr z b kv.1 kv.2) o).obj.val
        .targetAngularVelocity = o.obj.val .targetAngularVelocity := by
    intro items
    induction items with
    | nil => intro o _; rfl
    | cons kv items ih =>
      intro o h
      rw [List.foldl_cons, ih _ fun x hx => h x (by simp [hx])]
      exact spin_andThen fun b => spin_assign (h kv (by simp)) _ (spin_attr z _) b _
  exact key items ⟨b, false⟩ hi

end CrowdDynamics
