import Verif.Proofs.WallWalk
import Mathlib.Topology.Order.IntermediateValue
import Mathlib.Analysis.SpecificLimits.Basic

/-!
# Helper lemmas for pressing against a wall
-/

namespace CrowdDynamics

open Spec

/-! ## The distance from the wall as a sequence of numbers -/

/-- An agent who is driven straight against a wall: distance `y` from the wall, velocity `v` and step `w`
away from it. -/
structure Rattle (r K c V : ℝ) (y v w : ℕ → ℝ) : Prop where
  K_low : 1300 ≤ K
  K_high : K ≤ 2400
  c_low : 5.5 ≤ c
  c_high : c ≤ 10
  V_low : 0.4 ≤ V
  V_high : V ≤ 1.75
  start : v 0 = w 0
  off : r ≤ y 0
  speed : ∀ j, v (j + 1) = (w j + w (j + 1)) / 2
  move : ∀ j, y (j + 1) = y j + 0.01 * w (j + 1)
  free : ∀ j, r ≤ y j → w (j + 1) = w j - 0.02 * (V + v j)
  touch : ∀ j, y j < r → w (j + 1) = w j + 0.01 * (K * (r - y j) + (c - 2) * v j - 2 * V)
  low : ∀ j, -2.7 ≤ v j
  deep : ∀ j, r - 0.15 ≤ y j

variable {r K c V : ℝ} {y v w : ℕ → ℝ}

/-- The agent never slows down abruptly. -/
lemma Rattle.smooth (h : Rattle r K c V y v w) (j : ℕ) : -2.9 ≤ w j ∧ v j ≤ 1.06 * w j + 0.34 := by
  have V1 := h.V_low
  have V2 := h.V_high
  induction j with
  | zero =>
    have h1 := h.start
    have h2 := h.low 0
    constructor <;> linarith
  | succ j ih =>
    obtain ⟨i1, i2⟩ := ih
    have h1 := h.speed j
    have h2 := h.low j
    have h3 := h.low (j + 1)
    have key : w j - 0.02 * V - 0.02 * v j ≤ w (j + 1) ∨ w j - 0.02 * V - 0.216 ≤ w (j + 1) := by
      rcases le_or_gt r (y j) with hr | hr
      · left
        rw [h.free j hr]
        linarith
      · right
        rw [h.touch j hr]
        have k1 : 0 ≤ K * (r - y j) := mul_nonneg (by linarith [h.K_low]) (by linarith)
        have k2 : -21.6 ≤ (c - 2) * v j := by
          have := h.c_low
          have := h.c_high
          nlinarith
        linarith
    rcases key with key | key <;> constructor <;> linarith

/-- A solution of a recurrence whose characteristic roots are complex and outside of the unit circle is
unbounded or zero. -/
lemma growing_zero {z : ℕ → ℝ} {s q : ℝ} (s1 : 0 ≤ s) (s2 : s ≤ 1.95) (q1 : 1 < q) (q2 : q ≤ 1.1)
    (hzrec : ∀ k, z (k + 2) = s * z (k + 1) - q * z k) (hzb : ∀ k, |z (k + 2)| ≤ 16) :
    z 0 = 0 ∧ z 1 = 0 := by
  obtain ⟨Q, hQ⟩ : ∃ Q : ℕ → ℝ, ∀ k, Q k = z (k + 1) ^ 2 - s * z (k + 1) * z k + q * z k ^ 2 :=
    ⟨_, fun _ => rfl⟩
  have hQrec : ∀ k, Q k = q ^ k * Q 0 := by
    intro k
    induction k with
    | zero => simp
    | succ k ih =>
      have : Q (k + 1) = q * Q k := by
        rw [hQ, hQ, hzrec]
        ring
      rw [this, ih]
      ring
  have hQb : ∀ k, Q (k + 2) ≤ 1200 := by
    intro k
    rw [hQ]
    obtain ⟨x1, x2⟩ := abs_le.1 (hzb (k + 1))
    obtain ⟨x3, x4⟩ := abs_le.1 (hzb k)
    rw [show k + 1 + 2 = k + 2 + 1 by ring] at x1 x2
    obtain ⟨X, hX⟩ : ∃ X, z (k + 2 + 1) = X := ⟨_, rfl⟩
    obtain ⟨Y, hY⟩ : ∃ Y, z (k + 2) = Y := ⟨_, rfl⟩
    rw [hX] at x1 x2 ⊢
    rw [hY] at x3 x4 ⊢
    have f1 : X ^ 2 ≤ 256 := by nlinarith only [x1, x2]
    have f2 : Y ^ 2 ≤ 256 := by nlinarith only [x3, x4]
    have f3 : q * Y ^ 2 ≤ 1.1 * 256 := mul_le_mul q2 f2 (sq_nonneg Y) (by norm_num)
    have f4 : -(X * Y) ≤ 256 := by nlinarith only [sq_nonneg (X + Y), f1, f2]
    have f5 : s * -(X * Y) ≤ 1.95 * 256 := by
      rcases le_total 0 (-(X * Y)) with g | g
      · exact mul_le_mul s2 f4 g (by norm_num)
      · have := mul_nonpos_of_nonneg_of_nonpos s1 g
        linarith
    linarith
  -- so the growing part is zero
  have hform : ∀ X Y : ℝ, 0.02 * (X ^ 2 + Y ^ 2) ≤ X ^ 2 - s * X * Y + q * Y ^ 2 := by
    intro X Y
    have g : s * (X * Y) ≤ 1.95 * |X * Y| := by
      have g1 := mul_le_mul_of_nonneg_left (le_abs_self (X * Y)) s1
      have g2 := mul_le_mul_of_nonneg_right s2 (abs_nonneg (X * Y))
      linarith
    have g3 : 2 * |X * Y| ≤ X ^ 2 + Y ^ 2 := by
      rw [abs_mul]
      nlinarith [sq_nonneg (|X| - |Y|), sq_abs X, sq_abs Y]
    nlinarith only [sq_nonneg Y, sq_nonneg X, g, g3, q1]
  have hQ0 : Q 0 ≤ 0 := by
    by_contra hpos
    push Not at hpos
    obtain ⟨k, hk⟩ := pow_unbounded_of_one_lt (1200 / Q 0) q1
    rw [div_lt_iff₀ hpos] at hk
    have h2 := hQb k
    rw [hQrec (k + 2)] at h2
    have h3 : q ^ k ≤ q ^ (k + 2) := pow_le_pow_right₀ q1.le (by omega)
    have := mul_le_mul_of_nonneg_right h3 hpos.le
    linarith
  have hlast : z 0 = 0 ∧ z 1 = 0 := by
    have h1 := hform (z 1) (z 0)
    have h2 := hQ 0
    rw [zero_add] at h2
    have p1 := sq_nonneg (z 0)
    have p2 := sq_nonneg (z 1)
    exact ⟨pow_eq_zero_iff (two_ne_zero) |>.1 (by linarith), pow_eq_zero_iff (two_ne_zero) |>.1 (by linarith)⟩
  exact hlast

/-- The agent cannot stay in contact from some update on. -/
lemma Rattle.lets_go (h : Rattle r K c V y v w) (J : ℕ) : ∃ j ≥ J, r ≤ y j := by
  classical
  by_contra hc
  push Not at hc
  have hex : ∃ J, ∀ j ≥ J, y j < r := ⟨J, hc⟩
  obtain ⟨m, hm, hmin⟩ : ∃ m, (∀ j ≥ m, y j < r) ∧ ∀ k < m, ¬ ∀ j ≥ k, y j < r :=
    ⟨Nat.find hex, Nat.find_spec hex, fun k hk => Nat.find_min hex hk⟩
  clear hex hc
  have V1 := h.V_low
  have V2 := h.V_high
  have K1 := h.K_low
  have K2 := h.K_high
  have c1 := h.c_low
  have c2 := h.c_high
  rcases m with - | m
  · exact absurd h.off (not_le.2 (hm 0 le_rfl))
  have hfree : r ≤ y m := by
    by_contra hlt
    push Not at hlt
    refine hmin m (by omega) fun j hj => ?_
    rcases Nat.lt_or_ge m j with hj' | hj'
    · exact hm j hj'
    · obtain rfl : j = m := by omega
      exact hlt
  -- the constants of the recurrence
  obtain ⟨β, hβ⟩ : ∃ β, β = 0.005 * (c - 2) := ⟨_, rfl⟩
  obtain ⟨a, ha⟩ : ∃ a, a = 2 - 0.0001 * K + β := ⟨_, rfl⟩
  have β1 : 0 < β := by rw [hβ]; linarith
  have β2 : β ≤ 0.04 := by rw [hβ]; linarith
  have a1 : 1.7 ≤ a := by rw [ha]; linarith
  have a2 : a ≤ 1.91 := by rw [ha]; linarith
  obtain ⟨ρ, ⟨ρ1, ρ2⟩, hρ⟩ : ∃ ρ ∈ Set.Icc 0 β, ρ ^ 3 + a * ρ ^ 2 + ρ = β := by
    have hcont : ContinuousOn (fun x : ℝ => x ^ 3 + a * x ^ 2 + x) (Set.Icc 0 β) := by fun_prop
    refine intermediate_value_Icc β1.le hcont ⟨by norm_num; exact β1.le, ?_⟩
    have : 0 ≤ β ^ 3 + a * β ^ 2 := by positivity
    linarith
  have ρ3 : 0 < ρ := by
    rcases ρ1.lt_or_eq with h1 | h1
    · exact h1
    · rw [← h1] at hρ
      norm_num at hρ
      linarith
  obtain ⟨q, hq⟩ : ∃ q, q = ρ ^ 2 + a * ρ + 1 := ⟨_, rfl⟩
  obtain ⟨s, hs⟩ : ∃ s, s = a + ρ := ⟨_, rfl⟩
  have hρq : ρ * q = β := by rw [hq, ← hρ]; ring
  have q1 : 1 < q := by rw [hq]; nlinarith only [ρ3, a1]
  have s1 : 0 ≤ s := by rw [hs]; linarith
  have s2 : s ≤ 1.95 := by rw [hs]; linarith
  -- the recurrence
  have hrec : ∀ k, w (m + k + 3) = a * w (m + k + 2) - w (m + k + 1) - β * w (m + k) := by
    intro k
    have t1 := h.touch (m + k + 2) (hm _ (by omega))
    have t2 := h.touch (m + k + 1) (hm _ (by omega))
    have t3 := h.move (m + k + 1)
    have t4 := h.speed (m + k + 1)
    have t5 := h.speed (m + k)
    rw [show m + k + 2 + 1 = m + k + 3 by ring] at t1
    rw [show m + k + 1 + 1 = m + k + 2 by ring] at t2 t3 t4
    rw [t4, t3] at t1
    rw [t5] at t2
    rw [ha, hβ]
    linear_combination t1 - t2
  obtain ⟨z, hz⟩ : ∃ z : ℕ → ℝ, ∀ k, z k = w (m + k + 1) + ρ * w (m + k) := ⟨_, fun _ => rfl⟩
  have hzrec : ∀ k, z (k + 2) = s * z (k + 1) - q * z k := by
    intro k
    rw [hz, hz, hz, hs, show m + (k + 2) + 1 = m + k + 3 by ring, show m + (k + 2) = m + k + 2 by ring,
      show m + (k + 1) + 1 = m + k + 2 by ring, show m + (k + 1) = m + k + 1 by ring, hrec k]
    linear_combination w (m + k + 1) * hq + w (m + k) * hρq
  -- everything is bounded
  have hw : ∀ k, |w (m + k + 2)| ≤ 15 := by
    intro k
    have t := h.move (m + k + 1)
    have d1 := h.deep (m + k + 1)
    have d2 := h.deep (m + k + 1 + 1)
    have e1 := hm (m + k + 1) (by omega)
    have e2 := hm (m + k + 1 + 1) (by omega)
    rw [show m + k + 1 + 1 = m + k + 2 by ring] at t d2 e2
    rw [abs_le]
    constructor <;> linarith
  have hzb : ∀ k, |z (k + 2)| ≤ 16 := by
    intro k
    rw [hz]
    have b1 := abs_le.1 (hw (k + 1))
    have b2 := abs_le.1 (hw k)
    rw [show m + (k + 1) + 2 = m + (k + 2) + 1 by ring] at b1
    rw [show m + k + 2 = m + (k + 2) by ring] at b2
    rw [abs_le]
    have p1 := mul_le_mul_of_nonneg_left b2.1 ρ1
    have p2 := mul_le_mul_of_nonneg_left b2.2 ρ1
    constructor <;> linarith
  have q2 : q ≤ 1.1 := by
    rw [hq]
    have := mul_le_mul a2 (ρ2.trans β2) ρ1 (by norm_num)
    have : ρ ^ 2 ≤ 0.0016 := by nlinarith only [ρ1, ρ2.trans β2]
    linarith
  have hzero := growing_zero s1 s2 q1 q2 hzrec hzb
  -- which is impossible at the first contact
  obtain ⟨z0, z1⟩ := hzero
  rw [hz] at z0 z1
  simp only [add_zero] at z0 z1
  have f1 := h.free m hfree
  have f2 := h.touch (m + 1) (hm _ le_rfl)
  have f3 := h.speed m
  have f4 := h.move m
  have f5 := (h.smooth m).2
  have f6 := hm (m + 1) le_rfl
  have f7 := h.low m
  obtain ⟨x, hx⟩ : ∃ x, w m = x := ⟨_, rfl⟩
  rw [hx] at z0 f1 f3 f5
  have e1 : w (m + 1) = -(ρ * x) := by linarith
  have e2 : w (m + 1 + 1) = ρ ^ 2 * x := by rw [e1] at z1; linarith
  have x1 : 0 < x := by
    by_contra hx0
    push Not at hx0
    have := mul_nonneg ρ1 (neg_nonneg.2 hx0)
    rw [e1] at f4
    linarith
  have x2 : x ≤ 0.0205 * V + 0.008 := by
    have := mul_pos ρ3 x1
    rw [e1] at f1
    linarith
  rw [e2, f3, e1] at f2
  have g1 : K * (r - y (m + 1)) ≤ 2400 * (0.01 * (ρ * x)) := by
    have d1 : r - y (m + 1) ≤ 0.01 * (ρ * x) := by rw [e1] at f4; linarith
    exact mul_le_mul K2 d1 (by linarith) (by norm_num)
  have g2 : ρ * x ≤ 0.04 * x := mul_le_mul_of_nonneg_right (by linarith) x1.le
  have g3 : (c - 2) * ((x + -(ρ * x)) / 2) ≤ 8 * (x / 2) := by
    have := mul_pos ρ3 x1
    exact mul_le_mul (by linarith) (by linarith) (by linarith) (by norm_num)
  have g4 : 0 ≤ ρ ^ 2 * x := by positivity
  have g5 := mul_pos ρ3 x1
  linarith

/-- The speed does not stay small. -/
lemma Rattle.restless (h : Rattle r K c V y v w) (J : ℕ) : ∃ j ≥ J, V / 1000 < |v j| := by
  by_contra hc
  push Not at hc
  have V1 := h.V_low
  have K1 := h.K_low
  have K2 := h.K_high
  have c1 := h.c_low
  have c2 := h.c_high
  obtain ⟨ε, hε⟩ : ∃ ε, ε = V / 1000 := ⟨_, rfl⟩
  rw [← hε] at hc
  obtain ⟨j, hj, hr⟩ := h.lets_go J
  -- the update after the one in which the wall is not touched
  have a1 := h.free j hr
  have a2 := abs_le.1 (hc j hj)
  have a3 := abs_le.1 (hc (j + 1) (by omega))
  have a4 := abs_le.1 (hc (j + 2) (by omega))
  have s1 := h.speed j
  have s2 := h.speed (j + 1)
  have m1 := h.move j
  rw [show j + 1 + 1 = j + 2 by ring] at s2
  rcases le_or_gt r (y (j + 1)) with hr' | hr'
  · have a5 := h.free (j + 1) hr'
    rw [show j + 1 + 1 = j + 2 by ring] at a5
    linarith
  · have a5 := h.touch (j + 1) hr'
    rw [show j + 1 + 1 = j + 2 by ring] at a5
    have g1 : K * (r - y (j + 1)) ≤ 2400 * (0.01 * (0.011 * (V + ε) + ε)) := by
      refine mul_le_mul K2 ?_ (by linarith) (by norm_num)
      linarith
    have g2 : (c - 2) * v (j + 1) ≤ 8 * ε :=
      (mul_le_mul_of_nonneg_left a3.2 (by linarith)).trans
        (mul_le_mul_of_nonneg_right (by linarith) (by linarith))
    linarith

/-- The agent does not stay away from the wall. -/
lemma Rattle.comes_back (h : Rattle r K c V y v w) (J : ℕ) : ∃ j ≥ J, y j < r := by
  by_contra hc
  push Not at hc
  have V1 := h.V_low
  have key : ∀ k, w (J + k + 2) + y (J + k + 1) + y (J + k) + 0.02 * V * k =
      w (J + 2) + y (J + 1) + y J := by
    intro k
    induction k with
    | zero => simp
    | succ k ih =>
      have a1 := h.free (J + k + 2) (hc _ (by omega))
      have a2 := h.speed (J + k + 1)
      have a3 := h.move (J + k + 1)
      have a4 := h.move (J + k)
      rw [show J + (k + 1) + 2 = J + k + 2 + 1 by ring, show J + (k + 1) + 1 = J + k + 1 + 1 by ring,
        show J + (k + 1) = J + k + 1 by ring, ← ih]
      push_cast
      rw [show J + k + 1 + 1 = J + k + 2 by ring] at a2 a3 ⊢
      linarith
  obtain ⟨k, hk⟩ := exists_nat_gt (1000 * (w (J + 2) + y (J + 1) + y J + 3 - 2 * r))
  have h1 := key k
  have h2 := (h.smooth (J + k + 2)).1
  have h3 := hc (J + k + 1) (by omega)
  have h4 := hc (J + k) (by omega)
  have h5 : 0.008 * (k : ℝ) ≤ 0.02 * V * k := mul_le_mul_of_nonneg_right (by linarith) (Nat.cast_nonneg k)
  have h6 : (0 : ℝ) ≤ k := Nat.cast_nonneg k
  linarith

/-! ## The run -/

variable {n : ℕ}

/-- Distance, velocity and steps of an agent who is driven straight against a wall. -/
lemma wall_press {env : SimEnv n} {e : LogicExpr} {order : List Node} {s : SimState n} {N : ℕ}
    {S : ℕ → SimState n} (h : ShippedRun env e order s N S) (i : Fin n) {p q ν : Vec}
    (ho : .agentObstacle ∈ order) (hpq : p ≠ q) (hν : IsNormal p q ν)
    (hst : (s.agents.rows i).stdRandForce = 0)
    (hdir : ∀ j < N, ((S (j + 1)).agents.rows i).targetDirection = -ν)
    (hu : ∀ j < N, TouchesOnly env (S j).agents.rows i (p, q))
    (hbeside : ∀ j < N, Beside p q ((S j).agents.rows i).position)
    (hpos : ∀ j < N, 0 < offWall p ν ((S j).agents.rows i).position)
    (y v w : ℕ → ℝ) (hy : ∀ j, y j = offWall p ν ((S j).agents.rows i).position)
    (hv : ∀ j, v j = Spec.inner ((S j).agents.rows i).velocity ν) (hw0 : w 0 = v 0)
    (hw : ∀ j, w (j + 1) = 100 * (y (j + 1) - y j)) :
    ∀ j < N, v (j + 1) = (w j + w (j + 1)) / 2 ∧ w (j + 1) = w j + 0.01 *
      (-((s.agents.rows i).targetVelocity + v j) / (s.agents.rows i).tauAdj +
        (if (s.agents.rows i).radius ≤ y j then 0 else
          (s.agents.rows i).mu / (s.agents.rows i).mass * ((s.agents.rows i).radius - y j) +
          (s.agents.rows i).damping / (s.agents.rows i).mass * v j)) := by
  obtain ⟨A, U, hD, hU⟩ := run_drive h i
  have hbody := completed_body h.order h.completed
  have hm := h.regular.mass i
  have htau := h.regular.tau i
  obtain ⟨a, ha⟩ : ∃ a, s.agents.rows i = a := ⟨_, rfl⟩
  rw [ha] at hD hU hm htau hst ⊢
  have hstep : ∀ j < N, w (j + 1) = v (j + 1) + 0.005 * Spec.inner (A j) ν := by
    intro j hj
    rw [hw, hy, hy, hv]
    unfold offWall
    rw [(hU j hj).2]
    simp only [inner_sub_wall, inner_add_wall, inner_smul_wall]
    ring
  have hnext : ∀ j < N, w (j + 1) = w j + 0.01 * Spec.inner (A j) ν := by
    intro j hj
    rcases j with - | j
    · have := congrArg (Spec.inner · ν) (hD.first hj)
      simp only [inner_add_wall, inner_smul_wall] at this
      rw [hstep 0 hj, hw0, hv, hv, zero_add, this]
      ring
    · have := congrArg (Spec.inner · ν) (hD.next j hj)
      simp only [inner_add_wall, inner_smul_wall] at this
      rw [hstep (j + 1) hj, hstep j (by omega), hv, hv, this]
      ring
  intro j hj
  refine ⟨by linarith [hstep j hj, hnext j hj], ?_⟩
  rw [hnext j hj]
  obtain ⟨⟨d, hd1, hd2⟩, -⟩ := hU j hj
  obtain ⟨f, hf1, hf2⟩ := touches_only ho (hu j hj) hd1
  have hbd := (hbody j hj.le).2 i
  rw [ha] at hbd
  rw [← hbd.stdRandForce, hst, mul_zero] at hf2
  have hdf : d - f.1 = 0 := by
    have h0 : len (d - f.1) = 0 := le_antisymm hf2 (Real.sqrt_nonneg _)
    unfold len at h0
    rw [Real.sqrt_eq_zero (by positivity)] at h0
    have e1 := sq_nonneg (d - f.1).1
    have e2 := sq_nonneg (d - f.1).2
    exact Prod.ext (pow_eq_zero_iff two_ne_zero |>.1 (by linarith))
      (pow_eq_zero_iff two_ne_zero |>.1 (by linarith))
  have hwall := wall_upright (a := aiming (S j) (S (j + 1)) i) hpq hν (hbeside j hj) (hpos j hj) hf1
  have r1 : (aiming (S j) (S (j + 1)) i).radius = a.radius := hbd.radius.symm
  have r2 : (aiming (S j) (S (j + 1)) i).mu = a.mu := hbd.mu.symm
  have r3 : (aiming (S j) (S (j + 1)) i).damping = a.damping := hbd.damping.symm
  have r4 : (aiming (S j) (S (j + 1)) i).position = ((S j).agents.rows i).position := rfl
  have r5 : (aiming (S j) (S (j + 1)) i).velocity = ((S j).agents.rows i).velocity := rfl
  rw [r1, r2, r3, r4, r5, ← hy, ← hv] at hwall
  have hn : Spec.inner (-ν) ν = -1 := by
    have := congrArg (· ^ 2) hν.1
    simp only [len] at this
    rw [Real.sq_sqrt (by positivity)] at this
    simp only [Spec.inner, Prod.fst_neg, Prod.snd_neg]
    linarith
  have hA : a.tauAdj * Spec.inner (A j) ν =
      -a.targetVelocity + a.tauAdj / a.mass * Spec.inner f.1 ν - v j := by
    have := congrArg (Spec.inner · ν) (hD.drive j hj)
    simp only [inner_smul_wall, inner_sub_wall] at this
    rw [this, hd2, sub_eq_zero.1 hdf, hdir j hj, hv]
    simp only [inner_add_wall, inner_smul_wall, hn]
    ring
  have hα : Spec.inner (A j) ν = -(a.targetVelocity + v j) / a.tauAdj + Spec.inner f.1 ν / a.mass := by
    field_simp
    field_simp at hA
    linear_combination hA
  rw [hα]
  congr 3
  split_ifs with hr
  · rw [hwall.1 hr]
    simp [Spec.inner]
  · rw [hwall.2 (not_le.1 hr)]
    ring

/-- Such an agent with the constants of the code. -/
lemma wall_rattle {env : SimEnv n} {e : LogicExpr} {order : List Node} {s : SimState n}
    {S : ℕ → SimState n} (h : ∀ N, ShippedRun env e order s N S) (i : Fin n) {p q ν : Vec}
    (ho : .agentObstacle ∈ order) (hpq : p ≠ q) (hν : IsNormal p q ν)
    (ht : (s.agents.rows i).tauAdj = 0.5) (hmu : (s.agents.rows i).mu = 1.2e5)
    (hda : (s.agents.rows i).damping = 500) (hst : (s.agents.rows i).stdRandForce = 0)
    (hrad : 0.19 ≤ (s.agents.rows i).radius)
    (hmass : 50 ≤ (s.agents.rows i).mass ∧ (s.agents.rows i).mass ≤ 90)
    (hvel : 0.4 ≤ (s.agents.rows i).targetVelocity ∧ (s.agents.rows i).targetVelocity ≤ 1.75)
    (hdir : ∀ j, ((S (j + 1)).agents.rows i).targetDirection = -ν)
    (hu : ∀ j, TouchesOnly env (S j).agents.rows i (p, q))
    (h0 : len (s.agents.rows i).velocity ≤ 1.75)
    (hside : (s.agents.rows i).radius ≤ offWall p ν (s.agents.rows i).position)
    (hbeside : ∀ j, Beside p q ((S j).agents.rows i).position) :
    ∃ K c w, Rattle (s.agents.rows i).radius K c (s.agents.rows i).targetVelocity
      (fun j => offWall p ν ((S j).agents.rows i).position)
      (fun j => Spec.inner ((S j).agents.rows i).velocity ν) w := by
  have hstop := shipped_stops ht hmu hda hrad hmass.1 hmass.2
  have hlen : len (-ν) ≤ 1 := by
    have : len (-ν) = len ν := by simp [len]
    rw [this, hν.1]
  have hm : 0 < (s.agents.rows i).mass := by linarith
  have hwalk : ∀ j, (s.agents.rows i).radius - 0.15 ≤ offWall p ν ((S j).agents.rows i).position ∧
      -2.7 ≤ Spec.inner ((S j).agents.rows i).velocity ν := by
    intro j
    refine wall_walk (h j) i hpq hν hstop (F := 0) (by linarith) (fun k _ => by rw [hdir k]; exact hlen)
      (fun k hk d hdk => ?_) (by rw [mul_zero, zero_div]; linarith) h0 hside (fun k _ => hbeside k) j le_rfl
    obtain ⟨f, f1, f2⟩ := touches_only ho (hu k) hdk
    have hb := (completed_body (h j).order (h j).completed k hk.le).2 i
    rw [← hb.stdRandForce, hst, mul_zero] at f2
    exact ⟨f, f1, f2⟩
  obtain ⟨y, hy⟩ : ∃ y : ℕ → ℝ, ∀ j, y j = offWall p ν ((S j).agents.rows i).position :=
    ⟨_, fun _ => rfl⟩
  obtain ⟨v, hv⟩ : ∃ v : ℕ → ℝ, ∀ j, v j = Spec.inner ((S j).agents.rows i).velocity ν :=
    ⟨_, fun _ => rfl⟩
  obtain ⟨w, hw0, hw⟩ : ∃ w : ℕ → ℝ, w 0 = v 0 ∧ ∀ j, w (j + 1) = 100 * (y (j + 1) - y j) :=
    ⟨fun j => match j with
      | 0 => v 0
      | j + 1 => 100 * (y (j + 1) - y j), rfl, fun _ => rfl⟩
  have hpress : ∀ j, _ := fun j => wall_press (h (j + 1)) i ho hpq hν hst (fun k _ => hdir k)
    (fun k _ => hu k) (fun k _ => hbeside k) (fun k _ => by linarith [(hwalk k).1]) y v w hy hv hw0 hw j
    (by omega)
  simp only [ht, hmu, hda] at hpress
  have e1 : (fun j => offWall p ν ((S j).agents.rows i).position) = y := (funext hy).symm
  have e2 : (fun j => Spec.inner ((S j).agents.rows i).velocity ν) = v := (funext hv).symm
  rw [e1, e2]
  refine ⟨1.2e5 / (s.agents.rows i).mass, 500 / (s.agents.rows i).mass, w, ?_, ?_, ?_, ?_, hvel.1, hvel.2,
    hw0.symm, ?_, fun j => (hpress j).1, fun j => by rw [hw]; ring, fun j hr => ?_, fun j hr => ?_,
    fun j => by rw [hv]; exact (hwalk j).2, fun j => by rw [hy]; exact (hwalk j).1⟩
  · rw [le_div_iff₀ hm]; norm_num; linarith
  · rw [div_le_iff₀ hm]; norm_num; linarith
  · rw [le_div_iff₀ hm]; norm_num; linarith
  · rw [div_le_iff₀ hm]; linarith
  · rw [hy, (h 0).completed.first]
    exact hside
  · rw [(hpress j).2, if_pos hr]
    ring
  · rw [(hpress j).2, if_neg (not_le.2 hr)]
    ring

end CrowdDynamics
