import Verif.Proofs.Contact
import Verif.Proofs.BodyStrideCases
import Verif.Props.LongRun

/-!
# Cases for C198 and C199
-/

namespace CrowdDynamics

open Spec

/-- Two agents with the default constants who overlap by a millimetre and walk towards each other. -/
noncomputable def bumping : Crowd 2 := fun k =>
  { Agent.default with
    mass := 80, radius := 0.25, tauAdj := 0.5
    position := if k = 0 then (0, 0) else (0.499, 0)
    velocity := if k = 0 then (1.3, 0) else (-1.3, 0) }

/-- An agent that overlaps the wall `gapWall` by a millimetre and walks towards it. -/
noncomputable def touching (v : ℝ) : Agent :=
  { Agent.default with
    mass := 80, radius := 0.25, tauAdj := 0.5, position := (0.051, 0), velocity := (v, 0) }

/-- A wall. -/
noncomputable def gapWall : Wall := ⟨(0.3, -1), (0.3, 1)⟩

theorem gapWall_ne : gapWall.p0 ≠ gapWall.p1 := fun h => by
  have := congrArg Prod.snd h
  norm_num [gapWall] at this

theorem line_fst {c y y' : ℝ} (z : ℝ × ℝ) (hz : z ∈ segment ℝ ((c, y) : ℝ × ℝ) (c, y')) : z.1 = c := by
  obtain ⟨a, b, ha, hb, hab, rfl⟩ := hz
  simp only [Prod.smul_mk, smul_eq_mul, Prod.mk_add_mk]
  linear_combination c * hab

theorem touching_nearest (v : ℝ) : IsNearest (touching v).position gapWall (0.3, 0) ∧
    (touching v).position ≠ (0.3, 0) ∧
    Spec.dist (touching v).position (0.3, 0) < (touching v).radius ∧
    len ((touching v).position - (0.3, 0)) = 0.249 := by
  have hl : len (((0.051, 0) : ℝ × ℝ) - (0.3, 0)) = 0.249 := by
    rw [Prod.mk_sub_mk, sub_zero, len_axis]
    norm_num
  refine ⟨⟨⟨1 / 2, 1 / 2, by norm_num, by norm_num, by norm_num, by ext <;> norm_num [gapWall]⟩,
    fun z hz => ?_⟩, fun h => ?_, ?_, hl⟩
  · refine (le_of_eq hl).trans ?_
    unfold Spec.dist len
    refine Real.le_sqrt_of_sq_le ?_
    rw [Prod.fst_sub, Prod.snd_sub, line_fst z hz]
    simp only [touching]
    nlinarith [sq_nonneg (0 - z.2)]
  · have := congrArg Prod.fst h
    norm_num [touching] at this
  · refine lt_of_eq_of_lt hl ?_
    norm_num [touching]

theorem touching_speed (v : ℝ) :
    approachSpeed ((touching v).position - (0.3, 0)) (touching v).velocity = v := by
  unfold approachSpeed
  rw [(touching_nearest v).2.2.2]
  simp only [Spec.inner, touching, Prod.mk_sub_mk]
  ring

/-- The middle part of a corridor of width `2 c`, closed at one end. -/
noncomputable def gapEnv (c : ℝ) : SimEnv 1 :=
  { demoEnv 1 with
    fields := fun _ => ⟨some ([(0, 0), (9, 0), (9, 9), (0, 9), (0, 0)], []),
      some (.lineString [(c, -1), (c, 1), (-c, 1), (-c, -1)]), [], []⟩ }

theorem gap_walls (c : ℝ) : fieldWalls (gapEnv c).field.obstacles =
    [((c, -1), (c, 1)), ((c, 1), (-c, 1)), ((-c, 1), (-c, -1))] := by
  simp [fieldWalls, SimEnv.field, gapEnv, fillHoles, outline, consecutive]

theorem gap_supported (c : ℝ) : ∀ g, (gapEnv c).field.obstacles = some g → Supported g := by
  intro g hg
  cases hg
  exact .lineString _

/-- An agent in the corridor that walks across it and wants to stand still. -/
noncomputable def squeezed (v : ℝ) : Crowd 1 := fun _ =>
  { Agent.default with
    mass := 80, radius := 0.25, tauAdj := 0.5, position := (0, 0), velocity := (v, 0),
    targetVelocity := 0, stdRandForce := 0 }

/-- The states of the run. -/
noncomputable def squeezing (c v : ℝ) (k : ℕ) : SimState 1 :=
  (fun s => (closedRoomLogic.update (gapEnv c) s).2)^[k] (demoState (squeezed v))

theorem squeezing_run (c v : ℝ) (N : ℕ) : ShippedRun (gapEnv c) closedRoomLogic closedOrder
    (demoState (squeezed v)) N (squeezing c v) := by
  refine ⟨⟨0, 1, 7, by norm_num, by norm_num, rfl⟩, order_closed, by simp [SimEnv.field, gapEnv],
    ?_, fun i => ⟨rfl, rfl⟩, ⟨rfl, fun k _ => ?_, fun k _ h => ?_⟩,
    fun j _ => lonely_cells _ rfl _⟩
  · refine ⟨rfl, fun k => by norm_num [demoState, squeezed], fun k => by norm_num [demoState, squeezed],
      fun k => by norm_num [demoState, squeezed], fun k => by norm_num [demoState, squeezed],
      fun d k a b h => ⟨le_rfl, h⟩, gap_supported c, fun c hc => ?_⟩
    rw [List.mem_singleton] at hc
    cases hc
    exact ⟨by norm_num, fun i j hij => absurd (Subsingleton.elim i j) hij, lonely_cells _ rfl _⟩
  · obtain ⟨t, ht⟩ := herding_total (gapEnv c) (squeezing c v k) (gap_supported c) closedRoomLogic (by simp)
    rw [show squeezing c v (k + 1) = (closedRoomLogic.update (gapEnv c) (squeezing c v k)).2 from
      Function.iterate_succ_apply' _ _ _, ht]
  · obtain ⟨c, hc, -⟩ := h
    cases hc

/-- The force of a wall along the second axis on an agent in front of it. -/
theorem wall_force_axis {a : Agent} {c x v σ y y' : ℝ} {e : (ℝ × ℝ) × ℝ} (hp : a.position = (x, 0))
    (hv : a.velocity = (v, 0)) (hσ : σ = 1 ∨ σ = -1) (hx : 0 < σ * (c - x))
    (hmid : ((c, 0) : ℝ × ℝ) ∈ segment ℝ ((c, y) : ℝ × ℝ) (c, y')) (hne : y ≠ y')
    (h : IsWallEffect .circular a ((c, y) : ℝ × ℝ) (c, y') e) :
    e.1 = (if σ * (c - x) < a.radius then
      -(σ * (a.mu * (a.radius - σ * (c - x)))) + a.damping * v else 0, 0) := by
  have hss : σ * σ = 1 := by rcases hσ with rfl | rfl <;> norm_num
  obtain ⟨d, hd, z, hz, hmin, h1, h2⟩ := h.2 (fun h => hne (congrArg Prod.snd h))
  simp only [discs, List.mem_singleton] at hd
  subst hd
  have hmin' := hmin (a.position, a.radius) (by simp [discs]) _ hmid
  have z1 := line_fst z hz
  have dm : Spec.dist a.position ((c, 0) : ℝ × ℝ) = σ * (c - x) := by
    rw [hp]
    unfold Spec.dist
    rw [Prod.mk_sub_mk, sub_zero, len_axis]
    rcases hσ with rfl | rfl
    · rw [abs_of_neg (by linarith)]; ring
    · rw [abs_of_pos (by linarith)]; ring
  simp only at hmin' h1 h2
  rw [dm] at hmin'
  have hz0 : z = (c, 0) := by
    have hle : Spec.dist a.position z ≤ σ * (c - x) := by linarith
    have h3 := pow_le_pow_left₀ (len_nonneg' _) hle 2
    change Spec.dist a.position z ^ 2 ≤ _ at h3
    rw [show Spec.dist a.position z ^ 2 = (x - z.1) ^ 2 + (0 - z.2) ^ 2 by
      unfold Spec.dist len
      rw [Real.sq_sqrt (by positivity), hp]
      rfl, z1, mul_pow, sq σ, hss] at h3
    have h4 : z.2 ^ 2 = 0 := le_antisymm (by nlinarith) (sq_nonneg _)
    ext
    · exact z1
    · exact pow_eq_zero_iff two_ne_zero |>.1 h4
  subst hz0
  rw [dm] at h1 h2
  split_ifs with hc
  · obtain ⟨m, ⟨m1, -, -, m4⟩, -⟩ := h2 hc
    rw [dm, hp] at m1
    have hm : m = (-σ, 0) := by
      have e1 := congrArg Prod.fst m1
      have e2 := congrArg Prod.snd m1
      simp only [Prod.smul_fst, Prod.smul_snd, smul_eq_mul, Prod.fst_sub, Prod.snd_sub, sub_zero] at e1 e2
      ext
      · refine mul_left_cancel₀ hx.ne' ?_
        rw [e1]
        linear_combination (c - x) * hss
      · exact (mul_eq_zero.1 e2).resolve_left hx.ne'
    rw [m4, dm, hm, hv]
    ext
    · simp [Spec.inner]
      linear_combination a.damping * v * hss
    · simp [Spec.inner]
  · exact congrArg Prod.fst (h1 (not_lt.1 hc))

/-- The end of the corridor is out of reach. -/
theorem wall_force_end {a : Agent} {c x : ℝ} {e : (ℝ × ℝ) × ℝ} (hp : a.position = (x, 0))
    (hr : a.radius ≤ 1) (h : IsWallEffect .circular a ((c, 1) : ℝ × ℝ) (-c, 1) e) : e.1 = 0 := by
  by_cases hpq : ((c, 1) : ℝ × ℝ) = (-c, 1)
  · rw [h.1 hpq]; rfl
  obtain ⟨d, hd, z, hz, hmin, h1, h2⟩ := h.2 hpq
  simp only [discs, List.mem_singleton] at hd
  subst hd
  rw [h1 ?_]
  · rfl
  refine hr.trans ?_
  have z2 : z.2 = 1 := by
    obtain ⟨s, t, hs, ht, hst, rfl⟩ := hz
    simp only [Prod.smul_mk, smul_eq_mul, Prod.mk_add_mk, mul_one]
    exact hst
  unfold Spec.dist len
  refine Real.le_sqrt_of_sq_le ?_
  rw [hp]
  simp only [Prod.fst_sub, Prod.snd_sub, z2]
  nlinarith [sq_nonneg (x - z.1)]

/-- Everything but the adjusting force that acts on the agent. -/
theorem gap_disturbs {s t : SimState 1} {c y u : ℝ} {d : ℝ × ℝ}
    (hp : (s.agents.rows 0).position = (y, 0)) (hv : (s.agents.rows 0).velocity = (u, 0))
    (hy : -c < y) (hy' : y < c)
    (e0 : (s.agents.rows 0).stdRandForce = 0) (e1 : (s.agents.rows 0).radius = 0.25)
    (e2 : (s.agents.rows 0).mu = 1.2e5) (e3 : (s.agents.rows 0).damping = 500)
    (hd : Disturbs (gapEnv c) closedOrder s t 0 d) :
    d = ((if c - 0.25 < y then -(1.2e5 * (y - (c - 0.25))) + 500 * u else 0) +
      (if y < -(c - 0.25) then 1.2e5 * (-(c - 0.25) - y) + 500 * u else 0), 0) := by
  obtain ⟨f, p, w, hf, ⟨F, -, hp0⟩, hw, rfl⟩ := hd
  have hf0 : f = 0 := by
    refine len_eq_zero' (le_antisymm (hf.trans (le_of_eq ?_)) (len_nonneg' _))
    change 3 * (s.agents.rows 0).mass * (s.agents.rows 0).stdRandForce = 0
    rw [e0, mul_zero]
  have hp1 : p = 0 := by
    rw [hp0]
    exact Finset.sum_eq_zero fun j hj => absurd (Subsingleton.elim j 0) (Finset.mem_erase.1 hj).1
  rw [if_pos (by simp [closedOrder])] at hw
  obtain ⟨G, hG, rfl⟩ := hw
  rw [hf0, hp1, zero_add, zero_add, gap_walls]
  simp only [List.map_cons, List.map_nil, List.sum_cons, List.sum_nil, add_zero]
  have hmid : ∀ b : ℝ, ((b, 0) : ℝ × ℝ) ∈ segment ℝ ((b, -1) : ℝ × ℝ) (b, 1) ∧
      ((b, 0) : ℝ × ℝ) ∈ segment ℝ ((b, 1) : ℝ × ℝ) (b, -1) := fun b =>
    ⟨⟨1 / 2, 1 / 2, by norm_num, by norm_num, by norm_num, by
      ext
      · simp only [Prod.smul_mk, smul_eq_mul, Prod.mk_add_mk]; ring
      · norm_num⟩,
     ⟨1 / 2, 1 / 2, by norm_num, by norm_num, by norm_num, by
      ext
      · simp only [Prod.smul_mk, smul_eq_mul, Prod.mk_add_mk]; ring
      · norm_num⟩⟩
  have e1 : (aiming s t 0).radius = 0.25 := e1
  have e2 : (aiming s t 0).mu = 1.2e5 := e2
  have e3 : (aiming s t 0).damping = 500 := e3
  have r1 : G ((c, -1), (c, 1)) = _ := wall_force_axis (a := aiming s t 0) (σ := 1) hp hv (.inl rfl)
    (by linarith) (hmid c).1 (by norm_num) (hG ((c, -1), (c, 1)))
  have r2 : G ((c, 1), (-c, 1)) = _ := wall_force_end (a := aiming s t 0) hp (by rw [e1]; norm_num)
    (hG ((c, 1), (-c, 1)))
  have r3 : G ((-c, 1), (-c, -1)) = _ := wall_force_axis (a := aiming s t 0) (σ := -1) hp hv (.inr rfl)
    (by linarith) (hmid (-c)).2 (by norm_num) (hG ((-c, 1), (-c, -1)))
  rw [r1, r2, r3, e1, e2, e3]
  have i1 : (1 * (c - y) < 0.25) ↔ (c - 0.25 < y) := by constructor <;> intro h <;> linarith
  have i2 : (-1 * (-c - y) < 0.25) ↔ (y < -(c - 0.25)) := by constructor <;> intro h <;> linarith
  simp only [i1, i2]
  ext
  · simp only [Prod.fst_add, zero_add]
    congr 1
    · split_ifs <;> ring
    · split_ifs <;> ring
  · simp

/-- Position, velocity and last acceleration after one more update, in rational numbers; `b` is the
free space on each side. -/
def gapStep (b : ℚ) (s : ℚ × ℚ × ℚ) : ℚ × ℚ × ℚ :=
  let a := ((if b < s.1 then -(120000 * (s.1 - b)) + 500 * s.2.1 else 0) +
    (if s.1 < -b then 120000 * (-b - s.1) + 500 * s.2.1 else 0) - 160 * s.2.1) / 80
  let v := s.2.1 + (s.2.2 + a) / 200
  (s.1 + v / 100 + a / 20000, v, a)

/-- The run in rational numbers. -/
theorem squeezing_rational (c v : ℚ) (k : ℕ) (hk : ∀ j < k,
      -c < ((gapStep (c - 1 / 4))^[j] (0, v, 0)).1 ∧ ((gapStep (c - 1 / 4))^[j] (0, v, 0)).1 < c) :
    ∀ j ≤ k, ((squeezing c v j).agents.rows 0).position =
        ((((gapStep (c - 1 / 4))^[j] (0, v, 0)).1 : ℝ), 0) ∧
      ((squeezing c v j).agents.rows 0).velocity =
        ((((gapStep (c - 1 / 4))^[j] (0, v, 0)).2.1 : ℝ), 0) := by
  obtain ⟨A, U, hD, hU⟩ := run_drive (squeezing_run c v k) 0
  obtain ⟨g, hg⟩ : ∃ g, gapStep (c - 1 / 4) = g := ⟨_, rfl⟩
  have key : ∀ j ≤ k,
      ((squeezing c v j).agents.rows 0).position = (((g^[j] (0, v, 0)).1 : ℝ), 0) ∧
      ((squeezing c v j).agents.rows 0).velocity = (((g^[j] (0, v, 0)).2.1 : ℝ), 0) ∧
      (∀ i, j = i + 1 → A i = (((g^[j] (0, v, 0)).2.2 : ℝ), 0)) ∧
      (j = 0 → (g^[j] (0, v, 0)).2.2 = 0) := by
    intro j
    induction j with
    | zero =>
      refine fun _ => ⟨?_, rfl, fun i hi => by omega, fun _ => rfl⟩
      change ((0, 0) : ℝ × ℝ) = (((0 : ℚ) : ℝ), 0)
      rw [Rat.cast_zero]
    | succ j ih =>
      intro hj
      obtain ⟨i1, i2, i3, i4⟩ := ih (by omega)
      obtain ⟨⟨d, hd, hUd⟩, hpos⟩ := hU j hj
      have hlt := hk j hj
      rw [Function.iterate_succ_apply']
      rw [hg] at hlt
      obtain ⟨⟨y, u, b⟩, hs⟩ : ∃ s, g^[j] (0, v, 0) = s := ⟨_, rfl⟩
      rw [hs] at i1 i2 i3 i4 hlt ⊢
      simp only at i1 i2 i3 i4 hlt
      have hy : -(c : ℝ) < y := by exact_mod_cast hlt.1
      have hy' : (y : ℝ) < c := by exact_mod_cast hlt.2
      have hb := (completed_body order_closed (squeezing_run c v k).completed j (by omega)).2 0
      have hd' := gap_disturbs i1 i2 hy hy' hb.stdRandForce.symm hb.radius.symm hb.mu.symm
        hb.damping.symm hd
      have hA := hD.accel (by norm_num [demoState, squeezed]) hj
      rw [hUd, hd'] at hA
      have t1 : ((demoState (squeezed v)).agents.rows 0).targetVelocity = 0 := rfl
      have t2 : ((demoState (squeezed v)).agents.rows 0).tauAdj = 0.5 := rfl
      have t3 : ((demoState (squeezed v)).agents.rows 0).mass = 80 := rfl
      rw [t1, t2, t3, zero_smul, zero_add, i2] at hA
      have hA' : A j = (((g (y, u, b)).2.2 : ℝ), 0) := by
        rw [hA, ← hg]
        unfold gapStep
        have q : (c : ℝ) - 0.25 = ((c - 1 / 4 : ℚ) : ℝ) := by push_cast; norm_num
        rw [q]
        obtain ⟨r, hr⟩ : ∃ r, c - 1 / 4 = r := ⟨_, rfl⟩
        rw [hr]
        have j1 : ((r : ℝ) < y) ↔ r < y := Rat.cast_lt
        have j2 : ((y : ℝ) < -(r : ℝ)) ↔ y < -r := by rw [← Rat.cast_neg]; exact Rat.cast_lt
        ext
        · simp only [Prod.smul_fst, Prod.fst_sub, smul_eq_mul, j1, j2]
          split_ifs
          all_goals
            push_cast
            ring
        · simp
      have hv' : ((squeezing c v (j + 1)).agents.rows 0).velocity =
          (((g (y, u, b)).2.1 : ℝ), 0) := by
        have e : (g (y, u, b)).2.1 = u + (b + (g (y, u, b)).2.2) / 200 := by rw [← hg]; rfl
        rw [e]
        rcases Nat.eq_zero_or_pos j with rfl | h0
        · have := hD.first hj
          simp only [zero_add] at this ⊢
          rw [this, i2, hA', i4 rfl]
          ext
          · simp only [Prod.fst_add, Prod.smul_fst, smul_eq_mul]
            push_cast
            ring
          · simp
        · obtain ⟨i, rfl⟩ : ∃ i, j = i + 1 := ⟨j - 1, by omega⟩
          have := hD.next i hj
          rw [show i + 1 + 1 = i + 2 from rfl, this, i2, hA', i3 i rfl]
          ext
          · simp only [Prod.fst_add, Prod.smul_fst, smul_eq_mul]
            push_cast
            ring
          · simp
      refine ⟨?_, hv', fun i hi => by obtain rfl : i = j := by omega
                                      exact hA', fun h => by omega⟩
      have e : (g (y, u, b)).1 = y + (g (y, u, b)).2.1 / 100 + (g (y, u, b)).2.2 / 20000 := by
        rw [← hg]; rfl
      rw [hpos, i1, hv', hA', e]
      ext
      · simp only [Prod.fst_add, Prod.smul_fst, smul_eq_mul]
        push_cast
        ring
      · simp
  rw [hg]
  exact fun j hj => ⟨(key j hj).1, (key j hj).2.1⟩

/-- The agent starts clear of the walls of a corridor of width 0.6. -/
theorem squeezed_clear (v : ℝ) : ∀ w ∈ fieldWalls (gapEnv 0.3).field.obstacles, ∀ z ∈ segment ℝ w.1 w.2,
    (squeezed v 0).radius ≤ Spec.dist (squeezed v 0).position z := by
  intro w hw z hz
  rw [gap_walls] at hw
  change (0.25 : ℝ) ≤ Spec.dist (0, 0) z
  unfold Spec.dist len
  refine Real.le_sqrt_of_sq_le ?_
  simp only [Prod.fst_sub, Prod.snd_sub]
  simp only [List.mem_cons, List.not_mem_nil, or_false] at hw
  rcases hw with rfl | rfl | rfl
  · rw [line_fst z hz]
    nlinarith [sq_nonneg (0 - z.2)]
  · have z2 : z.2 = 1 := by
      obtain ⟨s, t, hs, ht, hst, rfl⟩ := hz
      simp only [Prod.smul_mk, smul_eq_mul, Prod.mk_add_mk, mul_one]
      exact hst
    rw [z2]
    nlinarith [sq_nonneg (0 - z.1)]
  · rw [line_fst z hz]
    nlinarith [sq_nonneg (0 - z.2)]

set_option maxRecDepth 10000 in
theorem squeezing_inside : ∀ j < 567,
    -(3 / 10) < ((gapStep (3 / 10 - 1 / 4))^[j] (0, 13 / 10, 0)).1 ∧
      ((gapStep (3 / 10 - 1 / 4))^[j] (0, 13 / 10, 0)).1 < 3 / 10 := by decide +kernel

set_option maxRecDepth 10000 in
theorem squeezing_outside : ((gapStep (3 / 10 - 1 / 4))^[567] (0, 13 / 10, 0)).1 < -(3 / 10) ∧
    ((gapStep (3 / 10 - 1 / 4))^[567] (0, 13 / 10, 0)).2.1 < -4 := by decide +kernel

end CrowdDynamics
