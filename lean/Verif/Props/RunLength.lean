import Verif.Proofs.RunLength
import Verif.Props.ShippedTotal

/-!
# C148: when runs end
-/

namespace CrowdDynamics

open Spec

variable {n : ℕ}

/-- **C148** A run with a time limit ends: in every simulation whose updates raise no exception and whose
nodes contain one integrator with steps between `dtMin > 0` and `dtMax`, the run with the exit condition
`time_tot >= T` ends normally, after `m` updates with `(T - t) / dtMax <= m < (T - t) / dtMin + 1`, at a
time that exceeds `T` by less than `dtMax`. -/
theorem C148_time_limit (env : SimEnv n) (e : LogicExpr) (nodes : List Node) (he : e.order = .ok nodes)
    (dtMin dtMax : ℝ) (h1 : OneIntegrator nodes dtMin dtMax) (h0 : 0 < dtMin) (hd : dtMin ≤ dtMax)
    (s : SimState n) (hok : ∀ k, ∃ t, AfterUpdates (e.update env) k s t) (T : ℝ)
    (hT : s.data.timeTot ≤ T) :
    ∃ m t, AfterUpdates (e.update env) m s t ∧
      (∀ fuel, m < fuel → simRun (e.update env) (some (timeLimit T)) fuel 0 s = some (.ok (), t)) ∧
      (T - s.data.timeTot) / dtMax ≤ m ∧ m < (T - s.data.timeTot) / dtMin + 1 ∧
      T ≤ t.data.timeTot ∧ t.data.timeTot < T + dtMax := by
  have hstep := fun k => order_time he h1 hd env (afterUpdates_next hok k)
  obtain ⟨m, m1, m2, m3, m4, m5⟩ := clock_first
    (time := fun k => ((fun s => (e.update env s).2)^[k] s).data.timeTot) h0 hstep T hT
  refine ⟨m, _, ?_, fun fuel hf => run_first hok _ m ?_ (fun k hk => ?_) fuel hf, ?_, ?_, m1, m3⟩
  · obtain ⟨t, ht⟩ := hok m
    exact afterUpdates_iterate ht ▸ ht
  · exact decide_eq_true m1
  · exact decide_eq_false (not_le.2 (m2 k hk))
  · rw [div_le_iff₀ (h0.trans_le hd)]
    exact m4
  · rw [← sub_lt_iff_lt_add, lt_div_iff₀ h0, sub_mul, one_mul]
    exact sub_lt_iff_lt_add.2 m5

/-- **C148** The shipped simulations (with agents, a logic and what C98 asks for) make steps of exactly
0.01 seconds, so a run until the time `T` makes exactly `⌈(T - t) / 0.01⌉` updates. -/
theorem C148_shipped (env : SimEnv n) (s : SimState n) (ratioObs width : ℝ)
    (hr : ReadyToRun env s) (hw : 1 ≤ (1 - ratioObs) * width) (e : LogicExpr)
    (he : e ∈ shippedLogic ratioObs width env.field) (T : ℝ) (hT : s.data.timeTot ≤ T) :
    ∃ t, AfterUpdates (e.update env) ⌈(T - s.data.timeTot) / 0.01⌉₊ s t ∧
      (∀ fuel, ⌈(T - s.data.timeTot) / 0.01⌉₊ < fuel →
        simRun (e.update env) (some (timeLimit T)) fuel 0 s = some (.ok (), t)) ∧
      t.data.timeTot = s.data.timeTot + 0.01 * ⌈(T - s.data.timeTot) / 0.01⌉₊ := by
  obtain ⟨nodes, ho, h1⟩ := shipped_integrator ratioObs width env.field hr.domain hw e he
  have hok : ∀ k, ∃ t, AfterUpdates (e.update env) k s t := fun k => by
    obtain ⟨t, h, -⟩ := C98_run_partial env s ratioObs width hr hw e he k
    exact ⟨t, h⟩
  obtain ⟨m, t, a1, a2, a3, a4, a5, a6⟩ := C148_time_limit env e nodes ho 0.01 0.01 h1 (by norm_num)
    le_rfl s hok T hT
  have hm : ⌈(T - s.data.timeTot) / 0.01⌉₊ = m := by
    refine le_antisymm (Nat.ceil_le.2 a3) ?_
    by_contra hlt
    have h2 := Nat.lt_iff_add_one_le.1 (not_le.1 hlt)
    have h3 := Nat.le_ceil ((T - s.data.timeTot) / 0.01)
    have h4 : ((⌈(T - s.data.timeTot) / 0.01⌉₊ : ℝ) + 1) ≤ m := by exact_mod_cast h2
    linarith
  rw [hm]
  refine ⟨t, a1, a2, ?_⟩
  have hb := clock_bounds (time := fun k => ((fun s => (e.update env s).2)^[k] s).data.timeTot)
    (fun k => order_time ho h1 le_rfl env (afterUpdates_next hok k)) m
  rw [afterUpdates_iterate a1]
  have e0 : ((fun s => (e.update env s).2)^[0] s).data.timeTot = s.data.timeTot := rfl
  simp only [e0] at hb
  linarith [hb.1, hb.2]

/-- A crowd in the small room, with leaders and followers, until the time 2.345: 235 updates. -/
example (rows : Crowd 5) : ∃ t, simRun ((fourExitsLogic smallRoom).update
      { demoEnv 5 with fields := fun _ => smallRoom, lib := simpleLib }) (some (timeLimit 2.345)) 236 0
      (demoState rows) = some (.ok (), t) ∧ t.data.timeTot = 2.35 := by
  have hc : ⌈(2.345 - (0 : ℝ)) / 0.01⌉₊ = 235 := by
    rw [Nat.ceil_eq_iff (by norm_num)]
    norm_num
  obtain ⟨t, -, h2, h3⟩ := C148_shipped _ _ 0 1 (smallRoom_ready rows) (by norm_num)
    (fourExitsLogic smallRoom)
    (by show _ ∈ shippedLogic 0 1 smallRoom; simp [shippedLogic]) 2.345
    (by norm_num [demoState, demoData])
  have e0 : (demoState rows).data.timeTot = 0 := rfl
  rw [e0, hc] at h2 h3
  refine ⟨t, h2 236 (by norm_num), ?_⟩
  rw [h3]
  norm_num

/-- **C148** The exit condition of the tests, `iterations == K`, ends a run of a shipped simulation that
has made at most `K` updates exactly when the counter reaches `K`; a simulation that has already made
more never ends. -/
theorem C148_iterations (env : SimEnv n) (s : SimState n) (ratioObs width : ℝ)
    (hr : ReadyToRun env s) (hw : 1 ≤ (1 - ratioObs) * width) (e : LogicExpr)
    (he : e ∈ shippedLogic ratioObs width env.field) (K : ℕ) :
    (s.data.iterations ≤ K → ∃ t, AfterUpdates (e.update env) (K - s.data.iterations) s t ∧
      t.data.iterations = K ∧
      ∀ fuel, K - s.data.iterations < fuel →
        simRun (e.update env) (some (iterationLimit K)) fuel 0 s = some (.ok (), t)) ∧
    (K < s.data.iterations →
      ∀ fuel, simRun (e.update env) (some (iterationLimit K)) fuel 0 s = none) := by
  have hok := C98_run_partial env s ratioObs width hr hw e he
  have hok' : ∀ k, ∃ t, AfterUpdates (e.update env) k s t := fun k => by
    obtain ⟨t, h, -⟩ := hok k
    exact ⟨t, h⟩
  have hi : ∀ k, ((fun s => (e.update env s).2)^[k] s).data.iterations = s.data.iterations + k := by
    intro k
    obtain ⟨t, h, h2⟩ := hok k
    rw [← afterUpdates_iterate h, h2]
  constructor
  · intro hK
    obtain ⟨t, h, h2⟩ := hok (K - s.data.iterations)
    refine ⟨t, h, by omega, fun fuel hf => ?_⟩
    rw [run_first hok' (iterationLimit K) (K - s.data.iterations) ?_ (fun k hk => ?_) fuel hf,
      ← afterUpdates_iterate h]
    · simp only [iterationLimit, hi]
      simp
      omega
    · simp only [iterationLimit, hi]
      simp
      omega
  · intro hK fuel
    refine run_never hok' (iterationLimit K) (fun k => ?_) fuel
    simp only [iterationLimit, hi]
    simp
    omega

/-- A new simulation of a crowd in the small room stops after 100 updates, as in the tests. -/
example (rows : Crowd 5) : ∃ t, simRun ((navigationLogic smallRoom).update
      { demoEnv 5 with fields := fun _ => smallRoom, lib := simpleLib }) (some (iterationLimit 100)) 101 0
      (demoState rows) = some (.ok (), t) ∧ t.data.iterations = 100 := by
  obtain ⟨t, -, h2, h3⟩ := (C148_iterations _ _ 0 1 (smallRoom_ready rows) (by norm_num)
    (navigationLogic smallRoom)
    (by show _ ∈ shippedLogic 0 1 smallRoom; simp [shippedLogic]) 100).1
    (by norm_num [demoState, demoData])
  exact ⟨t, h3 101 (by norm_num [demoState, demoData]), h2⟩

end CrowdDynamics
