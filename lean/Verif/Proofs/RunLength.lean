import Verif.Proofs.Progress
import Verif.Proofs.ShippedTotal
import Verif.Props.Simulation
import Verif.Spec.RunLength

/-!
# Helper lemmas: how long runs are
-/

namespace CrowdDynamics

open Spec

variable {n : ℕ}

/-- Runs of updates that never raise an exception end at the first state that meets the exit
condition. -/
lemma run_first {σ : Type} {update : σ → Except PyErr Unit × σ} {s : σ}
    (hok : ∀ k, ∃ t, AfterUpdates update k s t) (exit : ℕ → σ → Bool) (m : ℕ)
    (hm : exit m ((fun s => (update s).2)^[m] s) = true)
    (hlt : ∀ k < m, exit k ((fun s => (update s).2)^[k] s) = false) (fuel : ℕ) (hf : m < fuel) :
    simRun update (some exit) fuel 0 s = some (.ok (), (fun s => (update s).2)^[m] s) := by
  refine C45_stops update (some exit) s m (fun k => (fun s => (update s).2)^[k] s)
    ⟨rfl, fun k _ => afterUpdates_next hok k, fun k hk => ?_⟩ ⟨exit, rfl, hm⟩ fuel hf
  rintro ⟨c, hc, h⟩
  cases hc
  rw [hlt k hk] at h
  cases h

/-- Runs whose exit condition never holds do not end. -/
lemma run_never {σ : Type} {update : σ → Except PyErr Unit × σ} {s : σ}
    (hok : ∀ k, ∃ t, AfterUpdates update k s t) (exit : ℕ → σ → Bool)
    (hne : ∀ k, exit k ((fun s => (update s).2)^[k] s) = false) (fuel : ℕ) :
    simRun update (some exit) fuel 0 s = none := by
  have key : ∀ fuel k, simRun update (some exit) fuel k ((fun s => (update s).2)^[k] s) = none := by
    intro fuel
    induction fuel with
    | zero => intro k; rfl
    | succ fuel ih =>
      intro k
      unfold simRun
      simp only [Option.elim, hne k, afterUpdates_next hok k]
      simpa using ih (k + 1)
  exact key fuel 0

lemma clock_bounds {time : ℕ → ℝ} {a b : ℝ}
    (h : ∀ k, time k + a ≤ time (k + 1) ∧ time (k + 1) ≤ time k + b) (k : ℕ) :
    time 0 + k * a ≤ time k ∧ time k ≤ time 0 + k * b := by
  induction k with
  | zero => simp
  | succ k ih =>
    have := h k
    push_cast
    constructor <;> linarith

/-- When a clock that advances by `a` to `b` per step first reaches `T`. -/
lemma clock_first {time : ℕ → ℝ} {a b : ℝ} (ha : 0 < a)
    (h : ∀ k, time k + a ≤ time (k + 1) ∧ time (k + 1) ≤ time k + b) (T : ℝ) (hT : time 0 ≤ T) :
    ∃ m, T ≤ time m ∧ (∀ k < m, time k < T) ∧ time m < T + b ∧
      (T - time 0) ≤ m * b ∧ m * a < T - time 0 + a := by
  classical
  have hex : ∃ k, T ≤ time k := by
    obtain ⟨k, hk⟩ := exists_nat_ge ((T - time 0) / a)
    rw [div_le_iff₀ ha] at hk
    exact ⟨k, by linarith [(clock_bounds h k).1]⟩
  refine ⟨Nat.find hex, Nat.find_spec hex, fun k hk => not_le.1 (Nat.find_min hex hk), ?_, ?_, ?_⟩
  · obtain ⟨m, hm⟩ : ∃ m, Nat.find hex = m := ⟨_, rfl⟩
    rw [hm]
    rcases m with _ | m
    · linarith [h 0]
    · have h1 := not_le.1 (Nat.find_min hex (m := m) (by omega))
      linarith [(h m).2]
  · linarith [(clock_bounds h (Nat.find hex)).2, Nat.find_spec hex]
  · obtain ⟨m, hm⟩ : ∃ m, Nat.find hex = m := ⟨_, rfl⟩
    rw [hm]
    rcases m with _ | m
    · simp; linarith
    · have h1 := not_le.1 (Nat.find_min hex (m := m) (by omega))
      have := (clock_bounds h m).1
      push_cast
      linarith

/-- One update of a simulation whose order has one integrator. -/
lemma order_time {e : LogicExpr} {nodes : List Node} (ho : e.order = .ok nodes) {a b : ℝ}
    (h1 : OneIntegrator nodes a b) (hd : a ≤ b) (env : SimEnv n) {s t : SimState n}
    (h : e.update env s = (.ok (), t)) :
    s.data.timeTot + a ≤ t.data.timeTot ∧ t.data.timeTot ≤ s.data.timeTot + b := by
  rw [update_of_order ho] at h
  obtain ⟨q, u, hu⟩ : ∃ q u, updateNodes env nodes s = (q, u) := ⟨_, _, rfl⟩
  rw [hu] at h
  cases q with
  | error e => cases h
  | ok x =>
    cases h
    rcases nodes_time env h1 hd s u _ hu with ⟨h2, h3, h4⟩ | ⟨h2, -⟩
    · show _ ≤ u.data.timeTot ∧ u.data.timeTot ≤ _
      rw [h2]
      constructor <;> linarith
    · exact absurd rfl h2

/-- Every shipped simulation has one integrator, with steps of 0.01. -/
lemma shipped_integrator (ratioObs width : ℝ) (f : Field) (hd : f.domain ≠ none)
    (hw : 1 ≤ (1 - ratioObs) * width) (e : LogicExpr) (he : e ∈ shippedLogic ratioObs width f) :
    ∃ nodes, e.order = .ok nodes ∧ OneIntegrator nodes 0.01 0.01 := by
  obtain ⟨⟨ring, holes⟩, hd⟩ := Option.ne_none_iff_exists'.1 hd
  simp only [shippedLogic, List.mem_cons, List.not_mem_nil, or_false] at he
  have walk : ∃ nodes, walkLogic.order = .ok nodes ∧ OneIntegrator nodes 0.01 0.01 :=
    ⟨_, order_walk, ⟨[_, _, _, _], [_], rfl, by simp [IsIntegrator], by simp [IsIntegrator]⟩⟩
  have nav : ∃ nodes, (navigationLogic f).order = .ok nodes ∧ OneIntegrator nodes 0.01 0.01 :=
    ⟨_, order_navigation hd, ⟨[_, _, _, _, _, _, _], [_], rfl, by simp [IsIntegrator],
      by simp [IsIntegrator]⟩⟩
  have closed : ∃ nodes, closedRoomLogic.order = .ok nodes ∧ OneIntegrator nodes 0.01 0.01 :=
    ⟨_, order_closed, ⟨[_, _, _, _, _, _], [_], rfl, by simp [IsIntegrator], by simp [IsIntegrator]⟩⟩
  have four : ∃ nodes, (fourExitsLogic f).order = .ok nodes ∧ OneIntegrator nodes 0.01 0.01 :=
    ⟨_, order_fourExits hd, ⟨[_, _, _, _, _, _, _, _, _], [_], rfl, by simp [IsIntegrator],
      by simp [IsIntegrator]⟩⟩
  rcases he with rfl | rfl | rfl | rfl | rfl | rfl | rfl | rfl | rfl | rfl | rfl | rfl | rfl
  · exact walk
  · exact nav
  · exact nav
  · exact nav
  · exact ⟨_, order_herding, ⟨[_, _, _, _, _], [_], rfl, by simp [IsIntegrator],
      by simp [IsIntegrator]⟩⟩
  · exact ⟨_, order_rounding hd, ⟨[_, _, _, _, _, _, _, _], [_], rfl, by simp [IsIntegrator],
      by simp [IsIntegrator]⟩⟩
  · exact ⟨_, order_avoid hd hw, ⟨[_, _, _, _, _, _, _, _, _], [_], rfl, by simp [IsIntegrator],
      by simp [IsIntegrator]⟩⟩
  · exact closed
  · exact closed
  · exact four
  · exact four
  · exact ⟨_, order_testMovement, ⟨[], [_, _, _], rfl, by simp, by simp [IsIntegrator]⟩⟩
  · exact walk

end CrowdDynamics
