import Verif.Spec.Renumber
import Verif.Proofs.IeeeCrowd
import Mathlib.Data.List.FinRange

/-!
# The numbering of the agents in floating point: helper lemmas
-/

namespace CrowdDynamics

open Spec
open scoped Classical

variable {n : ℕ} (σ : Equiv.Perm (Fin n))

theorem npMax_perm {l l' : List ℝ} (h : l.Perm l') : npMax l = npMax l' := by
  have rc : ∀ a b c : ℝ, max (max a b) c = max (max a c) b := fun a b c => max_right_comm a b c
  induction h with
  | nil => rfl
  | cons a h _ =>
    simp only [npMax]
    have : RightCommutative (max : ℝ → ℝ → ℝ) := ⟨rc⟩
    rw [h.foldl_eq]
  | swap a b l =>
    simp only [npMax, List.foldl_cons, max_comm]
  | trans _ _ h1 h2 => exact h1.trans h2

/-- The larger of two numbers, as the loop for the largest speed computes it. -/
theorem larger_comm (v a b : F64) :
    (if b.gt (if a.gt v then a else v) then b else if a.gt v then a else v) =
      if a.gt (if b.gt v then b else v) then a else if b.gt v then b else v := by
  have g : ∀ x, ¬ F64.gt .nan x := fun x h => h
  by_cases ha : a = .nan
  · subst ha
    simp only [if_neg (g _)]
  by_cases hb : b = .nan
  · subst hb
    simp only [if_neg (g _)]
  have e : ∀ x y : ℝ, (if (F64.num x).gt (.num y) then F64.num x else .num y) = .num (max y x) := by
    intro x y
    by_cases h : y < x
    · rw [if_pos (show (F64.num x).gt (.num y) from h), max_eq_right h.le]
    · rw [if_neg (show ¬ (F64.num x).gt (.num y) from h), max_eq_left (not_lt.1 h)]
  cases v with
  | nan => cases a <;> cases b <;> simp [F64.gt]
  | inf s =>
    cases a with
    | nan => exact absurd rfl ha
    | inf t =>
      cases b with
      | nan => exact absurd rfl hb
      | inf u => cases s <;> cases t <;> cases u <;> simp [F64.gt]
      | num b => cases s <;> cases t <;> simp [F64.gt]
    | num a =>
      cases b with
      | nan => exact absurd rfl hb
      | inf u => cases s <;> cases u <;> simp [F64.gt]
      | num b =>
        cases s
        · simp [F64.gt]
        · have t : ∀ x : ℝ, (F64.num x).gt (.inf true) := fun _ => rfl
          rw [if_pos (t _), if_pos (t _), e, e, max_comm]
  | num v =>
    cases a with
    | nan => exact absurd rfl ha
    | inf t =>
      cases b with
      | nan => exact absurd rfl hb
      | inf u => cases t <;> cases u <;> simp [F64.gt]
      | num b =>
        cases t
        · by_cases h : v < b <;> simp [F64.gt, h]
        · by_cases h : v < b <;> simp [F64.gt, h]
    | num a =>
      cases b with
      | nan => exact absurd rfl hb
      | inf u =>
        cases u
        · by_cases h : v < a <;> simp [F64.gt, h]
        · by_cases h : v < a <;> simp [F64.gt, h]
      | num b => rw [e, e, e, e, max_right_comm]

theorem vMaxLoopI_renumber (A : Arith) (rows : Fin n → RowI) :
    vMaxLoopI A (fun i => rows (σ i)) = vMaxLoopI A rows := by
  have h : ∀ l : List (Fin n), ∀ v : F64, l.foldl (fun vMax i =>
      let s := (rows (σ i)).velocity.1.hypot A (rows (σ i)).velocity.2
      if s.gt vMax then s else vMax) v = (l.map σ).foldl (fun vMax i =>
      let s := (rows i).velocity.1.hypot A (rows i).velocity.2
      if s.gt vMax then s else vMax) v := by
    intro l v
    rw [List.foldl_map]
  unfold vMaxLoopI
  rw [h]
  have : RightCommutative (fun (vMax : F64) (i : Fin n) =>
      let s := (rows i).velocity.1.hypot A (rows i).velocity.2
      if s.gt vMax then s else vMax) := ⟨fun v a b => larger_comm v _ _⟩
  exact (Equiv.Perm.map_finRange_perm σ).foldl_eq _

theorem timestepI_renumber (A : Arith) (rows : Fin n → RowI) (dtMin dtMax : ℝ) :
    adaptiveTimestepI A (fun i => rows (σ i)) dtMin dtMax = adaptiveTimestepI A rows dtMin dtMax := by
  have e : npMax (List.ofFn fun i => (rows (σ i)).targetVelocity) =
      npMax (List.ofFn fun i => (rows i).targetVelocity) := by
    apply npMax_perm
    exact Equiv.Perm.ofFn_comp_perm σ fun i => (rows i).targetVelocity
  unfold adaptiveTimestepI
  rw [vMaxLoopI_renumber, e]

theorem integrateI_renumber (A : Arith) (rows : Fin n → RowI) (dtMin dtMax : ℝ) :
    velocityVerletIntegratorI A dtMin dtMax (fun i => rows (σ i)) =
      (velocityVerletIntegratorI A dtMin dtMax rows).map fun p => (p.1, fun i => p.2 (σ i)) := by
  unfold velocityVerletIntegratorI
  rw [timestepI_renumber]
  cases adaptiveTimestepI A rows dtMin dtMax with
  | error _ => rfl
  | ok dt => rfl

theorem addForceI_renumber (rnd : ℝ → ℝ) (F : Fin n → F64 × F64) (i : Fin n) (f : F64 × F64) :
    addForceI rnd (fun k => F (σ k)) (σ.symm i) f = fun k => addForceI rnd F i f (σ k) := by
  funext k
  unfold addForceI
  by_cases hk : σ k = i
  · have : k = σ.symm i := by rw [← hk, Equiv.symm_apply_apply]
    rw [← this, Function.update_self, ← hk, Function.update_self]
  · have : k ≠ σ.symm i := fun h => hk (by rw [h, Equiv.apply_symm_apply])
    rw [Function.update_of_ne this, Function.update_of_ne hk]

theorem interactionG_renumber (A : Arith) (agents : Fin n → AgentI) (i j : Fin n) (F : Fin n → F64 × F64) :
    interactionAgentAgentCircularG A (fun k => agents (σ k)) (σ.symm i) (σ.symm j) (fun k => F (σ k)) =
      (interactionAgentAgentCircularG A agents i j F).map fun F k => F (σ k) := by
  unfold interactionAgentAgentCircularG
  simp only [Equiv.apply_symm_apply]
  cases pairForcesG A (agents i) (agents j) with
  | error _ => rfl
  | ok f =>
    cases f with
    | none => rfl
    | some f => simp only [bind, Except.bind, Except.map, addForceI_renumber]

theorem interactionsG_renumber (A : Arith) (agents : Fin n → AgentI) (pairs : List (Fin n × Fin n))
    (F : Fin n → F64 × F64) :
    agentAgentCircularG A (fun k => agents (σ k)) (pairs.map fun p => (σ.symm p.1, σ.symm p.2))
        (fun k => F (σ k)) =
      (agentAgentCircularG A agents pairs F).map fun F k => F (σ k) := by
  unfold agentAgentCircularG
  induction pairs generalizing F with
  | nil => rfl
  | cons p ps ih =>
    rw [List.map_cons, List.foldlM_cons, List.foldlM_cons, interactionG_renumber]
    cases interactionAgentAgentCircularG A agents p.1 p.2 F with
    | error _ => rfl
    | ok F' => exact ih F'

theorem adjustI_renumber (rnd : ℝ → ℝ) (agents : Fin n → AgentI) (d F : Fin n → F64 × F64) :
    forceAdjustAgentsI rnd (fun k => agents (σ k)) (fun k => d (σ k)) (fun k => F (σ k)) =
      (forceAdjustAgentsI rnd agents d F).map fun F k => F (σ k) := by
  by_cases h : ∀ i, (agents i).tauAdj ≠ 0
  · rw [forceAdjustAgentsI_ok rnd agents h, forceAdjustAgentsI_ok rnd _ fun i => h (σ i)]
    rfl
  · push Not at h
    obtain ⟨j, hj⟩ := h
    rw [forceAdjustAgentsI_error rnd agents hj,
      forceAdjustAgentsI_error rnd _ (j := σ.symm j) (by rw [Equiv.apply_symm_apply]; exact hj)]
    rfl

theorem updateI_renumber (A : Arith) (walls : List Wall) (dtMin dtMax : ℝ) (inp : StepInput n)
    (agents : Fin n → AgentI) :
    updateI A walls dtMin dtMax (renumberInput σ inp) (fun i => agents (σ i)) =
      (updateI A walls dtMin dtMax inp agents).map fun c i => c (σ i) := by
  have a1 := adjustI_renumber σ A.rnd agents inp.direction
    fun i => vaddI A.rnd (agents i).force (inp.fluctuation i)
  unfold updateI
  simp only [renumberInput, a1]
  cases forceAdjustAgentsI A.rnd agents inp.direction
      (fun i => vaddI A.rnd (agents i).force (inp.fluctuation i)) with
  | error _ => rfl
  | ok F =>
    simp only [bind, Except.bind, Except.map, interactionsG_renumber]
    cases agentAgentCircularG A agents inp.pairs F with
    | error _ => rfl
    | ok F =>
      simp only [agentCircularObstacleG_apply]
      have i1 := integrateI_renumber σ A (fun i => ({ (agents i).toRowI with
        force := walls.foldl (wallForceG A (agents i)) (F i) } : RowI)) dtMin dtMax
      rw [i1]
      generalize velocityVerletIntegratorI A dtMin dtMax _ = R
      cases R with
      | error _ => rfl
      | ok p => rfl

theorem runI_renumber (A : Arith) (walls : List Wall) (dtMin dtMax : ℝ) (inputs : List (StepInput n))
    (agents : Fin n → AgentI) :
    runI A walls dtMin dtMax (inputs.map (renumberInput σ)) (fun i => agents (σ i)) =
      (runI A walls dtMin dtMax inputs agents).map fun c i => c (σ i) := by
  unfold runI
  induction inputs generalizing agents with
  | nil => rfl
  | cons inp inputs ih =>
    rw [List.map_cons, List.foldlM_cons, List.foldlM_cons, updateI_renumber]
    cases updateI A walls dtMin dtMax inp agents with
    | error _ => rfl
    | ok c => exact ih c

end CrowdDynamics
