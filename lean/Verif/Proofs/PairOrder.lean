import Verif.Spec.PairOrder
import Verif.Proofs.RoundedPairsCases
import Mathlib.Algebra.BigOperators.Group.List.Basic
import Mathlib.Algebra.Order.BigOperators.Group.List

/-!
# The order of the pairs in floating point
-/

namespace CrowdDynamics

open Spec

/-- Forces added one after the other. -/
noncomputable def addAll (rnd : ℝ → ℝ) (F : Vec) (fs : List Vec) : Vec :=
  fs.foldl (fun F f => (rnd (F.1 + f.1), rnd (F.2 + f.2))) F

lemma interaction_one {n : ℕ} (A : Arith) {p : Fin n × Fin n} (hp : p.1 ≠ p.2) (agents : Crowd n) (k : Fin n) :
    interactionAgentAgentCircularF A p.1 p.2 agents k =
      { agents k with force := addAll A.rnd (agents k).force (forcesOn A agents k [p]) } := by
  unfold interactionAgentAgentCircularF forcesOn
  simp only [List.flatMap_cons, List.flatMap_nil, List.append_nil]
  cases pairForcesF A (agents p.1) (agents p.2) with
  | none => rfl
  | some f =>
    simp only
    by_cases h1 : k = p.1
    · subst h1
      simp only [if_true, addForceF, Function.update_of_ne hp, Function.update_self, addAll, List.foldl_cons,
        List.foldl_nil]
    · rw [if_neg h1]
      by_cases h2 : k = p.2
      · subst h2
        simp only [if_true, addForceF, Function.update_of_ne hp.symm, Function.update_self, addAll, List.foldl_cons,
          List.foldl_nil]
      · simp only [if_neg h2, addForceF, Function.update_of_ne h2, Function.update_of_ne h1, addAll,
          List.foldl_nil]

/-- Each agent gets its forces one after the other; they do not depend on the forces that are there. -/
theorem interactions_addAll {n : ℕ} (A : Arith) (pairs : List (Fin n × Fin n)) (hp : ∀ p ∈ pairs, p.1 ≠ p.2)
    (agents : Crowd n) (k : Fin n) :
    agentAgentCircularF A agents pairs k =
      { agents k with force := addAll A.rnd (agents k).force (forcesOn A agents k pairs) } := by
  unfold agentAgentCircularF
  induction pairs generalizing agents with
  | nil => rfl
  | cons p ps ih =>
    have h1 := interaction_one A (hp p List.mem_cons_self) agents
    have h2 : forcesOn A (interactionAgentAgentCircularF A p.1 p.2 agents) k ps = forcesOn A agents k ps := by
      unfold forcesOn
      congr 1
      funext q
      rw [h1 q.1, h1 q.2]
      rfl
    have h3 : forcesOn A agents k (p :: ps) = forcesOn A agents k [p] ++ forcesOn A agents k ps := by
      simp [forcesOn]
    rw [List.foldl_cons, ih (fun q hq => hp q (List.mem_cons_of_mem _ hq)), h2, h1 k, h3]
    simp only [addAll, List.foldl_append]

lemma forcesOn_perm {n : ℕ} (A : Arith) (agents : Crowd n) (k : Fin n) {pairs pairs' : List (Fin n × Fin n)}
    (h : pairs.Perm pairs') : (forcesOn A agents k pairs).Perm (forcesOn A agents k pairs') :=
  h.flatMap_right _

/-! ## The error of a sum -/

lemma sum_error (fs : List ℝ) {F0 : ℝ} {T : ℝ} (hT : |F0| + (fs.map abs).sum ≤ T)
    (hm : (fs.length : ℝ) ≤ 2 ^ 52) :
    |fs.foldl (fun F f => fl64 (F + f)) F0 - (F0 + fs.sum)| ≤
      fs.length * 2 ^ (-52 : ℤ) * (T + 2 ^ (-1022 : ℤ)) := by
  obtain ⟨τ, hτ⟩ : ∃ τ : ℝ, (2 : ℝ) ^ (-1022 : ℤ) = τ := ⟨_, rfl⟩
  obtain ⟨u, hu⟩ : ∃ u : ℝ, (2 : ℝ) ^ (-53 : ℤ) = u := ⟨_, rfl⟩
  have τ0 : 0 < τ := hτ ▸ two_zpow_pos _
  have u0 : 0 < u := hu ▸ two_zpow_pos _
  have e2 : (2 : ℝ) ^ (-52 : ℤ) = 2 * u := by rw [← hu]; norm_num
  have e3 : (2 : ℝ) ^ 52 * (2 * u) = 1 := by rw [← hu]; norm_num
  have e4 : (2 : ℝ) ^ (-1075 : ℤ) = u * τ := by
    rw [← hu, ← hτ, ← zpow_add₀ (by norm_num : (2 : ℝ) ≠ 0)]
    rfl
  rw [hτ, e2]
  induction fs using List.reverseRecOn with
  | nil => simp
  | append_singleton fs f ih =>
    rw [List.map_append, List.sum_append] at hT
    simp only [List.map_cons, List.map_nil, List.sum_singleton] at hT
    rw [List.length_append, List.length_singleton] at hm ⊢
    push_cast at hm ⊢
    have f0 := abs_nonneg f
    have ih' := ih (by linarith) (by linarith)
    rw [List.foldl_append, List.foldl_cons, List.foldl_nil, List.sum_append, List.sum_singleton]
    obtain ⟨G, hG⟩ : ∃ G, List.foldl (fun F f => fl64 (F + f)) F0 fs = G := ⟨_, rfl⟩
    rw [hG] at ih' ⊢
    have hs : |fs.sum| ≤ (fs.map abs).sum := by
      clear * -
      induction fs with
      | nil => simp
      | cons a l ih =>
        rw [List.sum_cons, List.map_cons, List.sum_cons]
        exact (abs_add_le _ _).trans (by linarith)
    have T0 : 0 ≤ T + τ := by
      have := abs_nonneg F0
      have := (abs_nonneg fs.sum).trans hs
      linarith
    obtain ⟨E, hE⟩ : ∃ E, (fs.length : ℝ) * (2 * u) * (T + τ) = E := ⟨_, rfl⟩
    have hE1 : E ≤ T + τ := by
      rw [← hE]
      have : (fs.length : ℝ) * (2 * u) ≤ 1 := by
        rw [← e3]
        exact mul_le_mul_of_nonneg_right (by linarith) (by linarith)
      calc _ ≤ 1 * (T + τ) := mul_le_mul_of_nonneg_right this T0
        _ = T + τ := one_mul _
    rw [hE] at ih'
    have h1 := fl64_err_gen (G + f)
    rw [hu, e4] at h1
    have h2 : |G + f| ≤ T + E := by
      have a1 : G + f = (G - (F0 + fs.sum)) + (F0 + fs.sum + f) := by ring
      have a2 : |F0 + fs.sum + f| ≤ |F0| + |fs.sum| + |f| := abs_add_three _ _ _
      rw [a1]
      exact (abs_add_le _ _).trans (by linarith)
    have h3 : |G + f| * u ≤ (T + E) * u := mul_le_mul_of_nonneg_right h2 u0.le
    have h4 : (T + E + τ) * u ≤ (2 * (T + τ)) * u := mul_le_mul_of_nonneg_right (by linarith) u0.le
    have a3 : fl64 (G + f) - (F0 + (fs.sum + f)) = (fl64 (G + f) - (G + f)) + (G - (F0 + fs.sum)) := by ring
    rw [a3]
    refine (abs_add_le _ _).trans ?_
    have a4 : ((fs.length : ℝ) + 1) * (2 * u) * (T + τ) = E + 2 * (T + τ) * u := by rw [← hE]; ring
    rw [a4]
    linarith

lemma addAll_coord (rnd : ℝ → ℝ) (F : Vec) (fs : List Vec) :
    (addAll rnd F fs).1 = (fs.map Prod.fst).foldl (fun F f => rnd (F + f)) F.1 ∧
    (addAll rnd F fs).2 = (fs.map Prod.snd).foldl (fun F f => rnd (F + f)) F.2 := by
  unfold addAll
  induction fs generalizing F with
  | nil => exact ⟨rfl, rfl⟩
  | cons f fs ih => exact ih _

lemma order_error {fs gs : List ℝ} (h : fs.Perm gs) {F0 T : ℝ} (hT : |F0| + (fs.map abs).sum ≤ T)
    (hm : (fs.length : ℝ) ≤ 2 ^ 52) :
    |fs.foldl (fun F f => fl64 (F + f)) F0 - gs.foldl (fun F f => fl64 (F + f)) F0| ≤
      fs.length * 2 ^ (-51 : ℤ) * (T + 2 ^ (-1022 : ℤ)) := by
  have h1 := abs_le.1 (sum_error fs hT hm)
  have h2 := abs_le.1 (sum_error gs (F0 := F0) (T := T) (by rw [← (h.map abs).sum_eq]; exact hT)
    (by rw [← h.length_eq]; exact hm))
  rw [← h.sum_eq, ← h.length_eq] at h2
  have e : (2 : ℝ) ^ (-51 : ℤ) = 2 * 2 ^ (-52 : ℤ) := by norm_num
  rw [e, abs_le]
  constructor <;> linarith

lemma perm_short {α : Type*} {l m : List α} (h : l.Perm m) (hl : l.length ≤ 1) : l = m := by
  match l, hl with
  | [], _ => exact (List.nil_perm.1 h).symm
  | [a], _ => exact List.singleton_perm.1 h

end CrowdDynamics
