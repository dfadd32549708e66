import Verif.Spec.Partners
import Verif.Proofs.PairTurn

/-!
# Only the order in which each agent meets the others matters: helper lemmas
-/

namespace CrowdDynamics

open Spec
open scoped Classical

theorem except_bind_error {α β : Type} {x : Except PyErr α} {f : α → Except PyErr β} {e : PyErr}
    (h : x >>= f = .error e) : x = .error e ∨ ∃ a, x = .ok a ∧ f a = .error e := by
  cases x with
  | error e' =>
    have h : (Except.error e' : Except PyErr β) = .error e := h
    exact .inl (by rw [Except.error.inj h])
  | ok a => exact .inr ⟨a, rfl, h⟩

theorem partnersOf_renumber {n : ℕ} (σ : Equiv.Perm (Fin n)) (ps : List (Fin n × Fin n)) (k : Fin n)
    (h : partnersOf (σ k) ps = (partnersOf k ps).map σ) :
    partnersOf k (ps.map fun p => (σ.symm p.1, σ.symm p.2)) = partnersOf k ps := by
  have e : partnersOf k (ps.map fun p => (σ.symm p.1, σ.symm p.2)) = (partnersOf (σ k) ps).map σ.symm := by
    unfold partnersOf
    rw [List.filterMap_map, List.map_filterMap]
    congr 1
    funext p
    simp only [Function.comp, Equiv.symm_apply_eq]
    split_ifs <;> rfl
  rw [e, h, List.map_map]
  simp

theorem socialG_error {A : Arith} {ai aj : AgentI} {e : PyErr} (h : forceSocialCircularG A ai aj = .error e) :
    e = .other := by
  unfold forceSocialCircularG at h
  extract_lets at h
  split_ifs at h
  rcases except_bind_error h with h | ⟨_, -, h⟩
  · exact sdiv_error h
  split_ifs at h
  rcases except_bind_error h with h | ⟨_, -, h⟩
  · exact magnitudeI_error h
  rcases except_bind_error h with h | ⟨_, -, h⟩
  · exact magnitudeI_error h
  rcases except_bind_error h with h | ⟨_, -, h⟩
  · exact truncateI_error h
  rcases except_bind_error h with h | ⟨_, -, h⟩
  · exact truncateI_error h
  · cases h

theorem pairG_error {A : Arith} {ai aj : AgentI} {e : PyErr} (h : pairForcesG A ai aj = .error e) :
    e = .other := by
  unfold pairForcesG at h
  extract_lets at h
  split_ifs at h
  · rcases except_bind_error h with h | ⟨_, -, h⟩
    · exact socialG_error h
    · cases h
  · rcases except_bind_error h with h | ⟨_, -, h⟩
    · exact socialG_error h
    · cases h

/-- What meeting `m` adds to the force on `k`. -/
noncomputable def meet {n : ℕ} (A : Arith) (agents : Fin n → AgentI) (k m : Fin n) (f : F64 × F64) : F64 × F64 :=
  match pairForcesG A (agents k) (agents m) with
  | .ok (some p) => vaddI A.rnd f p.1
  | _ => f

/-- The meeting of two agents raises an exception. -/
def Raises {n : ℕ} (A : Arith) (agents : Fin n → AgentI) (k m : Fin n) : Prop :=
  pairForcesG A (agents k) (agents m) = .error .other

variable {A : Arith} (hA : SignFree A) {n : ℕ} (agents : Fin n → AgentI)

include hA

theorem raises_comm (k m : Fin n) : Raises A agents k m ↔ Raises A agents m k := by
  unfold Raises
  rw [pairG_turn hA (agents k) (agents m)]
  cases pairForcesG A (agents k) (agents m) <;> simp [Except.map]

theorem interactionG_cases {i j : Fin n} (h : i ≠ j) (F : Fin n → F64 × F64) :
    (Raises A agents i j ∧ interactionAgentAgentCircularG A agents i j F = .error .other) ∨
    (¬ Raises A agents i j ∧ interactionAgentAgentCircularG A agents i j F = .ok fun k =>
      if i = k then meet A agents k j (F k) else if j = k then meet A agents k i (F k) else F k) := by
  unfold Raises interactionAgentAgentCircularG
  have ht := pairG_turn hA (agents i) (agents j)
  cases hp : pairForcesG A (agents i) (agents j) with
  | error e =>
    obtain rfl := pairG_error hp
    exact .inl ⟨rfl, rfl⟩
  | ok f =>
    refine .inr ⟨by simp, ?_⟩
    rw [hp] at ht
    cases f with
    | none =>
      simp only [bind, Except.bind]
      congr 1
      funext k
      split_ifs with h1 h2
      · subst h1
        simp [meet, hp]
      · subst h2
        simp [meet, ht, Except.map]
      · rfl
    | some f =>
      simp only [bind, Except.bind]
      congr 1
      funext k
      unfold addForceI
      split_ifs with h1 h2
      · subst h1
        rw [Function.update_of_ne h, Function.update_self]
        simp [meet, hp]
      · subst h2
        rw [Function.update_self, Function.update_of_ne h.symm]
        simp [meet, ht, Except.map]
      · rw [Function.update_of_ne (Ne.symm h2), Function.update_of_ne (Ne.symm h1)]

/-- The loop over the pairs, agent by agent. -/
theorem interactionsG_partners (ps : List (Fin n × Fin n)) (hp : ∀ p ∈ ps, p.1 ≠ p.2) (F : Fin n → F64 × F64) :
    agentAgentCircularG A agents ps F =
      if ∃ k, ∃ m ∈ partnersOf k ps, Raises A agents k m then .error .other
      else .ok fun k => (partnersOf k ps).foldl (fun f m => meet A agents k m f) (F k) := by
  unfold agentAgentCircularG
  induction ps generalizing F with
  | nil => simp [partnersOf, pure, Except.pure]
  | cons p ps ih =>
    have hne : p.1 ≠ p.2 := hp p (by simp)
    have ih := ih fun q hq => hp q (by simp [hq])
    have c1 : ∀ k, partnersOf k (p :: ps) = if p.1 = k then p.2 :: partnersOf k ps
        else if p.2 = k then p.1 :: partnersOf k ps else partnersOf k ps := by
      intro k
      unfold partnersOf
      rw [List.filterMap_cons]
      split_ifs <;> rfl
    have c2 : (∃ k, ∃ m ∈ partnersOf k (p :: ps), Raises A agents k m) ↔
        Raises A agents p.1 p.2 ∨ ∃ k, ∃ m ∈ partnersOf k ps, Raises A agents k m := by
      constructor
      · rintro ⟨k, m, hm, hr⟩
        rw [c1] at hm
        split_ifs at hm with h1 h2
        · rcases List.mem_cons.1 hm with rfl | hm
          · exact .inl (h1 ▸ hr)
          · exact .inr ⟨k, m, hm, hr⟩
        · rcases List.mem_cons.1 hm with rfl | hm
          · exact .inl ((raises_comm hA agents _ _).1 (h2 ▸ hr))
          · exact .inr ⟨k, m, hm, hr⟩
        · exact .inr ⟨k, m, hm, hr⟩
      · rintro (hr | ⟨k, m, hm, hr⟩)
        · exact ⟨p.1, p.2, by rw [c1, if_pos rfl]; simp, hr⟩
        · refine ⟨k, m, ?_, hr⟩
          rw [c1]
          split_ifs <;> simp [hm]
    rw [List.foldlM_cons]
    rcases interactionG_cases hA agents hne F with ⟨h1, h2⟩ | ⟨h1, h2⟩
    · rw [h2, if_pos (c2.2 (.inl h1))]
      rfl
    · rw [h2]
      simp only [bind, Except.bind]
      rw [ih]
      by_cases h3 : ∃ k, ∃ m ∈ partnersOf k ps, Raises A agents k m
      · rw [if_pos h3, if_pos (c2.2 (.inr h3))]
      · rw [if_neg h3, if_neg fun h => (c2.1 h).elim h1 h3]
        congr 1
        funext k
        rw [c1]
        split_ifs <;> rfl

theorem interactionsG_same {ps qs : List (Fin n × Fin n)} (h : SamePartners ps qs) (F : Fin n → F64 × F64) :
    agentAgentCircularG A agents ps F = agentAgentCircularG A agents qs F := by
  obtain ⟨h1, h2, h3⟩ := h
  rw [interactionsG_partners hA agents ps h1, interactionsG_partners hA agents qs h2]
  simp only [h3]

theorem updateI_same (walls : List Wall) (dtMin dtMax : ℝ) {inp inp' : StepInput n}
    (h : InputSamePartners inp inp') :
    updateI A walls dtMin dtMax inp' agents = updateI A walls dtMin dtMax inp agents := by
  obtain ⟨h1, h2, h3⟩ := h
  unfold updateI
  simp only [h1, h2, ← interactionsG_same hA agents h3]

theorem runI_same (walls : List Wall) (dtMin dtMax : ℝ) {inputs inputs' : List (StepInput n)}
    (h : List.Forall₂ InputSamePartners inputs inputs') :
    runI A walls dtMin dtMax inputs' agents = runI A walls dtMin dtMax inputs agents := by
  unfold runI
  induction h generalizing agents with
  | nil => rfl
  | cons h _ ih =>
    rename_i inp inp' _ _ _
    rw [List.foldlM_cons, List.foldlM_cons, updateI_same hA agents walls dtMin dtMax h]
    cases updateI A walls dtMin dtMax inp agents with
    | error _ => rfl
    | ok c => exact ih c

end CrowdDynamics
