import Verif.Spec.PairTurn
import Verif.Proofs.IeeeSymmetry
import Verif.Proofs.IeeeCrowd

/-!
# Which of two agents a pair names first: helper lemmas
-/

namespace CrowdDynamics

open Spec
open scoped Classical

theorem vnegI_vnegI (v : F64 × F64) : vnegI (vnegI v) = v := by
  simp [vnegI, F64.neg_neg']

theorem negLikeI {A : Arith} (h : SignFree A) : AxisLikeI A (axisMap false true true) vnegI := by
  have e : vnegI = axisMapI false true true := by
    funext v
    simp [axisMapI, vnegI]
  rw [e]
  exact axisLikeI h false true true

theorem vsubI_turn {rnd : ℝ → ℝ} (o : ∀ x, rnd (-x) = -rnd x) (u v : F64 × F64) :
    vsubI rnd v u = vnegI (vsubI rnd u v) := by
  have h : ∀ x y : F64, y.sub rnd x = (x.sub rnd y).neg := fun x y => by
    unfold F64.sub
    rw [← F64.add_neg' o, F64.neg_neg', F64.add_comm']
  simp only [vsubI, vnegI, ← h]

theorem sdiv_error {rnd : ℝ → ℝ} {x y : F64} {e : PyErr} (h : x.sdiv rnd y = .error e) : e = .other := by
  unfold F64.sdiv at h
  split_ifs at h
  exact (Except.error.inj h).symm

theorem magnitudeI_error {A : Arith} {x y : F64} {e : PyErr} (h : magnitudeI A x y = .error e) :
    e = .other := by
  unfold magnitudeI at h
  simp only [bind, Except.bind] at h
  split at h
  · rename_i h'
    rw [← Except.error.inj h]
    exact sdiv_error h'
  · split at h
    · rename_i h'
      rw [← Except.error.inj h]
      exact sdiv_error h'
    · split at h
      · rename_i h'
        rw [← Except.error.inj h]
        exact sdiv_error h'
      · exact sdiv_error h

theorem truncateI_error {A : Arith} {v : F64 × F64} {l : F64} {e : PyErr} (h : truncateI A v l = .error e) :
    e = .other := by
  unfold truncateI at h
  simp only [bind, Except.bind] at h
  split_ifs at h
  split at h
  · rename_i h'
    rw [← Except.error.inj h]
    exact sdiv_error h'
  · cases h

variable {A : Arith} (hA : SignFree A)

include hA

theorem social_turn (ai aj : AgentI) :
    forceSocialCircularG A aj ai = (forceSocialCircularG A ai aj).map Prod.swap := by
  have H := negLikeI hA
  have p : ∀ (a : AgentI) grad m, socialPartG A a (vnegI grad) m = vnegI (socialPartG A a grad m) :=
    fun a grad m => H.part a grad m
  unfold forceSocialCircularG
  simp only [vsubI_turn hA.rnd ai.position aj.position, vsubI_turn hA.rnd ai.velocity aj.velocity, H.dot,
    F64.add_comm' (rnd := A.rnd) (.num aj.radius) (.num ai.radius), H.gradient, p]
  split_ifs
  · rfl
  · simp only [bind, Except.bind]
    generalize F64.sdiv _ _ _ = T
    cases T with
    | error _ => rfl
    | ok tau =>
      dsimp only
      split_ifs
      · rfl
      · cases hi : magnitudeI A tau (.num ai.tau0) with
        | error e =>
          obtain rfl := magnitudeI_error hi
          cases hj : magnitudeI A tau (.num aj.tau0) with
          | error e =>
            obtain rfl := magnitudeI_error hj
            rfl
          | ok m => rfl
        | ok mi =>
          cases hj : magnitudeI A tau (.num aj.tau0) with
          | error e => rfl
          | ok mj =>
            dsimp only
            generalize gradientI A.rnd _ _ _ _ _ = G
            have e1 : ((vnegI (socialPartG A ai G mi)).1.neg, (vnegI (socialPartG A ai G mi)).2.neg) =
                socialPartG A ai G mi := vnegI_vnegI _
            have e2 : ((socialPartG A aj G mj).1.neg, (socialPartG A aj G mj).2.neg) =
                vnegI (socialPartG A aj G mj) := rfl
            rw [e1, e2]
            cases h1 : truncateI A (vnegI (socialPartG A aj G mj)) (.num fSocMax) with
            | error e =>
              obtain rfl := truncateI_error h1
              cases h2 : truncateI A (socialPartG A ai G mi) (.num fSocMax) with
              | error e =>
                obtain rfl := truncateI_error h2
                rfl
              | ok f => rfl
            | ok f =>
              cases h2 : truncateI A (socialPartG A ai G mi) (.num fSocMax) with
              | error e => rfl
              | ok f' => rfl

theorem pairG_turn (ai aj : AgentI) :
    pairForcesG A aj ai = (pairForcesG A ai aj).map (Option.map Prod.swap) := by
  have H := negLikeI hA
  have hs := social_turn hA ai aj
  have hd : distanceCirclesG A aj.position aj.radius ai.position ai.radius =
      ((distanceCirclesG A ai.position ai.radius aj.position aj.radius).1,
        vnegI (distanceCirclesG A ai.position ai.radius aj.position aj.radius).2) := by
    unfold distanceCirclesG
    simp only [vsubI_turn hA.rnd ai.position aj.position, H.len, H.div,
      F64.add_comm' (rnd := A.rnd) (.num aj.radius) (.num ai.radius)]
    congr 1
    split_ifs
    · exact H.zero.symm
    · rfl
  unfold pairForcesG
  simp only [hs, hd, vsubI_turn hA.rnd ai.velocity aj.velocity, H.contact_turned]
  have c1 : ∀ u v : F64 × F64, vaddI A.rnd u (vnegI v) = vsubI A.rnd u v := fun _ _ => rfl
  have c2 : ∀ u v : F64 × F64, vsubI A.rnd u (vnegI v) = vaddI A.rnd u v := fun u v => by
    simp [vsubI, vaddI, vnegI, F64.sub, F64.neg_neg']
  simp only [c1, c2]
  split_ifs
  · cases forceSocialCircularG A ai aj with
    | error _ => rfl
    | ok f => rfl
  · cases forceSocialCircularG A ai aj with
    | error _ => rfl
    | ok f => rfl
  · rfl

theorem interactionG_turn {n : ℕ} (agents : Fin n → AgentI) {i j : Fin n} (h : i ≠ j) (F : Fin n → F64 × F64) :
    interactionAgentAgentCircularG A agents j i F = interactionAgentAgentCircularG A agents i j F := by
  unfold interactionAgentAgentCircularG
  rw [pairG_turn hA (agents i) (agents j)]
  cases pairForcesG A (agents i) (agents j) with
  | error _ => rfl
  | ok f =>
    cases f with
    | none => rfl
    | some f =>
      simp only [bind, Except.bind, Except.map, Option.map_some, Prod.fst_swap, Prod.snd_swap]
      congr 1
      unfold addForceI
      rw [Function.update_of_ne h, Function.update_of_ne h.symm, Function.update_comm h]

theorem interactionsG_turn {n : ℕ} (agents : Fin n → AgentI) {ps qs : List (Fin n × Fin n)}
    (h : PairsUpToTurn ps qs) (F : Fin n → F64 × F64) :
    agentAgentCircularG A agents ps F = agentAgentCircularG A agents qs F := by
  unfold agentAgentCircularG
  unfold PairsUpToTurn at h
  induction h generalizing F with
  | nil => rfl
  | cons h _ ih =>
    rename_i p q ps qs _
    have e : interactionAgentAgentCircularG A agents p.1 p.2 F =
        interactionAgentAgentCircularG A agents q.1 q.2 F := by
      obtain ⟨hne, rfl | rfl⟩ := h
      · rfl
      · exact (interactionG_turn hA agents hne F).symm
    rw [List.foldlM_cons, List.foldlM_cons, e]
    cases interactionAgentAgentCircularG A agents q.1 q.2 F with
    | error _ => rfl
    | ok F' => exact ih F'

theorem updateI_turn {n : ℕ} (walls : List Wall) (dtMin dtMax : ℝ) {inp inp' : StepInput n}
    (h : InputUpToTurn inp inp') (agents : Fin n → AgentI) :
    updateI A walls dtMin dtMax inp' agents = updateI A walls dtMin dtMax inp agents := by
  obtain ⟨h1, h2, h3⟩ := h
  unfold updateI
  simp only [h1, h2, ← interactionsG_turn hA agents h3]

theorem runI_turn {n : ℕ} (walls : List Wall) (dtMin dtMax : ℝ) {inputs inputs' : List (StepInput n)}
    (h : List.Forall₂ InputUpToTurn inputs inputs') (agents : Fin n → AgentI) :
    runI A walls dtMin dtMax inputs' agents = runI A walls dtMin dtMax inputs agents := by
  unfold runI
  induction h generalizing agents with
  | nil => rfl
  | cons h _ ih =>
    rename_i inp inp' _ _ _
    rw [List.foldlM_cons, List.foldlM_cons, updateI_turn hA walls dtMin dtMax h]
    cases updateI A walls dtMin dtMax inp agents with
    | error _ => rfl
    | ok c => exact ih c

end CrowdDynamics
