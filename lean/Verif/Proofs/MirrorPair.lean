import Verif.Proofs.GridSymmetryMachine
import Verif.Proofs.RoundedPairs

/-!
# Two agents who are mirror images
-/

namespace CrowdDynamics

open Spec

variable {A : Arith} {g : Vec → Vec}

lemma mapAgent_twice (hg : ∀ v, g (g v) = v) (a : Agent) : mapAgent g (mapAgent g a) = a := by
  simp only [mapAgent, hg]

lemma mirror_forces (H : AxisLike A g) (hg : ∀ v, g (g v) = v) (h : FairRounding A.rnd)
    (hh : ∀ x y, A.hypot (-x) (-y) = A.hypot x y) {a : Agent} {f : Vec × Vec}
    (hf : pairForcesF A a (mapAgent g a) = some f) : f.2 = g f.1 := by
  have e1 := pairForcesF_swap h hh a (mapAgent g a)
  have e2 := H.pair a (mapAgent g a)
  rw [mapAgent_twice hg, e1, hf, Option.map_some, Option.map_some, Option.some_inj] at e2
  exact congrArg Prod.fst e2

lemma fin_two_cases {i j : Fin 2} (h : i ≠ j) : i = 0 ∧ j = 1 ∨ i = 1 ∧ j = 0 := by
  revert h
  revert i j
  decide

lemma mirror_interaction (H : AxisLike A g) (hg : ∀ v, g (g v) = v) (h : FairRounding A.rnd)
    (hh : ∀ x y, A.hypot (-x) (-y) = A.hypot x y) {i j : Fin 2} (hij : i ≠ j) {c : Crowd 2}
    (hc : c 1 = mapAgent g (c 0)) :
    interactionAgentAgentCircularF A i j c 1 = mapAgent g (interactionAgentAgentCircularF A i j c 0) := by
  have hc' : c 0 = mapAgent g (c 1) := by rw [hc, mapAgent_twice hg]
  unfold interactionAgentAgentCircularF
  rcases fin_two_cases hij with ⟨rfl, rfl⟩ | ⟨rfl, rfl⟩
  · cases hf : pairForcesF A (c 0) (c 1) with
    | none => exact hc
    | some f =>
      have e := mirror_forces H hg h hh (by rw [← hc]; exact hf)
      simp only [addForceF, Function.update_self, Function.update_of_ne (by decide : (0 : Fin 2) ≠ 1),
        Function.update_of_ne (by decide : (1 : Fin 2) ≠ 0)]
      rw [hc, e]
      simp only [mapAgent, H.add]
  · cases hf : pairForcesF A (c 1) (c 0) with
    | none => exact hc
    | some f =>
      have e := mirror_forces H hg h hh (by rw [← hc']; exact hf)
      simp only [addForceF, Function.update_self, Function.update_of_ne (by decide : (0 : Fin 2) ≠ 1),
        Function.update_of_ne (by decide : (1 : Fin 2) ≠ 0)]
      have e' : f.1 = g f.2 := by rw [e, hg]
      rw [hc, e']
      simp only [mapAgent, H.add]

lemma mirror_interactions (H : AxisLike A g) (hg : ∀ v, g (g v) = v) (h : FairRounding A.rnd)
    (hh : ∀ x y, A.hypot (-x) (-y) = A.hypot x y) (pairs : List (Fin 2 × Fin 2)) (hp : ∀ p ∈ pairs, p.1 ≠ p.2)
    {c : Crowd 2} (hc : c 1 = mapAgent g (c 0)) :
    agentAgentCircularF A c pairs 1 = mapAgent g (agentAgentCircularF A c pairs 0) := by
  unfold agentAgentCircularF
  induction pairs generalizing c with
  | nil => exact hc
  | cons p ps ih =>
    rw [List.foldl_cons]
    exact ih (fun q hq => hp q (List.mem_cons_of_mem _ hq))
      (mirror_interaction H hg h hh (hp p List.mem_cons_self) hc)

lemma mirror_update (H : AxisLike A g) (hg : ∀ v, g (g v) = v) (h : FairRounding A.rnd)
    (hh : ∀ x y, A.hypot (-x) (-y) = A.hypot x y) (dtMin dtMax : ℝ) {xi direction : Fin 2 → Vec}
    (hx : xi 1 = g (xi 0)) (hd : direction 1 = g (direction 0)) (pairs : List (Fin 2 × Fin 2))
    (hp : ∀ p ∈ pairs, p.1 ≠ p.2) {c : Crowd 2} (hc : c 1 = mapAgent g (c 0)) :
    ∃ d, updateF A [] dtMin dtMax xi direction pairs c = some d ∧ d 1 = mapAgent g (d 0) := by
  have z : g (0 : Vec) = 0 := H.zero
  have nowall : ∀ c : Crowd 2, agentCircularObstacleF A c [] = some c := by
    intro c
    unfold agentCircularObstacleF
    simp only [List.foldlM_nil]
    exact (List.finRange 2).rec (motive := fun l => l.foldlM (fun c _ => (pure c : Option (Crowd 2))) c = some c)
      rfl (fun _ _ ih => ih)
  unfold updateF
  simp only [nowall]
  refine ⟨_, rfl, ?_⟩
  rw [mirror_interactions H hg h hh pairs hp, H.verlet]
  · simp only [mapAgent, z]
  · rw [hc, hx, hd, ← H.adjust]
    congr 1
    simp only [mapAgent, H.add]

lemma mirror_run (H : AxisLike A g) (hg : ∀ v, g (g v) = v) (h : FairRounding A.rnd)
    (hh : ∀ x y, A.hypot (-x) (-y) = A.hypot x y) (dtMin dtMax : ℝ) {xi direction : Fin 2 → Vec}
    (hx : xi 1 = g (xi 0)) (hd : direction 1 = g (direction 0)) (pairs : List (Fin 2 × Fin 2))
    (hp : ∀ p ∈ pairs, p.1 ≠ p.2) {c : Crowd 2} (hc : c 1 = mapAgent g (c 0)) (k : ℕ) :
    ∃ d, runF A [] dtMin dtMax xi direction pairs c k = some d ∧ d 1 = mapAgent g (d 0) := by
  induction k with
  | zero => exact ⟨c, rfl, hc⟩
  | succ k ih =>
    obtain ⟨d, e, hd'⟩ := ih
    rw [runF, e, Option.bind_some]
    exact mirror_update H hg h hh dtMin dtMax hx hd pairs hp hd'

end CrowdDynamics
