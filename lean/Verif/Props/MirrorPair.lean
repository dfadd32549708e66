import Verif.Proofs.MirrorPair

/-!
# C210: mirror images stay mirror images in floating point
-/

namespace CrowdDynamics

open Spec

/-- **C210** Two circular agents without walls who are mirror images of each other, with respect to an axis, a
diagonal or the origin, in all their vectors and with the same parameters, are mirror images after any number of
updates, digit by digit, if their random forces and directions are. It does not matter in which order the cell
list yields the pair. Quarter turns are no reflections, so `swap` needs equal signs. -/
theorem C210_mirror {A : Arith} (hA : SignFree A) (hr : FairRounding A.rnd) (swap flip₁ flip₂ : Bool)
    (hs : swap = true → flip₁ = flip₂) (dtMin dtMax : ℝ) (xi direction : Fin 2 → Vec)
    (hx : xi 1 = axisMap swap flip₁ flip₂ (xi 0)) (hd : direction 1 = axisMap swap flip₁ flip₂ (direction 0))
    (pairs : List (Fin 2 × Fin 2)) (hp : ∀ p ∈ pairs, p.1 ≠ p.2) (agents : Crowd 2)
    (h : agents 1 = mapAgent (axisMap swap flip₁ flip₂) (agents 0)) (k : ℕ) :
    ∃ c, runF A [] dtMin dtMax xi direction pairs agents k = some c ∧
      c 1 = mapAgent (axisMap swap flip₁ flip₂) (c 0) := by
  have hh : ∀ x y, A.hypot (-x) (-y) = A.hypot x y := fun x y => by
    rw [hA.hypot, hA.swap, hA.hypot, hA.swap]
  refine mirror_run (axisLike hA swap flip₁ flip₂) (fun v => ?_) hr hh dtMin dtMax hx hd pairs hp h k
  cases swap
  · cases flip₁ <;> cases flip₂ <;> simp [axisMap]
  · obtain rfl := hs rfl
    cases flip₁ <;> simp [axisMap]

/-- **C210** In particular, if they are opposite with respect to the origin, the sums of their velocities and of
their positions are zero for ever, without any rounding error: together they do not drift. -/
theorem C210_no_drift (dtMin dtMax : ℝ) (xi direction : Fin 2 → Vec) (hx : xi 1 = -xi 0)
    (hd : direction 1 = -direction 0) (pairs : List (Fin 2 × Fin 2)) (hp : ∀ p ∈ pairs, p.1 ≠ p.2)
    (agents : Crowd 2) (h : agents 1 = mapAgent (fun v => -v) (agents 0)) (k : ℕ) :
    ∃ c, runF Arith.machine [] dtMin dtMax xi direction pairs agents k = some c ∧
      (c 0).position + (c 1).position = 0 ∧ (c 0).velocity + (c 1).velocity = 0 := by
  have e : axisMap false true true = fun v => -v := by
    funext v
    simp [axisMap]
    rfl
  obtain ⟨c, h1, h2⟩ := C210_mirror machine_signFree fair_fl64 false true true (by simp) dtMin dtMax xi direction
    (by rw [hx, e]) (by rw [hd, e]) pairs hp agents (by rw [h, e]) k
  rw [e] at h2
  exact ⟨c, h1, by rw [h2]; simp [mapAgent], by rw [h2]; simp [mapAgent]⟩

/-- Two agents who walk towards each other along the first axis. -/
example (a : Agent) (k : ℕ) : ∃ c,
    runF Arith.machine [] 0.001 0.01 (fun _ => 0) ![(1, 0), (-1, 0)] [(0, 1)]
      ![{ a with position := (-2, 0.1), velocity := (1, 0), force := 0, forcePrev := 0, targetDirection := (1, 0) },
        { a with position := (2, -0.1), velocity := (-1, 0), force := 0, forcePrev := 0, targetDirection := (-1, 0) }]
      k = some c ∧ (c 0).position + (c 1).position = 0 ∧ (c 0).velocity + (c 1).velocity = 0 :=
  C210_no_drift _ _ _ _ (by simp) (by simp) _ (by simp) _ (by simp [mapAgent]) k

end CrowdDynamics
