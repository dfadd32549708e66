import Verif.Proofs.RoundedAngles

/-!
# Lemmas on the forces of a pair in floating point
-/

namespace CrowdDynamics

open Spec

variable {A : Arith}

theorem vecSubF_swap {rnd : ℝ → ℝ} (h : FairRounding rnd) (u v : Vec) :
    vecSubF rnd u v = -vecSubF rnd v u := by
  unfold vecSubF
  ext
  · simp only [Prod.fst_neg]; rw [← h.neg]; congr 1; ring
  · simp only [Prod.snd_neg]; rw [← h.neg]; congr 1; ring

theorem dotF_neg_neg (rnd : ℝ → ℝ) (u v : Vec) : dotF rnd (-u) (-v) = dotF rnd u v := by
  unfold dotF; simp

theorem truncateF_neg (h : FairRounding A.rnd) (hh : ∀ x y, A.hypot (-x) (-y) = A.hypot x y)
    (v : Vec) (l : ℝ) : truncateF A (-v) l = -truncateF A v l := by
  unfold truncateF lengthF
  simp only [Prod.fst_neg, Prod.snd_neg, hh]
  split_ifs
  · ext
    · simp only [Prod.fst_neg]; rw [neg_mul, h.neg]
    · simp only [Prod.snd_neg]; rw [neg_mul, h.neg]
  · rfl

theorem gradientCircleCircleF_neg {rnd : ℝ → ℝ} (h : FairRounding rnd) (x v : Vec) (a b d : ℝ) :
    gradientCircleCircleF rnd (-x) (-v) a b d = -gradientCircleCircleF rnd x v a b d := by
  have key : ∀ x v : ℝ,
      rnd (rnd (-v - rnd (rnd (rnd (-v * b) + rnd (-x * a)) / d)) / a) =
        -rnd (rnd (v - rnd (rnd (rnd (v * b) + rnd (x * a)) / d)) / a) := by
    intro x v
    rw [neg_mul, neg_mul, h.neg, h.neg, ← neg_add, h.neg, neg_div, h.neg, sub_neg_eq_add,
      show -v + rnd (rnd (rnd (v * b) + rnd (x * a)) / d) =
        -(v - rnd (rnd (rnd (v * b) + rnd (x * a)) / d)) by ring, h.neg, neg_div, h.neg]
  unfold gradientCircleCircleF
  ext
  · exact key x.1 v.1
  · exact key x.2 v.2

theorem socialForcesF_swap (h : FairRounding A.rnd)
    (hh : ∀ x y, A.hypot (-x) (-y) = A.hypot x y) (ai aj : Agent) (g : Vec) (tau : ℝ) :
    socialForcesF A aj ai (-g) tau = ((socialForcesF A ai aj g tau).2,
      (socialForcesF A ai aj g tau).1) := by
  unfold socialForcesF
  simp only [Prod.fst_neg, Prod.snd_neg, mul_neg, neg_mul, h.neg, neg_neg]

theorem forceSocialCircularF_swap (h : FairRounding A.rnd)
    (hh : ∀ x y, A.hypot (-x) (-y) = A.hypot x y) (ai aj : Agent) :
    forceSocialCircularF A aj ai =
      ((forceSocialCircularF A ai aj).2, (forceSocialCircularF A ai aj).1) := by
  unfold forceSocialCircularF
  rw [vecSubF_swap h aj.position ai.position, vecSubF_swap h aj.velocity ai.velocity,
    add_comm aj.radius ai.radius]
  simp only [dotF_neg_neg, gradientCircleCircleF_neg h, socialForcesF_swap h hh]
  split_ifs <;> rfl

theorem distanceCirclesF_swap (h : FairRounding A.rnd)
    (hh : ∀ x y, A.hypot (-x) (-y) = A.hypot x y) (x0 x1 : Vec) (r0 r1 : ℝ) :
    distanceCirclesF A x1 r1 x0 r0 =
      ((distanceCirclesF A x0 r0 x1 r1).1, -(distanceCirclesF A x0 r0 x1 r1).2) := by
  unfold distanceCirclesF lengthF
  rw [vecSubF_swap h x1 x0, add_comm r1 r0]
  simp only [Prod.fst_neg, Prod.snd_neg, hh]
  split_ifs
  · simp
  · simp only [neg_div, h.neg, Prod.neg_mk]

theorem forceContactF_neg {rnd : ℝ → ℝ} (h : FairRounding rnd) (d : ℝ) (n v t : Vec)
    (mu kappa damping : ℝ) :
    forceContactF rnd d (-n) (-v) (-t) mu kappa damping =
      -forceContactF rnd d n v t mu kappa damping := by
  have key : ∀ ni ti p q : ℝ,
      rnd (rnd (-d * rnd (rnd (mu * -ni) - rnd (p * -ti))) + rnd (q * -ni)) =
        -rnd (rnd (-d * rnd (rnd (mu * ni) - rnd (p * ti))) + rnd (q * ni)) := by
    intro ni ti p q
    rw [mul_neg, mul_neg, mul_neg, h.neg, h.neg, h.neg,
      show -rnd (mu * ni) - -rnd (p * ti) = -(rnd (mu * ni) - rnd (p * ti)) by ring, h.neg,
      mul_neg, h.neg, ← neg_add, h.neg]
  unfold forceContactF
  simp only [dotF_neg_neg, Prod.fst_neg, Prod.snd_neg, Prod.neg_mk]
  ext
  · exact key _ _ _ _
  · exact key _ _ _ _

theorem rotate270_neg (n : Vec) : rotate270 (-n) = -rotate270 n := by
  unfold rotate270; ext <;> simp

/-- The order of the pair does not matter. -/
theorem pairForcesF_swap (h : FairRounding A.rnd)
    (hh : ∀ x y, A.hypot (-x) (-y) = A.hypot x y) (ai aj : Agent) :
    pairForcesF A aj ai = (pairForcesF A ai aj).map fun f => (f.2, f.1) := by
  unfold pairForcesF
  rw [distanceCirclesF_swap h hh ai.position aj.position, forceSocialCircularF_swap h hh ai aj,
    vecSubF_swap h aj.velocity ai.velocity]
  simp only [rotate270_neg, forceContactF_neg h, Prod.fst_neg, Prod.snd_neg]
  split_ifs
  · simp only [Option.map_some]
    congr 1
    simp only [sub_neg_eq_add]
    rfl
  · rfl
  · rfl

/-- The parameters of the force laws. -/
theorem socialForcesF_opposite (h : FairRounding A.rnd)
    (hh : ∀ x y, A.hypot (-x) (-y) = A.hypot x y) {ai aj : Agent} (hm : ai.mass = aj.mass)
    (hk : ai.kSoc = aj.kSoc) (ht : ai.tau0 = aj.tau0) (g : Vec) (tau : ℝ) :
    (socialForcesF A ai aj g tau).2 = -(socialForcesF A ai aj g tau).1 := by
  unfold socialForcesF
  simp only [hm, hk, ht]
  rw [← truncateF_neg h hh]
  rfl

theorem forceSocialCircularF_opposite (h : FairRounding A.rnd)
    (hh : ∀ x y, A.hypot (-x) (-y) = A.hypot x y) {ai aj : Agent} (hm : ai.mass = aj.mass)
    (hk : ai.kSoc = aj.kSoc) (ht : ai.tau0 = aj.tau0) :
    (forceSocialCircularF A ai aj).2 = -(forceSocialCircularF A ai aj).1 := by
  unfold forceSocialCircularF
  simp only []
  split_ifs
  · simp
  · simp
  · simp
  · exact socialForcesF_opposite h hh hm hk ht _ _

theorem pairForcesF_opposite (h : FairRounding A.rnd)
    (hh : ∀ x y, A.hypot (-x) (-y) = A.hypot x y) {ai aj : Agent} (hm : ai.mass = aj.mass)
    (hk : ai.kSoc = aj.kSoc) (ht : ai.tau0 = aj.tau0) (hmu : ai.mu = aj.mu)
    (hka : ai.kappa = aj.kappa) (hd : ai.damping = aj.damping) {f g : Vec}
    (hf : pairForcesF A ai aj = some (f, g)) : g = -f := by
  have hs := forceSocialCircularF_opposite h hh hm hk ht
  unfold pairForcesF at hf
  simp only [hmu, hka, hd, hs] at hf
  split_ifs at hf
  · simp only [Option.some.injEq, Prod.mk.injEq] at hf
    obtain ⟨hf, hg⟩ := hf
    rw [← hf, ← hg]
    ext
    · simp only [Prod.fst_neg]; rw [← h.neg]; congr 1; ring
    · simp only [Prod.snd_neg]; rw [← h.neg]; congr 1; ring
  · simp only [Option.some.injEq] at hf
    rw [hf] at hs
    exact hs

/-! ## Exact arithmetic -/

theorem forceSocialCircularF_exact (ai aj : Agent) :
    forceSocialCircularF Arith.exact ai aj = forceSocialCircular ai aj := by
  have hsoc : ∀ g tau, socialForcesF Arith.exact ai aj g tau = socialForces ai aj g tau := by
    intro g tau
    have hmag : ∀ t0, magnitudeF Arith.exact tau t0 = magnitude tau t0 := by
      intro t0; unfold magnitudeF magnitude Arith.exact; simp only [id]; rw [pow_two]
    have htr : ∀ v : Vec, truncateF Arith.exact v fSocMax = truncate v fSocMax := by
      intro v; rfl
    unfold socialForcesF socialForces
    simp only [hmag, htr]
    unfold Arith.exact
    simp only [id]
    congr 2
    · ext <;> simp <;> ring
    · ext <;> simp <;> ring
  unfold forceSocialCircularF forceSocialCircular npSqrt
  simp only [hsoc]
  unfold Arith.exact vecSubF dotF gradientCircleCircleF
  simp only [id, dot, gradientCircleCircle, Prod.fst_sub, Prod.snd_sub]
  simp only [pow_two]
  by_cases h : (-((ai.position.1 - aj.position.1) * (ai.velocity.1 - aj.velocity.1) +
      (ai.position.2 - aj.position.2) * (ai.velocity.2 - aj.velocity.2)) *
      -((ai.position.1 - aj.position.1) * (ai.velocity.1 - aj.velocity.1) +
      (ai.position.2 - aj.position.2) * (ai.velocity.2 - aj.velocity.2)) -
      ((ai.velocity.1 - aj.velocity.1) * (ai.velocity.1 - aj.velocity.1) +
      (ai.velocity.2 - aj.velocity.2) * (ai.velocity.2 - aj.velocity.2)) *
      ((ai.position.1 - aj.position.1) * (ai.position.1 - aj.position.1) +
      (ai.position.2 - aj.position.2) * (ai.position.2 - aj.position.2) -
      (ai.radius + aj.radius) * (ai.radius + aj.radius))) < 0
  · rw [if_pos h, if_pos h]
  · rw [if_neg h, if_neg h]
    rfl

theorem interactionAgentAgentCircularF_exact {n : ℕ} (i j : Fin n) (agents : Crowd n) :
    interactionAgentAgentCircularF Arith.exact i j agents =
      interactionAgentAgentCircular i j agents := by
  have hd : ∀ x0 r0 x1 r1, distanceCirclesF Arith.exact x0 r0 x1 r1 =
      distanceCircles x0 r0 x1 r1 := by
    intro x0 r0 x1 r1; rfl
  have hc : ∀ h n v t mu kappa damping, forceContactF Arith.exact.rnd h n v t mu kappa damping =
      forceContact h n v t mu kappa damping := by
    intro h n v t mu kappa damping
    unfold forceContactF forceContact Arith.exact dotF dot
    simp only [id]
    ext <;> simp
  have hv : ∀ u v, vecSubF Arith.exact.rnd u v = u - v := by intro u v; rfl
  have ha : ∀ (agents : Crowd n) i f, addForceF Arith.exact.rnd agents i f = addForce agents i f := by
    intro agents i f; rfl
  unfold interactionAgentAgentCircularF interactionAgentAgentCircular pairForcesF
  simp only [hd, hc, hv, ha, forceSocialCircularF_exact]
  split_ifs with h1 h2
  · rfl
  · rfl
  · rfl

end CrowdDynamics
