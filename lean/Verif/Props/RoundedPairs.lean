import Verif.Proofs.RoundedPairsCases
import Verif.Proofs.RoundedTotal

/-!
# Properties C166, C167: forces between agents in floating point
-/

namespace CrowdDynamics

open Spec

/-! ## C166: the two forces of a pair -/

/-- **C166** Whatever the rounding (as long as it is symmetric), the two forces that circular
agents with the same parameters exert on each other are exact opposites: Newton's third law
holds without any rounding error. -/
theorem C166_opposite (A : Arith) (h : FairRounding A.rnd)
    (hh : ∀ x y, A.hypot (-x) (-y) = A.hypot x y) (ai aj : Agent) (hm : ai.mass = aj.mass)
    (hk : ai.kSoc = aj.kSoc) (ht : ai.tau0 = aj.tau0) (hmu : ai.mu = aj.mu)
    (hka : ai.kappa = aj.kappa) (hd : ai.damping = aj.damping) (f g : Vec)
    (hf : pairForcesF A ai aj = some (f, g)) : g = -f :=
  pairForcesF_opposite h hh hm hk ht hmu hka hd hf

/-- **C166** The order of the two agents has no influence on the forces, not even in the last
digit. The parameters of the agents may differ. -/
theorem C166_order (A : Arith) (h : FairRounding A.rnd)
    (hh : ∀ x y, A.hypot (-x) (-y) = A.hypot x y) (ai aj : Agent) :
    pairForcesF A aj ai = (pairForcesF A ai aj).map fun f => (f.2, f.1) :=
  pairForcesF_swap h hh ai aj

/-- **C166** The interaction adds these forces to the two agents and leaves all others alone. -/
theorem C166_interaction {n : ℕ} (A : Arith) (i j : Fin n) (hij : i ≠ j) (agents : Crowd n)
    (f g : Vec) (hf : pairForcesF A (agents i) (agents j) = some (f, g)) :
    (interactionAgentAgentCircularF A i j agents i).force =
      (A.rnd ((agents i).force.1 + f.1), A.rnd ((agents i).force.2 + f.2)) ∧
    (interactionAgentAgentCircularF A i j agents j).force =
      (A.rnd ((agents j).force.1 + g.1), A.rnd ((agents j).force.2 + g.2)) ∧
    ∀ k, k ≠ i → k ≠ j → interactionAgentAgentCircularF A i j agents k = agents k := by
  unfold interactionAgentAgentCircularF
  rw [hf]
  unfold addForceF
  refine ⟨?_, ?_, fun k hi hj => ?_⟩
  · simp only []; rw [Function.update_of_ne hij, Function.update_self]
  · simp only []; rw [Function.update_self, Function.update_of_ne hij.symm]
  · simp only []; rw [Function.update_of_ne hj, Function.update_of_ne hi]

/-- **C166** With exact arithmetic the interaction is that of C29. -/
theorem C166_exact {n : ℕ} (i j : Fin n) (agents : Crowd n) :
    interactionAgentAgentCircularF Arith.exact i j agents =
      interactionAgentAgentCircular i j agents :=
  interactionAgentAgentCircularF_exact i j agents

/-- The arithmetic of `float64` meets the hypotheses. -/
example : FairRounding Arith.machine.rnd ∧
    ∀ x y, Arith.machine.hypot (-x) (-y) = Arith.machine.hypot x y := by
  refine ⟨fair_fl64, fun x y => ?_⟩
  unfold Arith.machine
  simp only [neg_sq]

/-- The hypotheses of C166 hold for these two agents. -/
example : ∃ (ai aj : Agent) (f g : Vec), ai.mass = aj.mass ∧ ai.kSoc = aj.kSoc ∧
    ai.tau0 = aj.tau0 ∧ ai.mu = aj.mu ∧ ai.kappa = aj.kappa ∧ ai.damping = aj.damping ∧
    pairForcesF Arith.machine ai aj = some (f, g) ∧ f ≠ 0 :=
  ⟨axisAgent 0 (1 / 2), axisAgent (1 / 2) (1 / 2), (-1 / 2, 0), (1 / 2, 0), rfl, rfl, rfl, rfl,
    rfl, rfl, overlapping_pair, by
    intro h; have := congrArg Prod.fst h; norm_num at this⟩

/-! ## C167: the total force -/

/-- The full statement: if all agents have the same parameters, their interactions do not change
the sum of all forces. -/
def C167_statement : Prop :=
  ∀ (n : ℕ) (agents : Crowd n) (pairs : List (Fin n × Fin n)),
    (∀ p ∈ pairs, p.1 ≠ p.2) →
    (∀ i j, (agents i).mass = (agents j).mass ∧ (agents i).kSoc = (agents j).kSoc ∧
      (agents i).tau0 = (agents j).tau0 ∧ (agents i).mu = (agents j).mu ∧
      (agents i).kappa = (agents j).kappa ∧ (agents i).damping = (agents j).damping) →
    ∑ i, (agentAgentCircularF Arith.machine agents pairs i).force.1 = ∑ i, (agents i).force.1

/-- **C167** False in floating point: of three agents in a row the middle one is pushed strongly
from the left and weakly from the right; the weak push is lost in the sum of its forces, but not
in the force of its right neighbour. -/
theorem C167_total_fails : ¬ C167_statement := by
  intro h
  have hfl : ∀ (m e : ℤ) (x : ℝ), |m| < 2 ^ 53 → -1074 ≤ e → x = m * (2 : ℝ) ^ e → fl64 x = x := by
    intro m e x h1 h2 h3; rw [h3]; exact fl64_of_mul h1 h2
  obtain ⟨x2, hx2⟩ : ∃ x2 : ℝ, 1 / 8 - (2 : ℝ) ^ (-56 : ℤ) = x2 := ⟨_, rfl⟩
  have hx2' : x2 = 9007199254740991 * (2 : ℝ) ^ (-56 : ℤ) := by rw [← hx2]; norm_num
  have h3 := h 3 ![axisAgent (-1) (147 / 128), axisAgent 0 (15 / 128), axisAgent x2 (1 / 128)]
    [(0, 1), (1, 2), (0, 2)] (by decide) (by
      intro i j
      fin_cases i <;> fin_cases j <;> exact ⟨rfl, rfl, rfl, rfl, rfl, rfl⟩)
  -- the three pairs
  have p01 := fun fi fj => axis_pair (xi := -1) (xj := 0) (ri := 147 / 128) (rj := 15 / 128)
    (D := 1) (R := 81 / 64) (h := -17 / 64)
    (by rw [hfl (-1) 0 _ (by norm_num) (by norm_num) (by norm_num)]; norm_num) (by norm_num)
    (by rw [hfl 81 (-6) _ (by norm_num) (by norm_num) (by norm_num)]; norm_num)
    (by rw [hfl (-17) (-6) _ (by norm_num) (by norm_num) (by norm_num)]; norm_num)
    (by norm_num) fi fj
  have p12 := fun fi fj => axis_pair (xi := 0) (xj := x2) (ri := 15 / 128) (rj := 1 / 128)
    (D := x2) (R := 1 / 8) (h := -(2 : ℝ) ^ (-56 : ℤ))
    (by rw [zero_sub, hfl (-9007199254740991) (-56) _ (by norm_num) (by norm_num)
      (by rw [hx2']; norm_num)]) (by rw [hx2']; positivity)
    (by rw [hfl 1 (-3) _ (by norm_num) (by norm_num) (by norm_num)]; norm_num)
    (by rw [hfl (-1) (-56) _ (by norm_num) (by norm_num) (by rw [hx2']; norm_num), hx2']
        norm_num)
    (by norm_num) fi fj
  have p02 := fun fi fj => axis_pair (xi := -1) (xj := x2) (ri := 147 / 128) (rj := 1 / 128)
    (D := 9 / 8) (R := 37 / 32) (h := -1 / 32)
    (by
      have := fl64_eq_of_near (x := -1 - x2) (m := -5066549580791808) (e := -52)
        (by rw [hx2']; norm_num) (by rw [hx2']; norm_num) (by norm_num)
        (by rw [hx2', abs_lt]; norm_num)
      rw [this]; norm_num) (by norm_num)
    (by rw [hfl 37 (-5) _ (by norm_num) (by norm_num) (by norm_num)]; norm_num)
    (by rw [hfl (-1) (-5) _ (by norm_num) (by norm_num) (by norm_num)]; norm_num)
    (by norm_num) fi fj
  -- the sums
  have s0 : fl64 (0 + -17 / 64) = -17 / 64 := by
    rw [hfl (-17) (-6) _ (by norm_num) (by norm_num) (by norm_num)]; norm_num
  have s1 : fl64 (0 + -(-17 / 64)) = 17 / 64 := by
    rw [hfl 17 (-6) _ (by norm_num) (by norm_num) (by norm_num)]; norm_num
  have s2 : fl64 (17 / 64 + -(2 : ℝ) ^ (-56 : ℤ)) = 17 / 64 := by
    have := fl64_eq_of_near (x := 17 / 64 + -(2 : ℝ) ^ (-56 : ℤ)) (m := 4785074604081152)
      (e := -54) (by norm_num) (by norm_num) (by norm_num) (by rw [abs_lt]; norm_num)
    rw [this]; norm_num
  have s3 : fl64 (0 + - -(2 : ℝ) ^ (-56 : ℤ)) = 2 ^ (-56 : ℤ) := by
    rw [hfl 1 (-56) _ (by norm_num) (by norm_num) (by norm_num)]; norm_num
  have s4 : fl64 (-17 / 64 + -1 / 32) = -19 / 64 := by
    rw [hfl (-19) (-6) _ (by norm_num) (by norm_num) (by norm_num)]; norm_num
  have s5 : fl64 ((2 : ℝ) ^ (-56 : ℤ) + -(-1 / 32)) = 2 ^ (-56 : ℤ) + 1 / 32 := by
    rw [hfl 2251799813685249 (-56) _ (by norm_num) (by norm_num) (by norm_num)]; norm_num
  have z0 : fl64 (0 + 0) = 0 := by rw [add_zero, fl64_zero]
  have z1 : fl64 (0 + -0) = 0 := by rw [neg_zero, add_zero, fl64_zero]
  obtain ⟨base, hb⟩ : ∃ base : Crowd 3, ![axisAgent (-1) (147 / 128), axisAgent 0 (15 / 128),
    axisAgent x2 (1 / 128)] = base := ⟨_, rfl⟩
  have hstart : base = pushed base ![0, 0, 0] := by
    rw [← hb]; funext k; fin_cases k <;> rfl
  have t1 := pushed_step (i := 0) (j := 1) (by decide) base ![0, 0, 0]
    (by rw [← hb]; exact p01 (0, 0) (0, 0))
  have e1 : Function.update (Function.update ![0, 0, 0] 0 (fl64 ((![0, 0, 0] : Fin 3 → ℝ) 0 +
      -17 / 64))) 1 (fl64 ((![0, 0, 0] : Fin 3 → ℝ) 1 + -(-17 / 64))) =
      ![-17 / 64, 17 / 64, (0 : ℝ)] := by
    funext k; fin_cases k
    · exact s0
    · exact s1
    · rfl
  rw [e1] at t1
  have t2 := pushed_step (i := 1) (j := 2) (by decide) base ![-17 / 64, 17 / 64, 0]
    (by rw [← hb]; exact p12 (17 / 64, 0) (0, 0))
  have e2 : Function.update (Function.update ![-17 / 64, 17 / 64, 0] 1
      (fl64 ((![-17 / 64, 17 / 64, 0] : Fin 3 → ℝ) 1 + -(2 : ℝ) ^ (-56 : ℤ)))) 2
      (fl64 ((![-17 / 64, 17 / 64, 0] : Fin 3 → ℝ) 2 + - -(2 : ℝ) ^ (-56 : ℤ))) =
      ![-17 / 64, 17 / 64, (2 : ℝ) ^ (-56 : ℤ)] := by
    funext k; fin_cases k
    · rfl
    · exact s2
    · exact s3
  rw [e2] at t2
  have t3 := pushed_step (i := 0) (j := 2) (by decide) base
    ![-17 / 64, 17 / 64, (2 : ℝ) ^ (-56 : ℤ)]
    (by rw [← hb]; exact p02 (-17 / 64, 0) ((2 : ℝ) ^ (-56 : ℤ), 0))
  have e3 : Function.update (Function.update ![-17 / 64, 17 / 64, (2 : ℝ) ^ (-56 : ℤ)] 0
      (fl64 ((![-17 / 64, 17 / 64, (2 : ℝ) ^ (-56 : ℤ)] : Fin 3 → ℝ) 0 + -1 / 32))) 2
      (fl64 ((![-17 / 64, 17 / 64, (2 : ℝ) ^ (-56 : ℤ)] : Fin 3 → ℝ) 2 + -(-1 / 32))) =
      ![-19 / 64, 17 / 64, (2 : ℝ) ^ (-56 : ℤ) + 1 / 32] := by
    funext k; fin_cases k
    · exact s4
    · rfl
    · exact s5
  rw [e3] at t3
  rw [hb] at h3
  have hend : agentAgentCircularF Arith.machine base [(0, 1), (1, 2), (0, 2)] =
      pushed base ![-19 / 64, 17 / 64, (2 : ℝ) ^ (-56 : ℤ) + 1 / 32] := by
    unfold agentAgentCircularF
    simp only [List.foldl_cons, List.foldl_nil]
    have t1' : interactionAgentAgentCircularF Arith.machine 0 1 base =
        pushed base ![-17 / 64, 17 / 64, 0] := by rw [← t1, ← hstart]
    rw [t1', t2, t3]
  rw [hend] at h3
  rw [hstart] at h3
  simp only [pushed, Fin.sum_univ_three] at h3
  simp at h3
  norm_num at h3

/-- **C167** One interaction changes the sum of the forces by no more than the rounding errors of
the two additions. -/
theorem C167_total_partial {n : ℕ} (i j : Fin n) (hij : i ≠ j) (agents : Crowd n)
    (hm : (agents i).mass = (agents j).mass) (hk : (agents i).kSoc = (agents j).kSoc)
    (ht : (agents i).tau0 = (agents j).tau0) (hmu : (agents i).mu = (agents j).mu)
    (hka : (agents i).kappa = (agents j).kappa) (hd : (agents i).damping = (agents j).damping)
    (f g : Vec) (hf : pairForcesF Arith.machine (agents i) (agents j) = some (f, g)) :
    |∑ k, (interactionAgentAgentCircularF Arith.machine i j agents k).force.1 -
      ∑ k, (agents k).force.1| ≤
      (|(agents i).force.1 + f.1| + |(agents j).force.1 - f.1|) * 2 ^ (-53 : ℤ) +
        2 ^ (-1074 : ℤ) := by
  have hfair := fair_fl64
  have hhyp : ∀ x y, Arith.machine.hypot (-x) (-y) = Arith.machine.hypot x y := by
    intro x y; unfold Arith.machine; simp only [neg_sq]
  have hg := pairForcesF_opposite (A := Arith.machine) hfair hhyp hm hk ht hmu hka hd hf
  have hr : Arith.machine.rnd = fl64 := rfl
  unfold interactionAgentAgentCircularF
  rw [hf]
  simp only [sum_addForceF, hr]
  have hj : (addForceF fl64 agents i f j) = agents j := by
    unfold addForceF; rw [Function.update_of_ne hij.symm]
  rw [hj, hg]
  have e1 := fl64_err_gen ((agents i).force.1 + f.1)
  have e2 := fl64_err_gen ((agents j).force.1 - f.1)
  have hn : (agents j).force.1 + (-f).1 = (agents j).force.1 - f.1 := by
    rw [Prod.fst_neg]; ring
  rw [hn]
  have e3 : (2 : ℝ) ^ (-1074 : ℤ) = 2 ^ (-1075 : ℤ) + 2 ^ (-1075 : ℤ) := by
    rw [show (-1074 : ℤ) = -1075 + 1 by norm_num, zpow_add₀ (by norm_num), zpow_one]; ring
  rw [e3]
  rw [abs_le] at e1 e2 ⊢
  constructor <;> linarith [e1.1, e1.2, e2.1, e2.2]

/-- **C167** The first interaction of agents without forces does not change the sum at all. -/
theorem C167_single_partial {n : ℕ} (i j : Fin n) (hij : i ≠ j) (agents : Crowd n)
    (hi : (agents i).force = 0) (hj : (agents j).force = 0)
    (hm : (agents i).mass = (agents j).mass) (hk : (agents i).kSoc = (agents j).kSoc)
    (ht : (agents i).tau0 = (agents j).tau0) (hmu : (agents i).mu = (agents j).mu)
    (hka : (agents i).kappa = (agents j).kappa) (hd : (agents i).damping = (agents j).damping) :
    ∑ k, (interactionAgentAgentCircularF Arith.machine i j agents k).force.1 =
      ∑ k, (agents k).force.1 := by
  cases hf : pairForcesF Arith.machine (agents i) (agents j) with
  | none => unfold interactionAgentAgentCircularF; rw [hf]
  | some fg =>
    obtain ⟨f, g⟩ := fg
    have hfair := fair_fl64
    have hhyp : ∀ x y, Arith.machine.hypot (-x) (-y) = Arith.machine.hypot x y := by
      intro x y; unfold Arith.machine; simp only [neg_sq]
    have hg := pairForcesF_opposite (A := Arith.machine) hfair hhyp hm hk ht hmu hka hd hf
    have hr : Arith.machine.rnd = fl64 := rfl
    unfold interactionAgentAgentCircularF
    rw [hf]
    simp only [sum_addForceF, hr]
    have hj' : (addForceF fl64 agents i f j) = agents j := by
      unfold addForceF; rw [Function.update_of_ne hij.symm]
    rw [hj', hg, hi, hj]
    simp only [Prod.fst_zero, Prod.fst_neg, zero_add, sub_zero, fl64_neg]
    ring

/-- Three agents with the same parameters, two of which overlap. -/
example : ∃ agents : Crowd 3, (agents 0).force = 0 ∧ (agents 1).force = 0 ∧
    (∀ i j, (agents i).mass = (agents j).mass ∧ (agents i).kSoc = (agents j).kSoc ∧
      (agents i).tau0 = (agents j).tau0 ∧ (agents i).mu = (agents j).mu ∧
      (agents i).kappa = (agents j).kappa ∧ (agents i).damping = (agents j).damping) ∧
    pairForcesF Arith.machine (agents 0) (agents 1) = some ((-1 / 2, 0), (1 / 2, 0)) := by
  refine ⟨![axisAgent 0 (1 / 2), axisAgent (1 / 2) (1 / 2), axisAgent 3 (1 / 4)], rfl, rfl, ?_,
    overlapping_pair⟩
  intro i j
  fin_cases i <;> fin_cases j <;> exact ⟨rfl, rfl, rfl, rfl, rfl, rfl⟩

end CrowdDynamics
