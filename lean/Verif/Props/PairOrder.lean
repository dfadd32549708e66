import Verif.Proofs.PairOrder

/-!
# C211: the order in which pairs are taken
-/

namespace CrowdDynamics

open Spec

/-- The full statement: the order in which the cell list yields the pairs of neighbours, and with it the numbering
of the agents, has no influence on the computed forces. -/
def C211_statement : Prop :=
  ∀ (n : ℕ) (agents : Crowd n) (pairs pairs' : List (Fin n × Fin n)), (∀ p ∈ pairs, p.1 ≠ p.2) →
    pairs.Perm pairs' → agentAgentCircularF Arith.machine agents pairs = agentAgentCircularF Arith.machine agents pairs'

/-- **C211** False in floating point: an agent on whom a force acts already gets one neighbour that cancels it and
one that pushes weakly. If the weak push comes first it is lost, otherwise it is what remains. -/
theorem C211_fails : ¬ C211_statement := by
  intro h
  have hfl : ∀ (m e : ℤ) (x : ℝ), |m| < 2 ^ 53 → -1074 ≤ e → x = m * (2 : ℝ) ^ e → fl64 x = x := by
    intro m e x h1 h2 h3; rw [h3]; exact fl64_of_mul h1 h2
  obtain ⟨x2, hx2⟩ : ∃ x2 : ℝ, 1 / 8 - (2 : ℝ) ^ (-56 : ℤ) = x2 := ⟨_, rfl⟩
  have hx2' : x2 = 9007199254740991 * (2 : ℝ) ^ (-56 : ℤ) := by rw [← hx2]; norm_num
  have p01 := fun fi fj => axis_pair (xi := -1) (xj := 0) (ri := 147 / 128) (rj := 15 / 128)
    (D := 1) (R := 81 / 64) (h := -17 / 64)
    (by rw [hfl (-1) 0 _ (by norm_num) (by norm_num) (by norm_num)]; norm_num) (by norm_num)
    (by rw [hfl 81 (-6) _ (by norm_num) (by norm_num) (by norm_num)]; norm_num)
    (by rw [hfl (-17) (-6) _ (by norm_num) (by norm_num) (by norm_num)]; norm_num)
    (by norm_num) fi fj
  have p12 := fun fi fj => axis_pair (xi := 0) (xj := x2) (ri := 15 / 128) (rj := 1 / 128)
    (D := x2) (R := 1 / 8) (h := -(2 : ℝ) ^ (-56 : ℤ))
    (by rw [zero_sub, hfl (-9007199254740991) (-56) _ (by norm_num) (by norm_num)
      (by rw [hx2']; norm_num)]) (by rw [hx2']; positivity)
    (by rw [hfl 1 (-3) _ (by norm_num) (by norm_num) (by norm_num)]; norm_num)
    (by rw [hfl (-1) (-56) _ (by norm_num) (by norm_num) (by rw [hx2']; norm_num), hx2']
        norm_num)
    (by norm_num) fi fj
  obtain ⟨base, hb⟩ : ∃ base : Crowd 3, ![axisAgent (-1) (147 / 128), axisAgent 0 (15 / 128),
    axisAgent x2 (1 / 128)] = base := ⟨_, rfl⟩
  have q01 : ∀ F : Fin 3 → ℝ, pairForcesF Arith.machine (pushed base F 0) (pushed base F 1) =
      some ((-17 / 64, 0), (-(-17 / 64), 0)) := by
    intro F
    rw [← hb]
    exact p01 (F 0, 0) (F 1, 0)
  have q12 : ∀ F : Fin 3 → ℝ, pairForcesF Arith.machine (pushed base F 1) (pushed base F 2) =
      some ((-(2 : ℝ) ^ (-56 : ℤ), 0), (- -(2 : ℝ) ^ (-56 : ℤ), 0)) := by
    intro F
    rw [← hb]
    exact p12 (F 1, 0) (F 2, 0)
  have key := congrFun (h 3 (pushed base ![0, -17 / 64, 0]) [(0, 1), (1, 2)] [(1, 2), (0, 1)] (by decide)
    (List.Perm.swap _ _ _)) 1
  rw [interactions_addAll _ _ (by decide), interactions_addAll _ _ (by decide)] at key
  have s1 : forcesOn Arith.machine (pushed base ![0, -17 / 64, 0]) 1 [(0, 1), (1, 2)] =
      [(-(-17 / 64), 0), (-(2 : ℝ) ^ (-56 : ℤ), 0)] := by
    simp only [forcesOn, List.flatMap_cons, List.flatMap_nil, q01, q12]
    rfl
  have s2 : forcesOn Arith.machine (pushed base ![0, -17 / 64, 0]) 1 [(1, 2), (0, 1)] =
      [(-(2 : ℝ) ^ (-56 : ℤ), 0), (-(-17 / 64), 0)] := by
    simp only [forcesOn, List.flatMap_cons, List.flatMap_nil, q01, q12]
    rfl
  have k1 := congrArg (fun a : Agent => a.force.1) key
  simp only [(addAll_coord _ _ _).1] at k1
  rw [s1, s2] at k1
  simp only [List.map_cons, List.map_nil, List.foldl_cons, List.foldl_nil,
    show Arith.machine.rnd = fl64 from rfl,
    show (pushed base ![0, -17 / 64, 0] 1).force.1 = -17 / 64 from rfl] at k1
  have t1 : fl64 (-17 / 64 + -(-17 / 64)) = 0 := by
    rw [show (-17 / 64 + -(-17 / 64) : ℝ) = 0 by norm_num, fl64_zero]
  have t2 : fl64 (0 + -(2 : ℝ) ^ (-56 : ℤ)) = -2 ^ (-56 : ℤ) := by
    rw [hfl (-1) (-56) _ (by norm_num) (by norm_num) (by norm_num)]; norm_num
  have t3 : fl64 (-17 / 64 + -(2 : ℝ) ^ (-56 : ℤ)) = -17 / 64 := by
    have := fl64_eq_of_near (x := -17 / 64 + -(2 : ℝ) ^ (-56 : ℤ)) (m := -4785074604081152)
      (e := -54) (by norm_num) (by norm_num) (by norm_num) (by rw [abs_lt]; norm_num)
    rw [this]; norm_num
  rw [t1, t2, t3, t1] at k1
  norm_num at k1

/-- **C211** What holds: the computed force on an agent for two orders of the pairs differs, in each coordinate, by
no more than `2 ^ -51` of the sum of the sizes of the forces on it, for each pair; nothing else differs. -/
theorem C211_order_partial {n : ℕ} (agents : Crowd n) (pairs pairs' : List (Fin n × Fin n))
    (hp : ∀ p ∈ pairs, p.1 ≠ p.2) (h : pairs.Perm pairs') (k : Fin n)
    (hm : ((forcesOn Arith.machine agents k pairs).length : ℝ) ≤ 2 ^ 52) :
    (∃ f, agentAgentCircularF Arith.machine agents pairs' k =
      { agentAgentCircularF Arith.machine agents pairs k with force := f }) ∧
    |(agentAgentCircularF Arith.machine agents pairs k).force.1 -
        (agentAgentCircularF Arith.machine agents pairs' k).force.1| ≤
      (forcesOn Arith.machine agents k pairs).length * 2 ^ (-51 : ℤ) *
        (|(agents k).force.1| + ((forcesOn Arith.machine agents k pairs).map fun f => |f.1|).sum +
          2 ^ (-1022 : ℤ)) ∧
    |(agentAgentCircularF Arith.machine agents pairs k).force.2 -
        (agentAgentCircularF Arith.machine agents pairs' k).force.2| ≤
      (forcesOn Arith.machine agents k pairs).length * 2 ^ (-51 : ℤ) *
        (|(agents k).force.2| + ((forcesOn Arith.machine agents k pairs).map fun f => |f.2|).sum +
          2 ^ (-1022 : ℤ)) := by
  have hq : ∀ p ∈ pairs', p.1 ≠ p.2 := fun p hm => hp p (h.mem_iff.2 hm)
  have hf := forcesOn_perm Arith.machine agents k h
  rw [interactions_addAll _ _ hp, interactions_addAll _ _ hq]
  refine ⟨⟨_, rfl⟩, ?_, ?_⟩
  · simp only [(addAll_coord _ _ _).1]
    have := order_error (hf.map Prod.fst) (F0 := (agents k).force.1) le_rfl (by rwa [List.length_map])
    rwa [List.length_map, List.map_map] at this
  · simp only [(addAll_coord _ _ _).2]
    have := order_error (hf.map Prod.snd) (F0 := (agents k).force.2) le_rfl (by rwa [List.length_map])
    rwa [List.length_map, List.map_map] at this

/-- **C211** An agent with a single neighbour in sight gets the same force, digit by digit, in whichever order the
pairs are taken; the arithmetic may be any. -/
theorem C211_single_partial {n : ℕ} (A : Arith) (agents : Crowd n) (pairs pairs' : List (Fin n × Fin n))
    (hp : ∀ p ∈ pairs, p.1 ≠ p.2) (h : pairs.Perm pairs') (k : Fin n)
    (hs : (forcesOn A agents k pairs).length ≤ 1) :
    agentAgentCircularF A agents pairs k = agentAgentCircularF A agents pairs' k := by
  have hq : ∀ p ∈ pairs', p.1 ≠ p.2 := fun p hm => hp p (h.mem_iff.2 hm)
  rw [interactions_addAll _ _ hp, interactions_addAll _ _ hq,
    perm_short (forcesOn_perm A agents k h) hs]

/-- Two pairs of four agents: the order does not matter. -/
example (agents : Crowd 4) (k : Fin 4) :
    agentAgentCircularF Arith.machine agents [(0, 1), (2, 3)] k =
      agentAgentCircularF Arith.machine agents [(2, 3), (0, 1)] k := by
  refine C211_single_partial _ _ _ _ (by decide) (List.Perm.swap _ _ _) k ?_
  simp only [forcesOn, List.flatMap_cons, List.flatMap_nil]
  fin_cases k <;> cases pairForcesF Arith.machine (agents 0) (agents 1) <;>
    cases pairForcesF Arith.machine (agents 2) (agents 3) <;> simp

/-- Three agents, of whom the middle one has two neighbours: the two orders of the pairs differ by no more than a
few units of the last digit. -/
example (agents : Crowd 3) : ∃ m : ℕ, m ≤ 2 ∧
    |(agentAgentCircularF Arith.machine agents [(0, 1), (1, 2)] 1).force.1 -
        (agentAgentCircularF Arith.machine agents [(1, 2), (0, 1)] 1).force.1| ≤
      m * 2 ^ (-51 : ℤ) *
        (|(agents 1).force.1| +
          ((forcesOn Arith.machine agents 1 [(0, 1), (1, 2)]).map fun f => |f.1|).sum + 2 ^ (-1022 : ℤ)) := by
  have hl : (forcesOn Arith.machine agents 1 [(0, 1), (1, 2)]).length ≤ 2 := by
    simp only [forcesOn, List.flatMap_cons, List.flatMap_nil]
    cases pairForcesF Arith.machine (agents 0) (agents 1) <;>
      cases pairForcesF Arith.machine (agents 1) (agents 2) <;> simp
  refine ⟨_, hl, (C211_order_partial agents [(0, 1), (1, 2)] [(1, 2), (0, 1)] (by decide)
    (List.Perm.swap _ _ _) 1 ?_).2.1⟩
  calc ((forcesOn Arith.machine agents 1 [(0, 1), (1, 2)]).length : ℝ) ≤ 2 := by exact_mod_cast hl
    _ ≤ 2 ^ 52 := by norm_num

end CrowdDynamics
