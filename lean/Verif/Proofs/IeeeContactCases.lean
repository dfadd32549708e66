import Verif.Proofs.IeeeContact
import Verif.Proofs.IeeeCases
import Verif.Proofs.RoundedContact

/-!
# Cases for `Verif.Props.IeeeContact`
-/

namespace CrowdDynamics

open Spec Real

/-- The usual constants of the contact force. -/
noncomputable def withContact (a : Agent) : Agent :=
  { a with
    mu := 120000
    kappa := 40000
    damping := 500 }

theorem withContact_contact (a : Agent) : ModerateContact (withContact a) ∧
    SmallContact (withContact a) := by
  have s : ∀ {m : ℤ}, |m| < 2 ^ 20 → SmallFloat 20 (m : ℝ) := by
    intro m hm
    refine ⟨fl64_int (hm.trans (by norm_num)), ?_⟩
    have : ((|m| : ℤ) : ℝ) ≤ 2 ^ 20 := by exact_mod_cast hm.le
    rw [Int.cast_abs] at this
    exact_mod_cast this
  have h1 := s (m := 120000) (by norm_num)
  have h2 := s (m := 40000) (by norm_num)
  have h3 := s (m := 500) (by norm_num)
  push_cast at h1 h2 h3
  exact ⟨⟨h1.2, h2.2, h3.2⟩, h1, h2, h3⟩

theorem withContact_small {a : Agent} (h : SmallAgent a) : SmallAgent (withContact a) :=
  ⟨h.position, h.velocity, h.radius, h.mass, h.kSoc, h.tau0⟩

theorem withContact_moderate {a : Agent} (h : ModerateAgent a) : ModerateAgent (withContact a) :=
  ⟨h.position, h.velocity, h.radius, h.mass, h.kSoc, h.tau0⟩

/-- The two agents of C184: one slides past the other. -/
noncomputable def slidingPair : Crowd 2 := ![withContact (slider 50), withContact stander]

theorem slidingPair_small (i : Fin 2) :
    SmallAgent (slidingPair i) ∧ SmallContact (slidingPair i) := by
  fin_cases i
  · exact ⟨withContact_small (slider_small (by norm_num) (by norm_num)), (withContact_contact _).2⟩
  · exact ⟨withContact_small stander_small, (withContact_contact _).2⟩

/-- The computed distance of the two agents is zero. -/
theorem sliding_distance :
    (distanceCirclesI Arith.machine (1, 0) (1 / 2) (0, 0) (1 / 2)).1 = .num 0 := by
  have p1 : F64.pack 1 = .num 1 := by
    unfold F64.pack
    rw [if_pos]
    rw [abs_one, ← zpow_zero (2 : ℝ)]
    exact zpow_lt_zpow_right₀ (by norm_num) (by norm_num)
  have p0 : F64.pack 0 = .num 0 := by
    unfold F64.pack
    rw [if_pos]
    rw [abs_zero]
    exact two_zpow_pos _
  unfold distanceCirclesI subI
  have a1 : (F64.num 1).sub Arith.machine.rnd (.num 0) = .num 1 := by
    show F64.pack (fl64 (1 + -0)) = _
    rw [neg_zero, add_zero, fl64_one, p1]
  have a2 : (F64.num 0).sub Arith.machine.rnd (.num 0) = .num 0 := by
    show F64.pack (fl64 (0 + -0)) = _
    rw [neg_zero, add_zero, fl64_zero, p0]
  have a3 : (F64.num (1 / 2)).add Arith.machine.rnd (.num (1 / 2)) = .num 1 := by
    show F64.pack (fl64 (1 / 2 + 1 / 2)) = _
    rw [add_halves, fl64_one, p1]
  have a4 : (F64.num 1).hypot Arith.machine (.num 0) = .num 1 := by
    show F64.pack (fl64 (√(1 ^ 2 + 0 ^ 2))) = _
    rw [show ((1 : ℝ) ^ 2 + 0 ^ 2) = 1 by norm_num, Real.sqrt_one, fl64_one, p1]
  have a5 : (F64.num 1).sub Arith.machine.rnd (.num 1) = .num 0 := by
    show F64.pack (fl64 (1 + -1)) = _
    rw [add_neg_cancel, fl64_zero, p0]
  simp only [a1, a2, a3, a4, a5]

theorem sliding_nan : ∃ force, agentAgentCircularI Arith.machine slidingPair [(0, 1)]
    (fun _ => (.num 0, .num 0)) = .ok force ∧ (force 0).1 = .nan ∧ (force 1).1 = .nan := by
  obtain ⟨y, z, h⟩ := slider_nan
  have hs : forceSocialCircularI Arith.machine (slidingPair 0) (slidingPair 1) =
    .ok ((.nan, y), (.nan, z)) := h
  have hd : (distanceCirclesI Arith.machine (slidingPair 0).position (slidingPair 0).radius
      (slidingPair 1).position (slidingPair 1).radius).1 = .num 0 := sliding_distance
  have hp : pairForcesI Arith.machine (slidingPair 0) (slidingPair 1) =
      .ok (some ((.nan, y), (.nan, z))) := by
    unfold pairForcesI
    rw [hs]
    generalize distanceCirclesI Arith.machine (slidingPair 0).position (slidingPair 0).radius
      (slidingPair 1).position (slidingPair 1).radius = D at *
    have c1 : (F64.num sigthSoc).gt D.1 := by rw [hd]; exact show (3 : ℝ) > 0 by norm_num
    have c2 : ¬ (F64.num 0).gt D.1 := by rw [hd]; exact lt_irrefl (0 : ℝ)
    dsimp only
    rw [if_pos c1]
    simp only [bind, Except.bind]
    rw [if_neg c2]
  refine ⟨addForceI fl64 (addForceI fl64 (fun _ => (.num 0, .num 0)) 0 (.nan, y)) 1 (.nan, z),
    ?_, ?_, ?_⟩
  · unfold agentAgentCircularI interactionAgentAgentCircularI
    simp only [List.foldlM_cons, List.foldlM_nil, hp, bind, Except.bind]
    rfl
  · unfold addForceI
    rw [Function.update_of_ne (by decide), Function.update_self]
    rfl
  · unfold addForceI
    rw [Function.update_self, Function.update_of_ne (by decide)]
    rfl

/-- An agent whose centre is the end of a wall. -/
noncomputable def cornered : Crowd 1 := fun _ => withContact { stander with radius := 1 }

/-- A slanted wall. -/
def slantedWall : Wall := ⟨(0, 0), (2, 3)⟩

theorem small_int {k : ℤ} {m : ℤ} (hm : |m| < 2 ^ 53) (h : |(m : ℝ)| ≤ 2 ^ k) :
    SmallFloat k (m : ℝ) := ⟨fl64_int hm, h⟩

theorem moderate_int {k : ℤ} {m : ℤ} (h : |(m : ℝ)| ≤ 2 ^ k) : ModerateNumber k (m : ℝ) :=
  ⟨h, m * 2 ^ 60, by push_cast; norm_num; ring⟩

theorem cornered_small (i : Fin 1) : SmallAgent (cornered i) ∧ SmallContact (cornered i) := by
  refine ⟨⟨stander_small.position, stander_small.velocity, ?_, stander_small.mass,
    stander_small.kSoc, stander_small.tau0⟩, (withContact_contact _).2⟩
  have := small_int (k := 10) (m := 1) (by norm_num) (by norm_num)
  rw [Int.cast_one] at this
  exact this

theorem cornered_moderate (i : Fin 1) : ModerateAgent (cornered i) := by
  refine ⟨stander_moderate.position, stander_moderate.velocity, ?_, stander_moderate.mass,
    stander_moderate.kSoc, stander_moderate.tau0⟩
  have := moderate_int (k := 10) (m := 1) (by norm_num)
  rw [Int.cast_one] at this
  exact this

theorem slanted_small : SmallWall slantedWall := by
  have h2 := small_int (k := 20) (m := 2) (by norm_num) (by norm_num)
  have h3 := small_int (k := 20) (m := 3) (by norm_num) (by norm_num)
  push_cast at h2 h3
  exact ⟨⟨small_zero, small_zero⟩, ⟨h2, h3⟩, by simp [slantedWall]⟩

theorem slanted_moderate : ModerateWall slantedWall := by
  have h0 := moderate_int (k := 20) (m := 0) (by norm_num)
  have h2 := moderate_int (k := 20) (m := 2) (by norm_num)
  have h3 := moderate_int (k := 20) (m := 3) (by norm_num)
  push_cast at h0 h2 h3
  exact ⟨⟨h0, h0⟩, ⟨h2, h3⟩, by simp [slantedWall]⟩

theorem cornered_nan :
    agentCircularObstacleI Arith.machine cornered [slantedWall] (fun _ => (.num 0, .num 0)) 0 =
      (.nan, .nan) := by
  obtain ⟨h, n, e, hd, hn⟩ := distanceCircleLineI_num (A := Arith.machine) rfl accurate_machine
    (cornered_moderate 0).position (cornered_moderate 0).radius slanted_moderate
  have e' : distanceCircleLineF Arith.machine (cornered 0).position (cornered 0).radius
    slantedWall.p0 slantedWall.p1 = some (-1, none) := wall_nan
  rw [e'] at e
  injection e with e
  injection e with e1 e2
  subst e1 e2
  have hn := (hn.resolve_right (by rintro ⟨k, hk, -⟩; exact Option.noConfusion rfl (heq_of_eq hk))).2.2
  unfold agentCircularObstacleI interactionAgentCircularObstacleI
  simp only [List.finRange_succ, List.finRange_zero, List.map_nil, List.foldl_cons, List.foldl_nil]
  rw [hd.1, if_pos (show (F64.num 0).gt (.num (-1)) from show (0 : ℝ) > -1 by norm_num), contact_nan (by rw [hn]) (by rw [hn])]
  unfold addForceI
  rw [Function.update_self]
  rfl

/-- Two agents that overlap. -/
noncomputable def pressedPair : Crowd 2 := ![withContact { comer with position := (1 / 2, 0) },
  withContact stander]

theorem pressedPair_moderate (i : Fin 2) :
    ModerateAgent (pressedPair i) ∧ ModerateContact (pressedPair i) := by
  fin_cases i
  · refine ⟨⟨⟨?_, ?_⟩, comer_moderate.velocity, comer_moderate.radius, comer_moderate.mass,
      comer_moderate.kSoc, comer_moderate.tau0⟩, (withContact_contact _).1⟩
    · exact moderate_of (m := 2 ^ 59) (by norm_num [pressedPair, withContact, abs_le])
        (by norm_num [pressedPair, withContact])
    · exact moderate_of (m := 0) (by norm_num [pressedPair, withContact])
        (by norm_num [pressedPair, withContact])
  · exact ⟨withContact_moderate stander_moderate, (withContact_contact _).1⟩

theorem pressed_wall (i : Fin 2) : (pressedPair i).position ≠ ((-1, 1 / 4) : Vec) ∧
    (pressedPair i).position ≠ ((3, 1 / 4) : Vec) := by
  fin_cases i <;> norm_num [pressedPair, withContact, stander]

theorem long_wall_moderate : ModerateWall ⟨(-1, 1 / 4), (3, 1 / 4)⟩ := by
  have h1 := moderate_int (k := 20) (m := -1) (by norm_num)
  have h3 := moderate_int (k := 20) (m := 3) (by norm_num)
  have h4 : ModerateNumber 20 (1 / 4) :=
    moderate_of (m := 2 ^ 58) (by norm_num [abs_le]) (by norm_num)
  push_cast at h1 h3
  exact ⟨⟨h1, h4⟩, ⟨h3, h4⟩, by norm_num⟩

theorem zero_forces_moderate {n : ℕ} : ModerateForces (fun _ : Fin n => ((0, 0) : Vec)) := by
  intro i
  norm_num

end CrowdDynamics
