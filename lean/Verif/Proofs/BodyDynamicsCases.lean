import Verif.Proofs.BodyMotion
import Verif.Props.Dynamics

/-!
# Cases and helper lemmas for `Verif.Props.BodyDynamics`
-/

namespace CrowdDynamics

open Spec

variable {n : ℕ}

/-- Two agents that rub against each other: the first one walks past the second one, and they
overlap. The shoulders are inside the torsos. -/
noncomputable def rubbing : Crowd 2 := fun i =>
  { Agent.default with
    mass := 80, inertiaRot := 4, rT := 0.3, rS := 0.3, targetVelocity := 1, targetDirection := (0, 1)
    position := ((if i = 0 then 0 else 0.3 : ℝ), (0 : ℝ))
    positionLs := ((if i = 0 then 0 else 0.3 : ℝ), (0 : ℝ))
    positionRs := ((if i = 0 then 0 else 0.3 : ℝ), (0 : ℝ))
    velocity := ((0 : ℝ), (if i = 0 then 1 else 0 : ℝ)) }

theorem rubbing_circles (i : Fin 2) (p : Fin 3) :
    (rubbing i).circles p = ((if i = 0 then 0 else 0.3 : ℝ), (0 : ℝ)) ∧
    (rubbing i).radii p = 0.3 := by
  fin_cases p <;> exact ⟨rfl, rfl⟩

theorem rubbing_attached (i : Fin 2) : ShouldersAttached (rubbing i) := by
  unfold ShouldersAttached
  constructor <;> simp [rubbing, Agent.default, Agent.zero]

theorem rubbing_within (i : Fin 2) : BodyWithin .threeCircle (rubbing i) 0.3 := by
  intro d hd
  simp only [discs, List.mem_cons, List.not_mem_nil, or_false] at hd
  have h0 : Spec.dist (rubbing i).position (rubbing i).position = 0 := by
    unfold Spec.dist Spec.len; simp
  rcases hd with rfl | rfl | rfl
  · simp only [h0, zero_add]; exact le_of_eq rfl
  · rw [show (rubbing i).positionLs = (rubbing i).position from rfl]
    simp only [h0, zero_add]; exact le_of_eq rfl
  · rw [show (rubbing i).positionRs = (rubbing i).position from rfl]
    simp only [h0, zero_add]; exact le_of_eq rfl

theorem rubbing_cells : EnumeratesNeighbours (fun i => (rubbing i).position) (3.0 + 2 * 0.3)
    [(0, 1)] := by
  refine ⟨by simp, by simp, (0, 0), fun i j hij _ _ => ?_⟩
  have hi := i.isLt
  have hj := j.isLt
  simp only [List.mem_singleton, Prod.ext_iff, Fin.ext_iff, Fin.val_zero, Fin.val_one]
  have : (i : ℕ) ≠ j := fun h => hij (Fin.ext h)
  omega

/-- The effect on the first agent: only the arm is open. -/
theorem rubbing_effect {arm : Fin 3 → Fin 3 → ℝ × ℝ → ℝ × ℝ → Prop} {e : Vec × ℝ}
    (h : IsBodyEffect arm (rubbing 0) (rubbing 1) e) :
    ∃ p q r, arm p q (-1, 0) r ∧ e.2 = moment r (-36000, -12000) := by
  obtain ⟨p, q, m, gap, -, ⟨hm, -, -⟩, hgap, -, h3⟩ := h
  have hd : ∀ p q, Spec.dist ((rubbing 0).circles p) ((rubbing 1).circles q) = 0.3 := by
    intro p q
    rw [(rubbing_circles 0 p).1, (rubbing_circles 1 q).1]
    unfold Spec.dist Spec.len
    simp only [if_true, Fin.isValue, one_ne_zero, if_false, Prod.fst_sub, Prod.snd_sub]
    rw [Real.sqrt_eq_iff_mul_self_eq (by positivity) (by norm_num)]
    norm_num
  have hm' : m = (-1, 0) := by
    rw [hd, (rubbing_circles 0 p).1, (rubbing_circles 1 q).1] at hm
    have h1 := congrArg Prod.fst hm
    have h2 := congrArg Prod.snd hm
    norm_num at h1 h2
    ext
    · simp only; linarith
    · exact h2
  rw [hd, (rubbing_circles 0 p).2, (rubbing_circles 1 q).2] at hgap
  have hg : gap = -0.3 := by rw [hgap]; norm_num
  obtain ⟨s, c, r, ⟨hs, -⟩, -, hc, ha, he⟩ := h3 (by rw [hg]; norm_num)
  have hs0 : s = 0 := by
    rcases hs with hs | ⟨p', q', t, ⟨ht, ⟨-, -, hfar⟩, -⟩, -⟩
    · exact hs
    · exfalso
      have := hfar 0 le_rfl ht
      rw [zero_smul, add_zero, (rubbing_circles 0 p').2, (rubbing_circles 1 q').2] at this
      have hd' : Spec.len ((rubbing 0).circles p' - (rubbing 1).circles q') = 0.3 := hd p' q'
      rw [hd'] at this
      norm_num at this
  have hc0 := hc (by rw [hg]; norm_num)
  have hcv : c = (-36000, -12000) := by
    rw [hc0, hm', hg]
    simp only [rubbing, Agent.default, Spec.inner]
    ext <;> norm_num
  rw [hm'] at ha
  exact ⟨p, q, r, ha, by rw [he, hs0, hcv, zero_add]⟩

/-- The torque with an arm to the point of contact. -/
theorem rubbing_contact_torque {e : Vec × ℝ}
    (h : IsBodyEffect (ContactArm (rubbing 0)) (rubbing 0) (rubbing 1) e) : e.2 = -3600 := by
  obtain ⟨p, q, r, ha, he⟩ := rubbing_effect h
  unfold ContactArm at ha
  rw [he, ha, (rubbing_circles 0 p).1, (rubbing_circles 0 p).2]
  norm_num [moment, rubbing]

/-- The torque with the arms of the code. -/
theorem rubbing_code_torque {e : Vec × ℝ}
    (h : IsBodyEffect (CodeArm (rubbing 0) (rubbing 1)) (rubbing 0) (rubbing 1) e) :
    e.2 = 3600 ∨ e.2 = 0 := by
  obtain ⟨p, q, r, ha, he⟩ := rubbing_effect h
  rcases ha with ha | ha
  · left
    rw [he, ha, (rubbing_circles 0 p).1, (rubbing_circles 0 p).2]
    norm_num [moment, rubbing]
  · right
    rw [he, ha, (rubbing_circles 1 p).1, (rubbing_circles 0 p).2]
    norm_num [moment, rubbing]

theorem erase_zero_two : (Finset.univ.erase (0 : Fin 2)) = {1} := by decide

/-- The two agents above at the start of a simulation. -/
noncomputable def rubbingState : SimState 2 :=
  { demoState rubbing with agents := ⟨.const .threeCircle, rubbing⟩ }

/-- The hypotheses on environment and agents are met by the two agents above. -/
theorem rubbing_regular (nodes : List Node) (hn : ∀ c, .agentAgent c ∈ nodes → c = 3.0 + 2 * 0.3) :
    RegularBody facingEnv nodes rubbingState := by
  refine ⟨rfl, fun k p => ?_, rubbing_attached, fun k => ?_, fun k => ?_, fun k => ?_, fun k => ?_,
    fun k => ?_, fun k => ?_, fun d k a b h => ⟨le_rfl, h⟩, fun d k a b h => ⟨le_rfl, h⟩,
    fun g hg => ?_, fun c hc => ?_⟩
  · show 0 ≤ (rubbing k).radii p
    rw [(rubbing_circles k p).2]; norm_num
  iterate 6 norm_num [rubbingState, rubbing, Agent.default, Agent.zero]
  · cases hg; exact .lineString _
  · rw [hn c hc]
    exact ⟨by norm_num, ⟨fun _ => 0.3, rubbing_within, fun i j _ => by norm_num⟩, rubbing_cells⟩

theorem contactEffect_congr {a a' b b' : Agent} (ha : SameTurn a a') (hb : SameTurn b b')
    {e : Vec × ℝ} (h : IsBodyEffect (ContactArm a) a b e) :
    IsBodyEffect (ContactArm a') a' b' e := by
  unfold IsBodyEffect Closest IsBodySocialForce ReactsToEarliest EarliestContact ReactsTo
    IsBodyContact ContactArm at h ⊢
  rwa [ha.circles, ha.radii, ha.position, ha.velocity, ha.body.kSoc, ha.body.tau0, ha.body.mass,
    ha.body.mu, ha.body.kappa, ha.body.damping, ha.body.rT, hb.circles, hb.radii, hb.position,
    hb.velocity, hb.body.rT] at h

end CrowdDynamics
