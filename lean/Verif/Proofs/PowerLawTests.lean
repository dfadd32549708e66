import Verif.Model.PowerLawTests
import Verif.Proofs.Braking
import Verif.Proofs.BodyType

/-! # Helper lemmas about the agents of the tests of the social force -/

namespace CrowdDynamics

lemma testAgent_motion (z : ℕ → ℝ → ℝ → ℝ) (kind : Kind) (t : TestAttributes) :
    (testAgentByKeyword z kind t).position = t.position ∧
      (testAgentByKeyword z kind t).velocity = t.velocity := by
  cases kind <;> exact ⟨rfl, rfl⟩

lemma testAgent_parameters (z : ℕ → ℝ → ℝ → ℝ) (kind : Kind) (t : TestAttributes) :
    (testAgentByKeyword z kind t).kSoc = 1.5 ∧ (testAgentByKeyword z kind t).tau0 = 3.0 := by
  cases kind <;> exact ⟨rfl, rfl⟩

lemma testAgent_body (z : ℕ → ℝ → ℝ → ℝ) (kind : Kind) (t : TestAttributes) (b : BodyObj)
    (h : construct bodyTypesCfg z [.bodyType t.bodyType] = ⟨b, false⟩) :
    (testAgentByKeyword z kind t).radius = b.val .radius ∧
    (testAgentByKeyword z kind t).rT = b.val .rT ∧
    (testAgentByKeyword z kind t).rS = b.val .rS ∧
    (testAgentByKeyword z kind t).rTs = b.val .rTs ∧
    (testAgentByKeyword z kind t).mass = b.val .mass := by
  have e : (construct bodyTypesCfg z [.bodyType t.bodyType]).obj = b := by rw [h]
  rw [← e]
  cases kind <;> exact ⟨rfl, rfl, rfl, rfl, rfl⟩

lemma testAgent_orientation (z : ℕ → ℝ → ℝ → ℝ) (t : TestAttributes) :
    (testAgentByKeyword z .threeCircle t).orientation = t.orientation := rfl

lemma testAgent_attached (z : ℕ → ℝ → ℝ → ℝ) (t : TestAttributes) :
    Spec.ShouldersAttached (testAgentByKeyword z .threeCircle t) := by
  constructor
  · ext <;> simp [testAgentByKeyword, Member.touch, Member.row, shoulderOffset, rotate270,
      unitVector]
  · ext <;> simp [testAgentByKeyword, Member.touch, Member.row, shoulderOffset, rotate270,
      unitVector, sub_eq_add_neg]

lemma zero_sin : Real.sin testFirst.orientation = 0 := by norm_num [testFirst]

lemma pi_sin : Real.sin testSecondOpposite.orientation = 0 := Real.sin_pi

/-- The circles of an agent who looks along the first axis are side by side. -/
lemma side_first {a : Agent} (h : Spec.ShouldersAttached a) (ho : Real.sin a.orientation = 0)
    (p : Fin 3) : (a.circles p - a.position).1 = 0 := by
  obtain ⟨h1, h2⟩ := h
  fin_cases p
  · simp [Agent.circles]
  · simp [Agent.circles, h1, ho]
  · simp [Agent.circles, h2, ho]

lemma circular_alike {a b : Agent} (h : a.velocity - b.velocity = 0) :
    forceSocialCircular a b = (0, 0) := by
  unfold forceSocialCircular
  simp only
  rw [h]
  have h0 : dot (0 : Vec) 0 = 0 := by simp [dot]
  cases npSqrt _ with
  | none => rfl
  | some d => simp only; rw [if_pos (Or.inr h0)]

lemma three_alike {a b : Agent} (h : a.velocity - b.velocity = 0) :
    forceSocialThreeCircle a b = (0, 0) := by
  unfold forceSocialThreeCircle
  simp only
  rw [h, if_pos (by simp [dot])]

/-- Two discs two metres apart that approach each other with 1 m/s each. -/
lemma headOn {r : ℝ} (h0 : 0 < r) (h2 : r < 2) :
    Spec.FirstTouch (testFirst.position - testSecondOpposite.position)
      (testFirst.velocity - testSecondOpposite.velocity) r ((2 - r) / 2) ∧
    Spec.WillOverlap (testFirst.position - testSecondOpposite.position)
      (testFirst.velocity - testSecondOpposite.velocity) r := by
  have e1 : testFirst.position - testSecondOpposite.position = ((-2, 0) : Vec) := by
    norm_num [testFirst, testSecondOpposite]
  have e2 : testFirst.velocity - testSecondOpposite.velocity = ((2, 0) : Vec) := by
    norm_num [testFirst, testSecondOpposite]
  rw [e1, e2]
  refine firstTouch_of_root h0.le (d := 2 * r) (by norm_num [dot]) (by linarith) ?_ ?_ (by linarith)
  · simp only [dot]; ring
  · simp only [dot]; ring

end CrowdDynamics
