import Verif.Props.Braking
import Verif.Props.BodyType
import Verif.Proofs.PowerLawTests

/-! # The assertions of the tests of the social force (C161) -/

namespace CrowdDynamics

/-- **C161** (full statement): all assertions of the two tests hold, whatever random numbers are
drawn for the bodies. -/
def C161_statement : Prop := ∀ (z z' : ℕ → ℝ → ℝ → ℝ) (kind : Kind),
  Spec.InTruncRange z → Spec.InTruncRange z' → testNotColliding z z' kind ∧ testColliding kind

/-- **C161**, what holds (1): two adults who walk alike do not feel a social force. -/
theorem C161_not_colliding_partial (z z' : ℕ → ℝ → ℝ → ℝ) (kind : Kind) :
    testNotColliding z z' kind := by
  have hv : (testAgentByKeyword z kind testFirst).velocity -
      (testAgentByKeyword z' kind testSecondAlike).velocity = 0 := by
    rw [(testAgent_motion z kind testFirst).2, (testAgent_motion z' kind testSecondAlike).2]
    exact sub_self _
  have h0 : testedForce kind (testAgentByKeyword z kind testFirst)
      (testAgentByKeyword z' kind testSecondAlike) = (0, 0) := by
    cases kind with
    | circular => exact circular_alike hv
    | threeCircle => exact three_alike hv
  unfold testNotColliding
  simp only
  rw [h0]
  exact ⟨length_eq_zero.2 rfl, length_eq_zero.2 rfl⟩

/-- **C161**, what holds (2): two adults with the attributes of `test_colliding` feel social
forces, and these slow their approach, if the attributes are passed as keywords. -/
theorem C161_colliding_keywords_partial (z z' : ℕ → ℝ → ℝ → ℝ) (hz : Spec.InTruncRange z)
    (hz' : Spec.InTruncRange z') (kind : Kind) :
    Spec.SlowsApproach (testAgentByKeyword z kind testFirst)
      (testAgentByKeyword z' kind testSecondOpposite)
      (testedForce kind (testAgentByKeyword z kind testFirst)
        (testAgentByKeyword z' kind testSecondOpposite)) ∧
    (testedForce kind (testAgentByKeyword z kind testFirst)
      (testAgentByKeyword z' kind testSecondOpposite)).1 ≠ 0 ∧
    (testedForce kind (testAgentByKeyword z kind testFirst)
      (testAgentByKeyword z' kind testSecondOpposite)).2 ≠ 0 := by
  obtain ⟨b, hb, r1, r2, m1, -, -, -, t1, t2, s1, s2, -, -⟩ :=
    C16_shipped_values z hz "adult" (by decide)
  obtain ⟨b', hb', r1', r2', m1', -, -, -, t1', t2', s1', s2', -, -⟩ :=
    C16_shipped_values z' hz' "adult" (by decide)
  have B := testAgent_body z kind testFirst b (by show construct _ _ [.bodyType "adult"] = _; exact hb)
  have B' := testAgent_body z' kind testSecondOpposite b'
    (by show construct _ _ [.bodyType "adult"] = _; exact hb')
  have M := testAgent_motion z kind testFirst
  have M' := testAgent_motion z' kind testSecondOpposite
  have P := testAgent_parameters z kind testFirst
  have P' := testAgent_parameters z' kind testSecondOpposite
  have A := testAgent_attached z testFirst
  have A' := testAgent_attached z' testSecondOpposite
  have O := testAgent_orientation z testFirst
  have O' := testAgent_orientation z' testSecondOpposite
  have key : Spec.SlowsApproach (testAgentByKeyword z kind testFirst)
      (testAgentByKeyword z' kind testSecondOpposite)
      (testedForce kind (testAgentByKeyword z kind testFirst)
        (testAgentByKeyword z' kind testSecondOpposite)) := by
    cases kind with
    | circular =>
      generalize testAgentByKeyword z .circular testFirst = a at *
      generalize testAgentByKeyword z' .circular testSecondOpposite = a' at *
      refine (C160_circular_partial a a' ⟨by rw [B.2.2.2.2]; linarith, by rw [P.1]; norm_num,
        by rw [P.2]; norm_num⟩ ⟨by rw [B'.2.2.2.2]; linarith, by rw [P'.1]; norm_num,
        by rw [P'.2]; norm_num⟩ (by rw [B.1, B'.1]; linarith)).1 ?_
      rw [Spec.CollisionAhead, M.1, M.2, M'.1, M'.2, B.1, B'.1]
      have h := headOn (r := b.val .radius + b'.val .radius) (by linarith) (by linarith)
      exact ⟨h.2, _, by linarith, by linarith, h.1⟩
    | threeCircle =>
      generalize testAgentByKeyword z .threeCircle testFirst = a at *
      generalize testAgentByKeyword z' .threeCircle testSecondOpposite = a' at *
      have h := headOn (r := b.val .rT + b'.val .rT) (by linarith) (by linarith)
      refine C160_parts_ahead_partial a a' ⟨by rw [B.2.2.2.2]; linarith, by rw [P.1]; norm_num,
        by rw [P.2]; norm_num⟩ ⟨by rw [B'.2.2.2.2]; linarith, by rw [P'.1]; norm_num,
        by rw [P'.2]; norm_num⟩ A A' ?_ ?_
        (.inr ⟨(2 - (b.val .rT + b'.val .rT)) / 2, ?_, ?_, ?_⟩) ?_
      · intro p
        fin_cases p <;> simp [Agent.radii, B.2.1, B.2.2.1, t1.le, s1.le]
      · intro p
        fin_cases p <;> simp [Agent.radii, B'.2.1, B'.2.2.1, t1'.le, s1'.le]
      · linarith
      · rw [M.1, M.2, M'.1, M'.2, B.2.1, B'.2.1]; exact h.1
      · rw [M.1, M.2, M'.1, M'.2, B.2.1, B'.2.1]; exact h.2
      · intro p q t _
        have e1 : (a.circles p - a.position).1 = 0 := side_first A (by rw [O]; exact zero_sin) p
        have e2 : (a'.circles q - a'.position).1 = 0 := side_first A' (by rw [O']; exact pi_sin) q
        rw [M.2, M'.2]
        simp only [Spec.inner, Prod.fst_sub, Prod.snd_sub] at e1 e2 ⊢
        rw [e1, e2]
        norm_num [testFirst, testSecondOpposite]
  have i0 : ∀ v : Vec, Spec.inner 0 v = 0 := fun v => by simp [Spec.inner]
  refine ⟨key, fun h0 => ?_, fun h0 => ?_⟩
  · have := key.1
    rw [h0, i0] at this
    exact lt_irrefl _ this
  · have := key.2
    rw [h0, i0] at this
    exact lt_irrefl _ this

/-- **C161** is false: `test_colliding` passes the attributes as a positional argument, which has
no effect. It tests two agents without bodies that stand at the same place; there is no force
between them, and the assertions fail for both types of agents. -/
theorem C161_colliding_fails : ¬ C161_statement ∧ ∀ kind, ¬ testColliding kind := by
  have h : ∀ kind, ¬ testColliding kind := by
    intro kind
    have h0 : testedForce kind (testAgentByPosition kind testFirst)
        (testAgentByPosition kind testSecondOpposite) = (0, 0) := by
      cases kind with
      | circular => exact circular_alike (sub_self _)
      | threeCircle => exact three_alike (sub_self _)
    unfold testColliding
    simp only
    rw [h0]
    intro h
    rw [length_eq_zero.2 rfl] at h
    exact lt_irrefl _ h.1
  refine ⟨fun hs => ?_, h⟩
  have hz : Spec.InTruncRange fun _ a _ => a := fun _ a b hab => ⟨le_rfl, hab⟩
  exact h .circular (hs _ _ .circular hz hz).2

example : Spec.SlowsApproach (testAgentByKeyword (fun _ a b => (a + b) / 2) .threeCircle testFirst)
    (testAgentByKeyword (fun _ a _ => a) .threeCircle testSecondOpposite)
    (forceSocialThreeCircle (testAgentByKeyword (fun _ a b => (a + b) / 2) .threeCircle testFirst)
      (testAgentByKeyword (fun _ a _ => a) .threeCircle testSecondOpposite)) :=
  (C161_colliding_keywords_partial _ _ (fun _ a b hab => ⟨by linarith, by linarith⟩)
    (fun _ a b hab => ⟨le_rfl, hab⟩) .threeCircle).1

end CrowdDynamics
