import Verif.Proofs.InteractionTests

/-! # The tests of interactions (C182) -/

namespace CrowdDynamics

/-- A draw that the strategies of the tests can return: radius and mass are in (0, 1], the
coordinates of `positions` within 10 and those of the velocity within 1. -/
def Spec.InteractionDrawOK (d : InteractionDraw) : Prop :=
  (0 < d.radius ∧ d.radius ≤ 1) ∧ (0 < d.mass ∧ d.mass ≤ 1) ∧
  (|d.positions.1| ≤ 10 ∧ |d.positions.2| ≤ 10) ∧ |d.velocity.1| ≤ 1 ∧ |d.velocity.2| ≤ 1

/-- The random numbers of scipy are within the bounds of the truncated distribution. -/
def Spec.StandardisedDraws (z : ℕ → ℝ → ℝ → ℝ) : Prop :=
  ∀ k, -3 ≤ z k (-3) 3 ∧ z k (-3) 3 ≤ 3

/-- Each of the six tests can see an interaction: for both agent types some draw is such that the
tested function adds a force to some agent (in the tests of pairs, of the block list and of
walls). -/
def C182_statement : Prop :=
  ∀ kind : Kind,
    (∃ (z : Fin 2 → ℕ → ℝ → ℝ → ℝ) (d : Fin 2 → InteractionDraw),
      (∀ i, Spec.StandardisedDraws (z i) ∧ Spec.InteractionDrawOK (d i)) ∧
      ∃ i, (testAgentInteractions kind (interactionTestArray z kind d) i).force ≠
        (interactionTestArray z kind d i).force) ∧
    (∃ (z : Fin 2 → ℕ → ℝ → ℝ → ℝ) (d : Fin 2 → InteractionDraw) (r : AgentArray 2),
      (∀ i, Spec.StandardisedDraws (z i) ∧ Spec.InteractionDrawOK (d i)) ∧
      testAgentBlockList (fun _ _ => [(0, 1)]) kind (interactionTestArray z kind d) = some r ∧
      ∃ i, (r.rows i).force ≠ (interactionTestArray z kind d i).force) ∧
    ∃ (z : Fin 1 → ℕ → ℝ → ℝ → ℝ) (d : Fin 1 → InteractionDraw) (p : ℝ × ℝ),
      (∀ i, Spec.StandardisedDraws (z i) ∧ Spec.InteractionDrawOK (d i)) ∧
      (|p.1| ≤ 10 ∧ |p.2| ≤ 10) ∧
      ∃ i, (testAgentObstacle kind (interactionTestArray z kind d) p i).force ≠
        (interactionTestArray z kind d i).force

/-- A draw with the largest radius and the velocity zero. -/
noncomputable def sampleInteractionDraw : InteractionDraw := ⟨1, 1 / 2, (3, -4), (0, 0)⟩

lemma sampleInteractionDraw_ok : Spec.InteractionDrawOK sampleInteractionDraw := by
  norm_num [Spec.InteractionDrawOK, sampleInteractionDraw]

lemma zero_standardised : Spec.StandardisedDraws fun _ _ _ => 0 := by
  intro k; norm_num

/-- **C182** (agents at one place) Agents at the same place do not act on each other: the loop over
any list of pairs leaves the forces and torques of all agents unchanged. -/
theorem C182_coincident {n : ℕ} (agents : Crowd n) (pairs : List (Fin n × Fin n))
    (hx : ∀ i j, (agents i).position = (agents j).position) :
    agentAgentCircular agents pairs = agents ∧
    ((∀ i, 0 ≤ (agents i).rS ∧ (agents i).rS < (agents i).rT) →
      agentAgentThreeCircle agents pairs = agents) :=
  ⟨agentAgentCircular_coincident hx pairs,
    fun h => agentAgentThreeCircle_coincident hx h pairs⟩

example : let a : Crowd 2 :=
    ![{ Agent.default with radius := 0.25, rT := 0.15, rS := 0.1, velocity := (1, 0) },
      { Agent.default with radius := 0.25, rT := 0.15, rS := 0.1, velocity := (-1, 0) }]
    (∀ i j, (a i).position = (a j).position) ∧
      ∀ i, 0 ≤ (a i).rS ∧ (a i).rS < (a i).rT := by
  refine ⟨?_, ?_⟩
  · intro i j; fin_cases i <;> fin_cases j <;> rfl
  · intro i; fin_cases i <;> norm_num

/-- **C182** (tests of pairs) Whatever is drawn, the tested functions leave the arrays of the tests
of pairs and of the block list unchanged: the strategies draw an attribute `positions`, which
agents do not have, so all agents are at the origin. -/
theorem C182_unchanged (kind : Kind) :
    (∀ (z : Fin 2 → ℕ → ℝ → ℝ → ℝ) (d : Fin 2 → InteractionDraw),
      (∀ i, Spec.StandardisedDraws (z i) ∧ Spec.InteractionDrawOK (d i)) →
      testAgentInteractions kind (interactionTestArray z kind d) = interactionTestArray z kind d) ∧
    ∀ (n : ℕ) (z : Fin n → ℕ → ℝ → ℝ → ℝ) (d : Fin n → InteractionDraw)
      (cellPairs : (Fin n → Vec) → ℝ → List (Fin n × Fin n)),
      (∀ i, Spec.StandardisedDraws (z i) ∧ Spec.InteractionDrawOK (d i)) →
      testAgentBlockList cellPairs kind (interactionTestArray z kind d) =
        some ⟨.const kind, interactionTestArray z kind d⟩ := by
  have hx : ∀ (n : ℕ) (z : Fin n → ℕ → ℝ → ℝ → ℝ) (d : Fin n → InteractionDraw) (i j : Fin n),
      (interactionTestArray z kind d i).position = (interactionTestArray z kind d j).position := by
    intro n z d i j
    unfold interactionTestArray
    rw [(interactionTestAgent_plain _ _ _).1, (interactionTestAgent_plain _ _ _).1]
  have hb : ∀ (n : ℕ) (z : Fin n → ℕ → ℝ → ℝ → ℝ) (d : Fin n → InteractionDraw),
      (∀ i, Spec.StandardisedDraws (z i) ∧ Spec.InteractionDrawOK (d i)) →
      ∀ i, 0 ≤ (interactionTestArray z kind d i).rS ∧
        (interactionTestArray z kind d i).rS < (interactionTestArray z kind d i).rT := by
    intro n z d h
    have hi : ∀ i, 0 < (d i).radius ∧ (interactionTestArray z kind d i).radius = (d i).radius ∧
        (interactionTestArray z kind d i).rT = 0.5882 * (d i).radius ∧
        (interactionTestArray z kind d i).rS = 0.3725 * (d i).radius := by
      intro i
      obtain ⟨h1, -, h3, h4, -⟩ := interactionTestAgent_body (z i) (h i).1 kind (d i)
        (h i).2.1.1 (h i).2.2.1.1
      exact ⟨(h i).2.1.1, h1, h3, h4⟩
    intro i
    rw [(hi i).2.2.1, (hi i).2.2.2]
    have := (hi i).1
    constructor <;> linarith
  constructor
  · intro z d h
    cases kind
    · exact (C182_coincident _ [(0, 1)] (hx 2 z d)).1
    · exact (C182_coincident _ [(0, 1)] (hx 2 z d)).2 (hb 2 z d h)
  · intro n z d cellPairs h
    unfold testAgentBlockList agentAgentBlockList
    cases kind
    · simp only
      rw [if_pos (by rfl), (C182_coincident _ _ (hx n z d)).1]
    · simp only
      rw [if_neg (by rintro ⟨⟩), if_pos (by rfl), (C182_coincident _ _ (hx n z d)).2 (hb n z d h)]

example : ∀ i : Fin 2, Spec.StandardisedDraws ((fun _ _ _ _ => 0 : Fin 2 → ℕ → ℝ → ℝ → ℝ) i) ∧
    Spec.InteractionDrawOK ((![sampleInteractionDraw, ⟨1 / 4, 1, (3, -4), (1, 0)⟩] :
      Fin 2 → InteractionDraw) i) := by
  intro i
  refine ⟨zero_standardised, ?_⟩
  fin_cases i
  · exact sampleInteractionDraw_ok
  · norm_num [Spec.InteractionDrawOK]

/-- **C182** (refutation) The tests of pairs and of the block list never see an interaction. -/
theorem C182_tests_fails : ¬ C182_statement := by
  intro h
  obtain ⟨⟨z, d, hd, i, hi⟩, -⟩ := h .circular
  exact hi (by rw [(C182_unchanged .circular).1 z d hd])

/-- **C182** (tests of walls) Part of `C182_statement`: the tests of walls can see an interaction. If
the velocity is zero, the wall on the diagonal is not a point and does not touch the axes, and its
end is nearer to the origin than the radius of the torso, then the wall adds a force. -/
theorem C182_walls_partial (kind : Kind) (z : Fin 1 → ℕ → ℝ → ℝ → ℝ) (d : Fin 1 → InteractionDraw)
    (p : ℝ × ℝ) (h : ∀ i, Spec.StandardisedDraws (z i) ∧ Spec.InteractionDrawOK (d i))
    (hv : (d 0).velocity = (0, 0)) (h1 : 0 < p.1) (h2 : 0 < p.2) (hne : p.1 ≠ p.2)
    (hr : Spec.dist (0, 0) (p.1, p.1) < 0.5882 * (d 0).radius) :
    (testAgentObstacle kind (interactionTestArray z kind d) p 0).force ≠
      (interactionTestArray z kind d 0).force := by
  obtain ⟨e, he, hf⟩ := testAgentObstacle_spec kind (interactionTestArray z kind d) p
  have ha : interactionTestArray z kind d 0 = interactionTestAgent (z 0) kind (d 0) := rfl
  rw [hf]
  have hr0 := (h 0).2.1.1
  obtain ⟨b1, -, b3, -, -⟩ := interactionTestAgent_body (z 0) (h 0).1 kind (d 0) hr0
    (h 0).2.2.1.1
  obtain ⟨q1, q2, -, q4⟩ := interactionTestAgent_plain (z 0) kind (d 0)
  rw [ha] at he ⊢
  obtain ⟨c, hc, y, hy, hmin, -, hpush⟩ := he.2 (by
    intro hp
    exact hne (congrArg Prod.fst hp))
  have htorso : ∃ c' ∈ Spec.discs kind (interactionTestAgent (z 0) kind (d 0)),
      c'.1 = (0, 0) ∧ 0.5882 * (d 0).radius ≤ c'.2 := by
    cases kind
    · refine ⟨_, List.mem_singleton_self _, q1, ?_⟩
      show _ ≤ (interactionTestAgent (z 0) .circular (d 0)).radius
      rw [b1]; linarith
    · exact ⟨_, List.mem_cons_self, q1, b3.ge⟩
  obtain ⟨c', hc', hc0, hcr⟩ := htorso
  have hlt : Spec.dist c.1 y < c.2 := by
    have := hmin c' hc' _ (left_mem_segment ℝ _ _)
    rw [hc0] at this
    linarith
  obtain ⟨m, ⟨-, hm1, -, hm3⟩, -⟩ := hpush hlt
  have hcy : c.1 ≠ y := by
    intro hcy
    have hx := interactionTestAgent_discs (z 0) kind (d 0) c hc
    rw [hcy] at hx
    obtain ⟨s, t, hs, ht, hst, rfl⟩ := hy
    simp only [Prod.fst_add, Prod.smul_fst, smul_eq_mul] at hx
    rcases hs.lt_or_eq with hs | hs
    · nlinarith [mul_pos hs h1, mul_nonneg ht h2.le]
    · have : t = 1 := by linarith
      rw [this, ← hs] at hx
      linarith
  have hm := hm1 hcy
  intro hz
  have he0 : e.1 = 0 := by simpa using hz
  rw [he0, q2, hv, q4] at hm3
  have hin : ∀ w : ℝ × ℝ, Spec.inner ((0 : ℝ), (0 : ℝ)) w = 0 := by intro w; simp [Spec.inner]
  rw [hin, hin, mul_zero, mul_zero, zero_smul, zero_smul, sub_zero, add_zero, smul_smul] at hm3
  have hk : (c.2 - Spec.dist c.1 y) * 1.2e5 ≠ 0 := by
    apply mul_ne_zero
    · linarith
    · norm_num
  have : m = 0 := by
    rcases smul_eq_zero.1 hm3.symm with h' | h'
    · exact absurd h' hk
    · exact h'
  rw [this] at hm
  simp [Spec.len] at hm

/-- The end (1/10, 1/10) of the wall of the examples. -/
lemma sampleEnd : Spec.dist (0, 0) ((1 : ℝ) / 10, (1 : ℝ) / 10) < 0.5882 * 1 := by
  unfold Spec.dist Spec.len
  rw [Real.sqrt_lt' (by norm_num)]
  norm_num

example : (sampleInteractionDraw).velocity = (0, 0) ∧ (0 : ℝ) < 1 / 10 ∧ (1 : ℝ) / 10 ≠ 1 ∧
    Spec.dist (0, 0) ((1 : ℝ) / 10, (1 : ℝ) / 10) < 0.5882 * sampleInteractionDraw.radius :=
  ⟨rfl, by norm_num, by norm_num, sampleEnd⟩

/-- **C182** (tests of walls, existence) The last part of `C182_statement`, for both agent types. -/
theorem C182_walls_seen_partial (kind : Kind) :
    ∃ (z : Fin 1 → ℕ → ℝ → ℝ → ℝ) (d : Fin 1 → InteractionDraw) (p : ℝ × ℝ),
      (∀ i, Spec.StandardisedDraws (z i) ∧ Spec.InteractionDrawOK (d i)) ∧
      (|p.1| ≤ 10 ∧ |p.2| ≤ 10) ∧
      ∃ i, (testAgentObstacle kind (interactionTestArray z kind d) p i).force ≠
        (interactionTestArray z kind d i).force := by
  refine ⟨fun _ _ _ _ => 0, fun _ => sampleInteractionDraw, (1 / 10, 1),
    fun _ => ⟨zero_standardised, sampleInteractionDraw_ok⟩, by norm_num, 0, ?_⟩
  exact C182_walls_partial kind _ _ (1 / 10, 1)
    (fun _ => ⟨zero_standardised, sampleInteractionDraw_ok⟩) rfl (by norm_num) (by norm_num)
    (by norm_num) sampleEnd

end CrowdDynamics
