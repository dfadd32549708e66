import Verif.Proofs.LongRun
import Verif.Spec.Momentum

/-!
# Helper lemmas: forces between agents are determined, and opposite
-/

namespace CrowdDynamics

open Spec

variable {n : ℕ}

lemma gradient_unique {E : ℝ × ℝ → ℝ} {g g' p : ℝ × ℝ} (h : IsGradientAt E g p)
    (h' : IsGradientAt E g' p) : g = g' := by
  obtain ⟨L, h1, h2⟩ := h
  obtain ⟨L', h1', h2'⟩ := h'
  obtain rfl := h1.unique h1'
  have e1 := (h2 (1, 0)).symm.trans (h2' (1, 0))
  have e2 := (h2 (0, 1)).symm.trans (h2' (0, 1))
  simp [Spec.inner] at e1 e2
  exact Prod.ext e1 e2

lemma len_zero_iff {v : Vec} (h : len v = 0) : v = 0 := by
  unfold len at h
  rw [Real.sqrt_eq_zero (by positivity)] at h
  ext
  · simp; nlinarith [sq_nonneg v.1, sq_nonneg v.2]
  · simp; nlinarith [sq_nonneg v.1, sq_nonneg v.2]

lemma capped_unique {L : ℝ} {f g g' : ℝ × ℝ} (h : CappedTo L f g) (h' : CappedTo L f g') : g = g' := by
  rcases le_or_gt (len f) L with hf | hf
  · rw [h.1 hf, h'.1 hf]
  · obtain ⟨⟨a, b, ha, hb, e⟩, hl⟩ := h.2 hf
    obtain ⟨⟨a', b', ha', hb', e'⟩, hl'⟩ := h'.2 hf
    have key : ∀ {a b : ℝ} {g : ℝ × ℝ}, 0 < a → 0 < b → a • g = b • f → len g = L →
        (len f) • g = L • f := by
      intro a b g ha hb e hl
      have e2 : a * L = b * len f := by
        have := congrArg len e
        rwa [len_smul', len_smul', abs_of_pos ha, abs_of_pos hb, hl] at this
      have : a • ((len f) • g) = a • (L • f) := by
        rw [smul_comm, e, smul_smul, smul_smul, e2, mul_comm]
      exact smul_right_injective _ ha.ne' this
    have e3 := (key ha hb e hl).trans (key ha' hb' e' hl').symm
    rcases eq_or_ne (len f) 0 with h0 | h0
    · have hf0 : f = 0 := len_zero_iff h0
      subst hf0
      have z : ∀ {a b : ℝ} {g : ℝ × ℝ}, 0 < a → a • g = b • (0 : ℝ × ℝ) → g = 0 := by
        intro a b g ha e
        rw [smul_zero] at e
        exact (smul_eq_zero.1 e).resolve_left ha.ne'
      rw [z ha e, z ha' e']
    · exact smul_right_injective _ h0 e3

lemma social_unique {a b : Agent} {f f' : ℝ × ℝ} (h : IsSocialForce a b f)
    (h' : IsSocialForce a b f') : f = f' := by
  by_cases hc : ∃ t, CollideAt a b t
  · obtain ⟨t, ht⟩ := hc
    obtain ⟨g, h1, h2⟩ := h.1 t ht
    obtain ⟨g', h1', h2'⟩ := h'.1 t ht
    obtain rfl := gradient_unique h1 h1'
    exact capped_unique h2 h2'
  · push Not at hc
    rw [h.2 hc, h'.2 hc]

lemma contact_unique {a b : Agent} {f f' : ℝ × ℝ} (h : IsContactForce a b f)
    (h' : IsContactForce a b f') : f = f' := by
  rcases le_or_gt (a.radius + b.radius) (Spec.dist a.position b.position) with hd | hd
  · rw [h.1 hd, h'.1 hd]
  · obtain ⟨m, h1, -, h2, rfl⟩ := h.2 hd
    obtain ⟨m', h1', -, h2', rfl⟩ := h'.2 hd
    have : m = m' := by
      by_cases hp : a.position = b.position
      · rw [h2 hp, h2' hp]
      · have h0 : Spec.dist a.position b.position ≠ 0 := fun h0 =>
          hp (sub_eq_zero.1 (len_zero_iff h0))
        exact smul_right_injective _ h0 (h1.trans h1'.symm)
    rw [this]

lemma neighbour_unique {a b : Agent} {f f' : ℝ × ℝ} (h : IsNeighbourForce a b f)
    (h' : IsNeighbourForce a b f') : f = f' := by
  rcases le_or_gt (3 + (a.radius + b.radius)) (Spec.dist a.position b.position) with hd | hd
  · rw [h.1 hd, h'.1 hd]
  · obtain ⟨s, c, h1, h2, rfl⟩ := h.2 hd
    obtain ⟨s', c', h1', h2', rfl⟩ := h'.2 hd
    rw [social_unique h1 h1', contact_unique h2 h2']

lemma neighbour_opposite {a b : Agent} (hr : 0 ≤ a.radius + b.radius) (hs : SamePhysics a b)
    {f g : ℝ × ℝ} (hf : IsNeighbourForce a b f) (hg : IsNeighbourForce b a g) : f + g = 0 := by
  rw [neighbour_unique hf (pairForces_spec a b hr),
    neighbour_unique hg (pairForces_spec b a (by linarith)), pairForces_swap a b]
  exact pairForces_opposite hs

/-- The forces between agents cancel. -/
lemma pairs_cancel {crowd : Crowd n} (hr : ∀ k, 0 ≤ (crowd k).radius)
    (hs : ∀ i j, SamePhysics (crowd i) (crowd j)) (F : Fin n → Fin n → ℝ × ℝ)
    (hF : ∀ k j, j ≠ k → IsNeighbourForce (crowd k) (crowd j) (F k j)) :
    ∑ k, ∑ j ∈ Finset.univ.erase k, F k j = 0 := by
  have e : ∀ k, ∑ j ∈ Finset.univ.erase k, F k j = ∑ j, if j = k then 0 else F k j := by
    intro k
    rw [← Finset.sum_filter_add_sum_filter_not Finset.univ (fun j => j = k)]
    have h1 : ∑ x ∈ Finset.univ.filter (fun j => j = k), (if x = k then 0 else F k x) = 0 :=
      Finset.sum_eq_zero fun x hx => if_pos (Finset.mem_filter.1 hx).2
    rw [h1, zero_add]
    have h2 : Finset.univ.erase k = Finset.univ.filter (fun j => ¬ j = k) := by
      ext j; simp
    rw [h2]
    refine Finset.sum_congr rfl fun x hx => ?_
    rw [if_neg (Finset.mem_filter.1 hx).2]
  simp only [e]
  have hcomm := Finset.sum_comm (s := Finset.univ) (t := Finset.univ)
    (f := fun k j : Fin n => if j = k then (0 : ℝ × ℝ) else F k j)
  have hneg : ∑ k, ∑ j, (if j = k then (0 : ℝ × ℝ) else F k j) =
      -∑ k, ∑ j, (if j = k then (0 : ℝ × ℝ) else F k j) := by
    conv_lhs => rw [hcomm]
    rw [← Finset.sum_neg_distrib]
    refine Finset.sum_congr rfl fun j _ => ?_
    rw [← Finset.sum_neg_distrib]
    refine Finset.sum_congr rfl fun k _ => ?_
    by_cases hjk : j = k
    · rw [if_pos hjk, if_pos hjk.symm, neg_zero]
    · rw [if_neg hjk, if_neg (Ne.symm hjk)]
      exact eq_neg_of_add_eq_zero_left
        (neighbour_opposite (add_nonneg (hr k) (hr j)) (hs k j) (hF k j hjk) (hF j k (Ne.symm hjk)))
  exact self_eq_neg.1 hneg

end CrowdDynamics
