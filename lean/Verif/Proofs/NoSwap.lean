import Verif.Proofs.LongRunCases
import Verif.Proofs.MomentumCases
import Verif.Proofs.Standoff
import Verif.Spec.NoSwap

/-!
# Helper lemmas for C197
-/

namespace CrowdDynamics

open Spec

variable {n : ℕ}

/-- Without contact no neighbour pushes with more than the maximal social force. -/
lemma neighbour_untouched {a b : Agent} {F : ℝ × ℝ} (hF : IsNeighbourForce a b F)
    (hr : a.radius + b.radius ≤ Spec.dist a.position b.position) : len F ≤ 2000 := by
  have h0 : len (0 : ℝ × ℝ) ≤ 2000 := by norm_num [len]
  rcases le_or_gt (3 + (a.radius + b.radius)) (Spec.dist a.position b.position) with h3 | h3
  · rw [hF.1 h3]
    exact h0
  · obtain ⟨s, c, hs, hc, rfl⟩ := hF.2 h3
    rw [hc.1 hr, add_zero]
    by_cases h : ∃ t, CollideAt a b t
    · obtain ⟨t, ht⟩ := h
      obtain ⟨g, -, hg⟩ := hs.1 t ht
      exact (capped_len hg).trans (by norm_num)
    · rw [hs.2 (not_exists.1 h)]
      exact h0

lemma len_sum_le' {ι : Type*} (A : Finset ι) (F : ι → ℝ × ℝ) (b : ℝ) (h : ∀ j ∈ A, len (F j) ≤ b) :
    len (∑ j ∈ A, F j) ≤ A.card * b := by
  classical
  induction A using Finset.induction_on with
  | empty => simp [len]
  | insert j A hj ih =>
    rw [Finset.sum_insert hj, Finset.card_insert_of_notMem hj]
    have h1 := len_add_le' (F j) (∑ j ∈ A, F j)
    have h2 := h j (Finset.mem_insert_self _ _)
    have h3 := ih fun k hk => h k (Finset.mem_insert_of_mem hk)
    push_cast
    linarith

open Classical in
/-- What acts on an agent that touches nothing: the random force and the social forces. -/
lemma disturbs_untouched {env : SimEnv n} {order : List Node} {s t : SimState n} {i : Fin n} {d : Vec}
    (hu : TouchesNothing env s.agents.rows i) (hd : Disturbs env order s t i d) :
    len d ≤ 3 * (s.agents.rows i).mass * (s.agents.rows i).stdRandForce + 2000 * (n - 1) := by
  obtain ⟨f, p, w, hf, ⟨F, hF, hp⟩, hw, rfl⟩ := hd
  have hp0 : len p ≤ 2000 * (n - 1) := by
    rw [hp]
    have := len_sum_le' (Finset.univ.erase i) F 2000 fun j hj =>
      neighbour_untouched (hF j (Finset.mem_erase.1 hj).1) (hu.1 j (Finset.mem_erase.1 hj).1)
    have hc : ((Finset.univ.erase i).card : ℝ) = n - 1 := by
      rw [Finset.card_erase_of_mem (Finset.mem_univ i), Finset.card_univ, Fintype.card_fin,
        Nat.cast_sub (by have := i.isLt; omega), Nat.cast_one]
    rw [hc] at this
    linarith
  have hw0 : w = 0 := by
    split_ifs at hw with h
    · obtain ⟨F, hF, rfl⟩ := hw
      refine List.sum_eq_zero fun x hx => ?_
      obtain ⟨v, hv, rfl⟩ := List.mem_map.1 hx
      obtain ⟨h1, h2⟩ := hF v
      by_cases hpq : v.1 = v.2
      · exact congrArg Prod.fst (h1 hpq)
      · obtain ⟨c, hc, z, hz, -, h3, -⟩ := h2 hpq
        have : c = ((aiming s t i).position, (aiming s t i).radius) := by simpa [discs] using hc
        subst this
        exact congrArg Prod.fst (h3 (hu.2 v hv z hz))
    · exact hw
  rw [hw0, add_zero]
  exact (len_add_le' _ _).trans (add_le_add hf hp0)

lemma inner_ge_neg (a b : ℝ × ℝ) : -(len a * len b) ≤ Spec.inner a b := by
  have h : |Spec.inner a b| ≤ len a * len b := by
    unfold len Spec.inner
    rw [← Real.sqrt_mul (by positivity)]
    exact Real.abs_le_sqrt (by nlinarith [sq_nonneg (a.1 * b.2 - a.2 * b.1)])
  exact (abs_le.1 h).1

/-- Short steps do not change sides. -/
lemma keepSides_of_steps {p q p' q' : ℝ × ℝ} {x y : ℝ} (hx : Spec.dist p' p ≤ x)
    (hy : Spec.dist q' q ≤ y) (h : x + y < Spec.dist p q) : KeepSides p q p' q' := by
  intro t h0 h1
  have e : (p + t • (p' - p)) - (q + t • (q' - q)) = (p - q) + t • ((p' - p) + -(q' - q)) := by module
  have h2 : len ((p' - p) + -(q' - q)) ≤ x + y :=
    (len_add_le' _ _).trans (add_le_add hx (by rw [len_neg']; exact hy))
  have h3 := inner_ge_neg (p - q) ((p' - p) + -(q' - q))
  have h4 : Spec.inner (p - q) (p - q) = Spec.dist p q ^ 2 := by
    unfold Spec.dist len Spec.inner
    rw [Real.sq_sqrt (by positivity)]
    ring
  have h5 : Spec.inner (p - q) ((p - q) + t • ((p' - p) + -(q' - q))) =
      Spec.inner (p - q) (p - q) + t * Spec.inner (p - q) ((p' - p) + -(q' - q)) := by
    unfold Spec.inner
    simp only [Prod.fst_add, Prod.snd_add, Prod.smul_fst, Prod.smul_snd, smul_eq_mul]
    ring
  have hd : len (p - q) = Spec.dist p q := rfl
  have n1 := len_nonneg' ((p' - p) + -(q' - q))
  have hpos : 0 < Spec.dist p q := lt_of_le_of_lt (n1.trans h2) h
  rw [e, h5, h4]
  rw [hd] at h3
  have h6 : Spec.dist p q * len ((p' - p) + -(q' - q)) < Spec.dist p q ^ 2 := by
    rw [sq]
    exact mul_lt_mul_of_pos_left (h2.trans_lt h) hpos
  have h7 := mul_le_mul_of_nonneg_left h3 h0
  have h8 := mul_le_mul_of_nonneg_right h1 (mul_nonneg hpos.le n1)
  nlinarith

end CrowdDynamics
