import Verif.Proofs.NoSwap
import Verif.Proofs.BodyStride
import Verif.Spec.BodyNoSwap

/-!
# Helper lemmas for C201
-/

namespace CrowdDynamics

open Spec

variable {n : ℕ}

/-- Without contact no three-circle neighbour pushes with more than the maximal social force. -/
lemma body_neighbour_untouched {arm : Fin 3 → Fin 3 → ℝ × ℝ → ℝ × ℝ → Prop} {a b : Agent}
    {e : (ℝ × ℝ) × ℝ} (he : IsBodyEffect arm a b e)
    (hr : ∀ p q, a.radii p + b.radii q ≤ Spec.dist (a.circles p) (b.circles q)) : len e.1 ≤ 2000 := by
  have h0 : len (0 : ℝ × ℝ) ≤ 2000 := by norm_num [len]
  obtain ⟨p, q, m, gap, -, -, hg, h3, h4⟩ := he
  have hgap : 0 ≤ gap := by
    have := hr p q
    linarith
  rcases le_or_gt 3 gap with h | h
  · rw [h3 h]
    exact h0
  · obtain ⟨s, c, r, hs, hc, -, -, rfl⟩ := h4 h
    change len (s + c) ≤ 2000
    rw [hc hgap, add_zero]
    rcases hs.1 with rfl | ⟨_, _, _, -, _, _, _, -, -, -, hf⟩
    · exact h0
    · exact (capped_len hf).trans (by norm_num)

open Classical in
/-- The force on a three-circle agent that touches nothing: random force and social forces. -/
lemma disturbs_body_untouched {env : SimEnv n} {order : List Node} {s t : SimState n} {i : Fin n}
    {d : Vec × ℝ} (hu : BodyTouchesNothing env s.agents.rows i)
    (hd : DisturbsBody env order s t i d) :
    len d.1 ≤ 3 * (s.agents.rows i).mass * (s.agents.rows i).stdRandForce + 2000 * (n - 1) := by
  obtain ⟨f, p, w, hf, ⟨F, hF, hp⟩, hw, rfl⟩ := hd
  have hp0 : len p.1 ≤ 2000 * (n - 1) := by
    rw [hp, Prod.fst_sum]
    have := len_sum_le' (Finset.univ.erase i) (fun j => (F j).1) 2000 fun j hj =>
      body_neighbour_untouched (hF j (Finset.mem_erase.1 hj).1) (hu.1 j (Finset.mem_erase.1 hj).1)
    have hc : ((Finset.univ.erase i).card : ℝ) = n - 1 := by
      rw [Finset.card_erase_of_mem (Finset.mem_univ i), Finset.card_univ, Fintype.card_fin,
        Nat.cast_sub (by have := i.isLt; omega), Nat.cast_one]
    rw [hc] at this
    linarith
  have hw0 : w = 0 := by
    split_ifs at hw with h
    · obtain ⟨F, hF, rfl⟩ := hw
      refine List.sum_eq_zero fun x hx => ?_
      obtain ⟨v, hv, rfl⟩ := List.mem_map.1 hx
      obtain ⟨h1, h2⟩ := hF v
      by_cases hpq : v.1 = v.2
      · exact h1 hpq
      · obtain ⟨c, hc, z, hz, -, h3, -⟩ := h2 hpq
        exact h3 (hu.2 v hv c hc z hz)
    · exact hw
  rw [hw0, add_zero, Prod.fst_add]
  exact (len_add_le' _ _).trans (add_le_add hf.1 hp0)

end CrowdDynamics
