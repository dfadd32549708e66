import Verif.Proofs.Contact
import Verif.Proofs.LongRun
import Verif.Spec.WallWalk

/-!
# Helper lemmas for walking against a wall
-/

namespace CrowdDynamics

open Spec

/-! ## The distance from the wall as a sequence of numbers -/

/-- What is known after an update: the distance `y` from the wall, the velocity `v` and the velocity `w`
with which the last step was taken, both away from the wall. -/
def WalkState (r ε V b P D₁ D κ y v w : ℝ) : Prop :=
  -P ≤ v ∧
  ((r ≤ y ∧ -V ≤ w ∧ -w - V ≤ 2 * ε * (-v - V)) ∨
   (y < r ∧ 0 ≤ w ∧ r - y ≤ D) ∨
   (y < r ∧ w < 0 ∧ r - y ≤ D₁ ∧ w ^ 2 ≤ V ^ 2 + 2 * b * (r - y)) ∨
   (y < r ∧ w < 0 ∧ D₁ < r - y ∧ -P ≤ w ∧ (r - y) + 0.01 * w ^ 2 / (2 * κ) ≤ D))

/-- The constants of a wall contact suit each other. -/
structure WalkConstants (ε V b P D₁ D κ K : ℝ) : Prop where
  eps : 0 ≤ ε
  eps' : ε ≤ 0.3
  V_pos : 0 ≤ V
  b_pos : 0 ≤ b
  P_pos : 0 ≤ P
  D₁_pos : 0 ≤ D₁
  K_pos : 0 < K
  κ_pos : 0 < κ
  turn : 0.01 * ε * b ≤ V * (1 - 2 * ε)
  energy : V ^ 2 + 2 * b * (D₁ + 0.01 * P) ≤ P ^ 2
  small : 0.01 * b ≤ P
  brake : κ ≤ 0.01 * (K * D₁ - b)
  depth : D₁ + 0.01 * P + 0.01 * P ^ 2 / (2 * κ) ≤ D

variable {r ε V b P D₁ D κ K : ℝ}

lemma WalkConstants.depth' (h : WalkConstants ε V b P D₁ D κ K) : D₁ + 0.01 * P ≤ D := by
  have := h.depth
  have h1 : 0 ≤ 0.01 * P ^ 2 / (2 * κ) := div_nonneg (by positivity) (by linarith [h.κ_pos])
  linarith

lemma WalkConstants.V_le (h : WalkConstants ε V b P D₁ D κ K) : V ≤ P := by
  refine abs_le_of_sq_le_sq' ?_ h.P_pos |>.2
  have : 0 ≤ 2 * b * (D₁ + 0.01 * P) :=
    mul_nonneg (by linarith [h.b_pos]) (by linarith [h.D₁_pos, h.P_pos])
  linarith [h.energy]

lemma WalkState.bounds (h : WalkConstants ε V b P D₁ D κ K) {y v w : ℝ}
    (hs : WalkState r ε V b P D₁ D κ y v w) : r - D ≤ y ∧ -P ≤ w ∧ -P ≤ v := by
  have hd := h.depth'
  have hV := h.V_le
  have := h.D₁_pos
  have := h.P_pos
  obtain ⟨h0, ⟨h1, h2, -⟩ | ⟨-, h2, h3⟩ | ⟨-, h2, h3, h4⟩ | ⟨-, h2, h3, h4, h5⟩⟩ := hs
  · exact ⟨by linarith, by linarith, h0⟩
  · exact ⟨by linarith, by linarith, h0⟩
  · refine ⟨by linarith, ?_, h0⟩
    refine (abs_le_of_sq_le_sq' ?_ h.P_pos).1
    refine h4.trans (le_trans ?_ h.energy)
    have : 2 * b * (r - y) ≤ 2 * b * (D₁ + 0.01 * P) :=
      mul_le_mul_of_nonneg_left (by linarith) (by linarith [h.b_pos])
    linarith
  · have h6 : 0 ≤ 0.01 * w ^ 2 / (2 * κ) := div_nonneg (by positivity) (by linarith [h.κ_pos])
    exact ⟨by linarith, h4, h0⟩

/-- A step towards the wall from a small depth. -/
lemma walk_inward (h : WalkConstants ε V b P D₁ D κ K) {δ w δ' : ℝ} (hw : w < 0) (hδ : δ ≤ D₁)
    (e : δ' = δ - 0.01 * w) (hE : w ^ 2 ≤ V ^ 2 + 2 * b * δ') :
    (δ' ≤ D₁ ∧ w ^ 2 ≤ V ^ 2 + 2 * b * δ') ∨
      (D₁ < δ' ∧ -P ≤ w ∧ δ' + 0.01 * w ^ 2 / (2 * κ) ≤ D) := by
  rcases le_or_gt δ' D₁ with hd | hd
  · exact .inl ⟨hd, hE⟩
  · have hP : -P ≤ w := by
      by_contra hc
      push Not at hc
      have h1 : b * (δ - D₁) ≤ 0 := mul_nonpos_of_nonneg_of_nonpos h.b_pos (by linarith)
      have h2 := h.energy
      have h3 : (-w - P) * (-w + P - 0.02 * b) ≤ 0 := by
        rw [e] at hE
        nlinarith
      have h4 : 0 < (-w - P) * (-w + P - 0.02 * b) := mul_pos (by linarith) (by linarith [h.small])
      linarith
    refine .inr ⟨hd, hP, ?_⟩
    have h1 : w ^ 2 ≤ P ^ 2 := by nlinarith [h.P_pos]
    have h2 : 0.01 * w ^ 2 / (2 * κ) ≤ 0.01 * P ^ 2 / (2 * κ) :=
      div_le_div_of_nonneg_right (by linarith) (by linarith [h.κ_pos])
    linarith [h.depth]

/-- One update while the wall is not touched. -/
lemma walk_free (h : WalkConstants ε V b P D₁ D κ K) {y v w y' v' w' : ℝ}
    (hs : WalkState r ε V b P D₁ D κ y v w) (hr : r ≤ y) (hw : w - ε * (V + v) ≤ w')
    (hy : y' = y + 0.01 * w') (hv : v' = (w + w') / 2) : WalkState r ε V b P D₁ D κ y' v' w' := by
  have e0 := h.eps
  have e1 := h.eps'
  have hP := h.V_le
  have hV := h.V_pos
  obtain ⟨h0, ⟨-, h1, h2⟩ | ⟨h9, -⟩ | ⟨h9, -⟩ | ⟨h9, -⟩⟩ := hs
  rotate_left
  iterate 3 exact absurd h9 (not_lt.2 hr)
  have k : (1 - ε) * (-w' - V) ≤ ε * (-w - V) := by
    have k1 : (1 - ε) * (-w' - V) ≤ (1 - ε) * ((-w - V) - ε * (-v - V)) :=
      mul_le_mul_of_nonneg_left (by linarith) (by linarith)
    have k2 : (1 - 2 * ε) * (-w - V) ≤ ε * (1 - ε) * (-v - V) := by
      rcases le_total 0 (-v - V) with hb | hb
      · have q1 : (1 - 2 * ε) * (-w - V) ≤ 0 := mul_nonpos_of_nonneg_of_nonpos (by linarith) (by linarith)
        have q2 : 0 ≤ ε * (1 - ε) * (-v - V) := mul_nonneg (mul_nonneg e0 (by linarith)) hb
        linarith
      · have q1 : (1 - 2 * ε) * (-w - V) ≤ (1 - 2 * ε) * (2 * ε * (-v - V)) :=
          mul_le_mul_of_nonneg_left h2 (by linarith)
        have q2 : ε * (1 - 3 * ε) * (-v - V) ≤ 0 :=
          mul_nonpos_of_nonneg_of_nonpos (mul_nonneg e0 (by linarith)) hb
        nlinarith
    nlinarith
  have k3 : -V ≤ w' := by
    have q : ε * (-w - V) ≤ 0 := mul_nonpos_of_nonneg_of_nonpos e0 (by linarith)
    by_contra hc
    push Not at hc
    have : 0 < (1 - ε) * (-w' - V) := mul_pos (by linarith) (by linarith)
    linarith
  refine ⟨by rw [hv]; linarith, ?_⟩
  rcases le_or_gt r y' with hy' | hy'
  · refine .inl ⟨hy', k3, ?_⟩
    rw [hv]
    linarith
  · have hneg : w' < 0 := by linarith
    have hE : w' ^ 2 ≤ V ^ 2 + 2 * b * (r - y') := by
      have q1 : w' ^ 2 ≤ V ^ 2 := by nlinarith
      have q2 : 0 ≤ 2 * b * (r - y') := mul_nonneg (by linarith [h.b_pos]) (by linarith)
      linarith
    rcases walk_inward h (δ := r - y) (δ' := r - y') hneg (by linarith [h.D₁_pos]) (by rw [hy]; ring) hE with
      ⟨p1, p2⟩ | ⟨p1, p2, p3⟩
    · exact .inr (.inr (.inl ⟨hy', hneg, p1, p2⟩))
    · exact .inr (.inr (.inr ⟨hy', hneg, p1, p2, p3⟩))

/-- One update while the wall is touched. -/
lemma walk_touch (h : WalkConstants ε V b P D₁ D κ K) {y v w y' v' w' : ℝ}
    (hs : WalkState r ε V b P D₁ D κ y v w) (hr : y < r) (hw : w + 0.01 * (K * (r - y) - b) ≤ w')
    (hy : y' = y + 0.01 * w') (hv : v' = (w + w') / 2) : WalkState r ε V b P D₁ D κ y' v' w' := by
  have e0 := h.eps
  have e1 := h.eps'
  have hV := h.V_pos
  have hb := h.b_pos
  have hK : 0 ≤ K * (r - y) := mul_nonneg h.K_pos.le (by linarith)
  obtain ⟨B1, B2, -⟩ := hs.bounds h
  suffices hmain : (r ≤ y' ∧ -V ≤ w' ∧ -w' - V ≤ 2 * ε * (-v' - V)) ∨
      (y' < r ∧ 0 ≤ w' ∧ r - y' ≤ D) ∨
      (y' < r ∧ w' < 0 ∧ r - y' ≤ D₁ ∧ w' ^ 2 ≤ V ^ 2 + 2 * b * (r - y')) ∨
      (y' < r ∧ w' < 0 ∧ D₁ < r - y' ∧ -P ≤ w' ∧ (r - y') + 0.01 * w' ^ 2 / (2 * κ) ≤ D) by
    have hz : WalkState r ε V b P D₁ D κ y' 0 w' ∨ (r ≤ y' ∧ -V ≤ w') := by
      rcases hmain with ⟨p1, p2, -⟩ | p | p | p
      · exact .inr ⟨p1, p2⟩
      · exact .inl ⟨by linarith [h.P_pos], .inr (.inl p)⟩
      · exact .inl ⟨by linarith [h.P_pos], .inr (.inr (.inl p))⟩
      · exact .inl ⟨by linarith [h.P_pos], .inr (.inr (.inr p))⟩
    have hw' : -P ≤ w' := by
      rcases hz with hz | ⟨-, hz⟩
      · exact (hz.bounds h).2.1
      · linarith [h.V_le]
    exact ⟨by rw [hv]; linarith, hmain⟩
  rcases le_or_gt r y' with hy' | hy'
  · have hpos : 0 < w' := by linarith
    refine .inl ⟨hy', by linarith, ?_⟩
    have q1 : ε * w ≤ ε * (w' + 0.01 * b) := mul_le_mul_of_nonneg_left (by linarith) e0
    have q2 : 0 ≤ (1 - 2 * ε) * w' := mul_nonneg (by linarith) hpos.le
    have q3 := h.turn
    rw [hv]
    nlinarith
  · refine .inr ?_
    rcases le_or_gt 0 w' with hw0 | hw0
    · exact .inl ⟨hy', hw0, by linarith⟩
    refine .inr ?_
    have small : r - y ≤ D₁ → w' ^ 2 ≤ V ^ 2 + 2 * b * (r - y') →
        (y' < r ∧ w' < 0 ∧ r - y' ≤ D₁ ∧ w' ^ 2 ≤ V ^ 2 + 2 * b * (r - y')) ∨
        (y' < r ∧ w' < 0 ∧ D₁ < r - y' ∧ -P ≤ w' ∧ (r - y') + 0.01 * w' ^ 2 / (2 * κ) ≤ D) := by
      intro hd hE
      rcases walk_inward h (δ := r - y) (δ' := r - y') hw0 hd (by rw [hy]; ring) hE with
        ⟨p1, p2⟩ | ⟨p1, p2, p3⟩
      · exact .inl ⟨hy', hw0, p1, p2⟩
      · exact .inr ⟨hy', hw0, p1, p2, p3⟩
    obtain ⟨-, ⟨g1, -⟩ | ⟨-, g2, g3⟩ | ⟨-, g2, g3, g4⟩ | ⟨-, g2, g3, g4, g5⟩⟩ := hs
    · exact absurd hr (not_lt.2 g1)
    · refine small ?_ ?_
      · by_contra hc
        push Not at hc
        have q1 := mul_lt_mul_of_pos_left hc h.K_pos
        have q2 := h.brake
        have q3 := h.κ_pos
        linarith
      · have q1 : w' ^ 2 ≤ 0.01 * b * (-w') := by nlinarith
        have q2 : 0 ≤ b * (r - y) := mul_nonneg hb (by linarith)
        rw [hy]
        nlinarith [mul_nonneg hb (neg_nonneg.2 hw0.le), sq_nonneg V]
    · refine small g3 ?_
      have q : w' ^ 2 ≤ w ^ 2 + 0.02 * b * (-w') := by
        rcases le_total w w' with hc | hc
        · have q1 : w' ^ 2 ≤ w ^ 2 := by nlinarith
          nlinarith [mul_nonneg hb (neg_nonneg.2 hw0.le)]
        · nlinarith [mul_nonneg hb (neg_nonneg.2 hw0.le)]
      rw [hy]
      nlinarith
    · refine .inr ?_
      have q1 := mul_lt_mul_of_pos_left g3 h.K_pos
      have q2 := h.brake
      have q3 := h.κ_pos
      have q4 : w + κ ≤ w' := by linarith
      refine ⟨hy', hw0, by linarith, by linarith, ?_⟩
      have q5 : (-w' + κ) ^ 2 ≤ w ^ 2 := by nlinarith
      have q6 : (r - y') + 0.01 * w' ^ 2 / (2 * κ) ≤ (r - y) + 0.01 * w ^ 2 / (2 * κ) := by
        have : 0.01 * w ^ 2 / (2 * κ) - 0.01 * w' ^ 2 / (2 * κ) - 0.01 * (-w') =
            0.01 * (w ^ 2 - w' ^ 2 + 2 * κ * w') / (2 * κ) := by
          field_simp
          ring
        have hpos : 0 ≤ 0.01 * (w ^ 2 - w' ^ 2 + 2 * κ * w') / (2 * κ) :=
          div_nonneg (by nlinarith) (by linarith)
        linarith
      linarith

/-! ## The force of the wall -/

/-- A vector across a wall is a multiple of the upright unit vector. -/
lemma across_wall {d ν u : Vec} (hd : d ≠ 0) (hν : len ν = 1) (h1 : Spec.inner ν d = 0)
    (h2 : Spec.inner u d = 0) : u = Spec.inner u ν • ν := by
  have hn : ν.1 ^ 2 + ν.2 ^ 2 = 1 := by
    have := congrArg (· ^ 2) hν
    simp only [len] at this
    rw [Real.sq_sqrt (by positivity)] at this
    linarith
  simp only [Spec.inner] at *
  have hc : d.2 * ν.1 - d.1 * ν.2 ≠ 0 := by
    intro h
    apply hd
    have e1 : d.1 = 0 := by linear_combination (-d.1) * hn + ν.1 * h1 - ν.2 * h
    have e2 : d.2 = 0 := by linear_combination (-d.2) * hn + ν.2 * h1 + ν.1 * h
    exact Prod.ext e1 e2
  have hu : u.2 * ν.1 - u.1 * ν.2 = 0 := by
    have : (d.2 * ν.1 - d.1 * ν.2) * (u.2 * ν.1 - u.1 * ν.2) = 0 := by
      linear_combination (ν.1 ^ 2 + ν.2 ^ 2) * h2 - (u.1 * ν.1 + u.2 * ν.2) * h1
    exact (mul_eq_zero.1 this).resolve_left hc
  ext
  · simp only [Prod.smul_fst, smul_eq_mul]
    linear_combination (-u.1) * hn - ν.2 * hu
  · simp only [Prod.smul_snd, smul_eq_mul]
    linear_combination (-u.2) * hn + ν.1 * hu

lemma abs_inner_le_len (u ν : Vec) (hν : len ν = 1) : |Spec.inner u ν| ≤ len u := by
  have hn : ν.1 ^ 2 + ν.2 ^ 2 = 1 := by
    have := congrArg (· ^ 2) hν
    simp only [len] at this
    rw [Real.sq_sqrt (by positivity)] at this
    linarith
  refine Real.abs_le_sqrt ?_
  simp only [Spec.inner]
  nlinarith [sq_nonneg (u.1 * ν.2 - u.2 * ν.1)]

/-- The force of a wall on an agent beside it, as far as it leads away from the wall. -/
lemma wall_upright {a : Agent} {p q ν : Vec} {e : Vec × ℝ} (hpq : p ≠ q) (hν : IsNormal p q ν)
    (hb : Beside p q a.position) (hy : 0 < offWall p ν a.position)
    (h : IsWallEffect .circular a p q e) :
    (a.radius ≤ offWall p ν a.position → e.1 = 0) ∧
    (offWall p ν a.position < a.radius → Spec.inner e.1 ν =
      a.mu * (a.radius - offWall p ν a.position) + a.damping * Spec.inner a.velocity ν) := by
  have hd : q - p ≠ 0 := sub_ne_zero.2 hpq.symm
  obtain ⟨n1, n2⟩ := hν
  have hn : ν.1 ^ 2 + ν.2 ^ 2 = 1 := by
    have := congrArg (· ^ 2) n1
    simp only [len] at this
    rw [Real.sq_sqrt (by positivity)] at this
    linarith
  have hdd : 0 < Spec.inner (q - p) (q - p) := by
    rcases (add_nonneg (mul_self_nonneg (q - p).1) (mul_self_nonneg (q - p).2)).lt_or_eq with h0 | h0
    · exact h0
    · exfalso
      apply hd
      have e1 := mul_self_nonneg (q - p).1
      have e2 := mul_self_nonneg (q - p).2
      exact Prod.ext (mul_self_eq_zero.1 (by linarith)) (mul_self_eq_zero.1 (by linarith))
  obtain ⟨t, ht⟩ : ∃ t, t * Spec.inner (q - p) (q - p) = Spec.inner (a.position - p) (q - p) :=
    ⟨_, div_mul_cancel₀ _ hdd.ne'⟩
  obtain ⟨y, hyy⟩ : ∃ y, offWall p ν a.position = y := ⟨_, rfl⟩
  have t0 : 0 ≤ t := by
    by_contra hc
    have := mul_neg_of_neg_of_pos (not_le.1 hc) hdd
    linarith [hb.1]
  have t1 : t ≤ 1 := by
    by_contra hc
    have := mul_lt_mul_of_pos_right (not_le.1 hc) hdd
    linarith [hb.2]
  have hfoot : p + t • (q - p) ∈ segment ℝ p q :=
    ⟨1 - t, t, by linarith, t0, by ring, by
      ext
      · simp only [Prod.fst_add, Prod.smul_fst, Prod.fst_sub, smul_eq_mul]; ring
      · simp only [Prod.snd_add, Prod.smul_snd, Prod.snd_sub, smul_eq_mul]; ring⟩
  have hoff : a.position - (p + t • (q - p)) = y • ν := by
    have h0 : Spec.inner (a.position - (p + t • (q - p))) (q - p) = 0 := by
      simp only [Spec.inner, Prod.fst_add, Prod.snd_add, Prod.smul_fst, Prod.smul_snd, Prod.fst_sub,
        Prod.snd_sub, smul_eq_mul] at ht ⊢
      linear_combination -ht
    rw [across_wall hd n1 n2 h0, ← hyy]
    congr 1
    simp only [offWall, Spec.inner, Prod.fst_add, Prod.snd_add, Prod.smul_fst, Prod.smul_snd,
      Prod.fst_sub, Prod.snd_sub, smul_eq_mul] at n2 ⊢
    linear_combination -t * n2
  rw [hyy] at hy ⊢
  have hdist : Spec.dist a.position (p + t • (q - p)) = y := by
    unfold Spec.dist
    rw [hoff, len_smul', n1, mul_one, abs_of_pos hy]
  obtain ⟨c, hc, z, hz, hmin, h1, h2⟩ := h.2 hpq
  simp only [discs, List.mem_singleton] at hc
  subst hc
  have hz' : z = p + t • (q - p) := by
    refine nearest_unique (w := ⟨p, q⟩) (p := a.position) ⟨hz, fun z' hz' => ?_⟩ ⟨hfoot, fun z' hz' => ?_⟩
    · have := hmin (a.position, a.radius) (by simp [discs]) z' hz'
      simp only at this
      linarith
    · rw [hdist]
      refine le_trans (le_of_eq ?_) ((le_abs_self _).trans (abs_inner_le_len (a.position - z') ν n1))
      rw [← hyy]
      obtain ⟨s, s', -, -, hs, rfl⟩ := hz'
      simp only [offWall, Spec.inner, Prod.fst_add, Prod.snd_add, Prod.smul_fst, Prod.smul_snd,
        Prod.fst_sub, Prod.snd_sub, smul_eq_mul] at n2 ⊢
      linear_combination (p.1 * ν.1 + p.2 * ν.2) * hs + s' * n2
  subst hz'
  simp only at h1 h2
  rw [hdist] at h1 h2
  refine ⟨fun hr => congrArg Prod.fst (h1 hr), fun hr => ?_⟩
  obtain ⟨m, ⟨m1, -, -, m4⟩, -⟩ := h2 hr
  rw [hdist, hoff] at m1
  have hm : m = ν := by
    have := congrArg ((1 / y) • ·) m1
    simpa [smul_smul, hy.ne'] using this
  rw [m4, hdist, hm]
  simp only [Spec.inner, Prod.fst_add, Prod.snd_add, Prod.smul_fst, Prod.smul_snd, Prod.fst_sub,
    Prod.snd_sub, smul_eq_mul]
  linear_combination (a.mu * (a.radius - y) + a.damping * (a.velocity.1 * ν.1 + a.velocity.2 * ν.2)) * hn

/-! ## The run -/

variable {n : ℕ}

lemma inner_add_wall (a b c : Vec) : Spec.inner (a + b) c = Spec.inner a c + Spec.inner b c := by
  simp only [Spec.inner, Prod.fst_add, Prod.snd_add]
  ring

lemma inner_sub_wall (a b c : Vec) : Spec.inner (a - b) c = Spec.inner a c - Spec.inner b c := by
  simp only [Spec.inner, Prod.fst_sub, Prod.snd_sub]
  ring

lemma inner_smul_wall (t : ℝ) (a c : Vec) : Spec.inner (t • a) c = t * Spec.inner a c := by
  simp only [Spec.inner, Prod.smul_fst, Prod.smul_snd, smul_eq_mul]
  ring

/-- A run against a wall. -/
lemma wall_walk {env : SimEnv n} {e : LogicExpr} {order : List Node} {s : SimState n} {N : ℕ}
    {S : ℕ → SimState n} (h : ShippedRun env e order s N S) (i : Fin n) {p q ν : Vec} {V P D F : ℝ}
    (hpq : p ≠ q) (hν : IsNormal p q ν) (hg : StopsWithin (s.agents.rows i) V P D)
    (hv : 0 ≤ (s.agents.rows i).targetVelocity)
    (hd : ∀ j < N, len ((S (j + 1)).agents.rows i).targetDirection ≤ 1)
    (hF : ∀ j < N, ∀ d, Disturbs env order (S j) (S (j + 1)) i d →
      ∃ f, IsWallEffect .circular (aiming (S j) (S (j + 1)) i) p q f ∧ len (d - f.1) ≤ F)
    (hV : (s.agents.rows i).targetVelocity +
      (s.agents.rows i).tauAdj * F / (s.agents.rows i).mass ≤ V)
    (h0 : len (s.agents.rows i).velocity ≤ V)
    (hside : (s.agents.rows i).radius ≤ offWall p ν (s.agents.rows i).position)
    (hbeside : ∀ j < N, Beside p q ((S j).agents.rows i).position) :
    ∀ j ≤ N, (s.agents.rows i).radius - D ≤ offWall p ν ((S j).agents.rows i).position ∧
      -P ≤ Spec.inner ((S j).agents.rows i).velocity ν := by
  obtain ⟨A, U, hD, hU⟩ := run_drive h i
  have hbody := completed_body h.order h.completed
  have hm := h.regular.mass i
  have htau := h.regular.tau i
  have hfirst := h.completed.first
  obtain ⟨a, ha⟩ : ∃ a, s.agents.rows i = a := ⟨_, rfl⟩
  rw [ha] at hg hv hV h0 hside hD hU hm htau ⊢
  obtain ⟨ht, hc, hP, hDr, D₁, κ, hD₁, hκ, g1, g2, g3, g4, g5⟩ := hg
  obtain ⟨b, hb⟩ : ∃ b, (a.damping / a.mass - 1 / a.tauAdj) * P + V / a.tauAdj = b := ⟨_, rfl⟩
  rw [hb] at g1 g2 g3 g4
  have hV0 : 0 ≤ V := (Real.sqrt_nonneg _).trans h0
  have hγ : 0 ≤ a.damping / a.mass - 1 / a.tauAdj := by
    rw [sub_nonneg, div_le_div_iff₀ htau hm]
    linarith
  have hb0 : 0 ≤ b := by
    rw [← hb]
    exact add_nonneg (mul_nonneg hγ hP) (div_nonneg hV0 htau.le)
  have hK : 0 < a.mu / a.mass := by
    by_contra hc
    have := mul_nonpos_of_nonpos_of_nonneg (not_lt.1 hc) hD₁
    linarith
  have hC : WalkConstants (0.01 / a.tauAdj) V b P D₁ D κ (a.mu / a.mass) :=
    ⟨by positivity, by rw [div_le_iff₀ htau]; linarith, hV0, hb0, hP, hD₁, hK, hκ,
      by
        have e1 : 0.01 * (0.01 / a.tauAdj) * b = 0.0001 * b / a.tauAdj := by ring
        have e2 : V * (1 - 2 * (0.01 / a.tauAdj)) = V * (1 - 0.02 / a.tauAdj) := by ring
        rw [e1, e2]
        exact g1, g2, g3, g4, g5⟩
  -- the sequences
  let W : ℕ → ℝ := fun j => match j with
    | 0 => Spec.inner ((S 0).agents.rows i).velocity ν
    | j + 1 => Spec.inner ((S (j + 1)).agents.rows i).velocity ν + 0.005 * Spec.inner (A j) ν
  have hW : ∀ j < N, W (j + 1) = W j + 0.01 * Spec.inner (A j) ν := by
    intro j hj
    rcases j with - | j
    · have := congrArg (Spec.inner · ν) (hD.first hj)
      simp only [inner_add_wall, inner_smul_wall] at this
      change Spec.inner ((S (0 + 1)).agents.rows i).velocity ν + 0.005 * Spec.inner (A 0) ν =
        Spec.inner ((S 0).agents.rows i).velocity ν + 0.01 * Spec.inner (A 0) ν
      rw [zero_add, this]
      ring
    · have := congrArg (Spec.inner · ν) (hD.next j hj)
      simp only [inner_add_wall, inner_smul_wall] at this
      change Spec.inner ((S (j + 2)).agents.rows i).velocity ν + 0.005 * Spec.inner (A (j + 1)) ν =
        Spec.inner ((S (j + 1)).agents.rows i).velocity ν + 0.005 * Spec.inner (A j) ν +
          0.01 * Spec.inner (A (j + 1)) ν
      rw [this]
      ring
  have hvW : ∀ j < N, Spec.inner ((S (j + 1)).agents.rows i).velocity ν = (W j + W (j + 1)) / 2 := by
    intro j hj
    have h1 := hW j hj
    have h2 : W (j + 1) =
        Spec.inner ((S (j + 1)).agents.rows i).velocity ν + 0.005 * Spec.inner (A j) ν := rfl
    linarith
  have hyW : ∀ j < N, offWall p ν ((S (j + 1)).agents.rows i).position =
      offWall p ν ((S j).agents.rows i).position + 0.01 * W (j + 1) := by
    intro j hj
    have h2 : W (j + 1) =
        Spec.inner ((S (j + 1)).agents.rows i).velocity ν + 0.005 * Spec.inner (A j) ν := rfl
    unfold offWall
    rw [(hU j hj).2, h2]
    simp only [inner_sub_wall, inner_add_wall, inner_smul_wall]
    ring
  have key : ∀ j ≤ N, WalkState a.radius (0.01 / a.tauAdj) V b P D₁ D κ
      (offWall p ν ((S j).agents.rows i).position) (Spec.inner ((S j).agents.rows i).velocity ν) (W j) := by
    intro j
    induction j with
    | zero =>
      intro _
      have hlo : -V ≤ Spec.inner ((S 0).agents.rows i).velocity ν := by
        rw [hfirst, ha]
        have := (neg_le_abs (Spec.inner a.velocity ν)).trans (abs_inner_le_len a.velocity ν hν.1)
        linarith
      refine ⟨by linarith [hC.V_le], .inl ⟨by rw [hfirst, ha]; exact hside, hlo, ?_⟩⟩
      change -(Spec.inner ((S 0).agents.rows i).velocity ν) - V ≤ _
      have : 0 ≤ (1 - 2 * (0.01 / a.tauAdj)) * (Spec.inner ((S 0).agents.rows i).velocity ν + V) :=
        mul_nonneg (by linarith [hC.eps']) (by linarith)
      nlinarith
    | succ j ih =>
      intro hj
      have ih := ih (by omega)
      have hj' : j < N := by omega
      obtain ⟨⟨d, hd1, hd2⟩, -⟩ := hU j hj'
      obtain ⟨f, hf1, hf2⟩ := hF j hj' d hd1
      obtain ⟨b1, b2, b3⟩ := ih.bounds hC
      have hbd := (hbody j (by omega)).2 i
      rw [ha] at hbd
      have hw := wall_upright (a := aiming (S j) (S (j + 1)) i) hpq hν (hbeside j hj')
        (show 0 < offWall p ν ((S j).agents.rows i).position by linarith) hf1
      have r1 : (aiming (S j) (S (j + 1)) i).radius = a.radius := hbd.radius.symm
      have r2 : (aiming (S j) (S (j + 1)) i).mu = a.mu := hbd.mu.symm
      have r3 : (aiming (S j) (S (j + 1)) i).damping = a.damping := hbd.damping.symm
      have r4 : (aiming (S j) (S (j + 1)) i).position = ((S j).agents.rows i).position := rfl
      have r5 : (aiming (S j) (S (j + 1)) i).velocity = ((S j).agents.rows i).velocity := rfl
      rw [r1, r2, r3, r4, r5] at hw
      -- what the agent is driven to, apart from the wall
      have hu : -V ≤ Spec.inner (a.targetVelocity • ((S (j + 1)).agents.rows i).targetDirection +
          (a.tauAdj / a.mass) • (d - f.1)) ν := by
        have q1 := (neg_le_abs _).trans (abs_inner_le_len (a.targetVelocity •
          ((S (j + 1)).agents.rows i).targetDirection + (a.tauAdj / a.mass) • (d - f.1)) ν hν.1)
        have q2 := len_add_le' (a.targetVelocity • ((S (j + 1)).agents.rows i).targetDirection)
          ((a.tauAdj / a.mass) • (d - f.1))
        rw [len_smul', len_smul', abs_of_nonneg hv, abs_of_nonneg (div_pos htau hm).le] at q2
        have q3 := mul_le_mul_of_nonneg_left (hd j hj') hv
        have q4 := mul_le_mul_of_nonneg_left hf2 (div_pos htau hm).le
        rw [mul_one] at q3
        rw [mul_div_right_comm] at hV
        linarith
      have hA : a.tauAdj * Spec.inner (A j) ν =
          Spec.inner (a.targetVelocity • ((S (j + 1)).agents.rows i).targetDirection +
            (a.tauAdj / a.mass) • (d - f.1)) ν + a.tauAdj / a.mass * Spec.inner f.1 ν -
          Spec.inner ((S j).agents.rows i).velocity ν := by
        have := congrArg (Spec.inner · ν) (hD.drive j hj')
        simp only [inner_smul_wall, inner_sub_wall] at this
        rw [this, hd2]
        simp only [inner_sub_wall, inner_add_wall, inner_smul_wall]
        ring
      obtain ⟨u, hu'⟩ : ∃ u, Spec.inner (a.targetVelocity •
        ((S (j + 1)).agents.rows i).targetDirection + (a.tauAdj / a.mass) • (d - f.1)) ν = u := ⟨_, rfl⟩
      rw [hu'] at hu hA
      have hWj := hW j hj'
      have hvj := hvW j hj'
      have hyj := hyW j hj'
      obtain ⟨v, hv'⟩ : ∃ v, Spec.inner ((S j).agents.rows i).velocity ν = v := ⟨_, rfl⟩
      obtain ⟨y, hy'⟩ : ∃ y, offWall p ν ((S j).agents.rows i).position = y := ⟨_, rfl⟩
      obtain ⟨α, hα⟩ : ∃ α, Spec.inner (A j) ν = α := ⟨_, rfl⟩
      rw [hv', hy'] at ih
      rw [hv', hα] at hA
      rw [hv', hy'] at hw
      rw [hy'] at hyj
      rw [hα] at hWj
      rw [hv'] at b3
      have hα' : α = (u - v) / a.tauAdj + Spec.inner f.1 ν / a.mass := by
        field_simp
        field_simp at hA
        linear_combination hA
      rcases le_or_gt a.radius y with hr | hr
      · refine walk_free hC ih hr ?_ hyj hvj
        rw [hWj, hα', hw.1 hr]
        have q : Spec.inner (0 : Vec) ν = 0 := by simp [Spec.inner]
        rw [q, zero_div, add_zero]
        have : 0.01 / a.tauAdj * (-V) ≤ 0.01 / a.tauAdj * u :=
          mul_le_mul_of_nonneg_left hu hC.eps
        have e1 : 0.01 * ((u - v) / a.tauAdj) = 0.01 / a.tauAdj * u - 0.01 / a.tauAdj * v := by ring
        rw [e1]
        linarith
      · refine walk_touch hC ih hr ?_ hyj hvj
        rw [hWj, hα', hw.2 hr, ← hb]
        have q1 : (-V) / a.tauAdj ≤ u / a.tauAdj := div_le_div_of_nonneg_right hu htau.le
        have q2 := mul_le_mul_of_nonneg_left b3 hγ
        have e1 : (u - v) / a.tauAdj + (a.mu * (a.radius - y) + a.damping * v) / a.mass =
            u / a.tauAdj + a.mu / a.mass * (a.radius - y) +
              (a.damping / a.mass - 1 / a.tauAdj) * v := by ring
        rw [e1]
        rw [neg_div] at q1
        linarith
  exact fun j hj => ⟨((key j hj).bounds hC).1, ((key j hj).bounds hC).2.2⟩

/-- What acts on an agent who touches only one wall. -/
lemma touches_only {env : SimEnv n} {order : List Node} {s t : SimState n} {i : Fin n} {d : Vec}
    {w : Vec × Vec} (ho : .agentObstacle ∈ order) (hu : TouchesOnly env s.agents.rows i w)
    (hd : Disturbs env order s t i d) :
    ∃ f, IsWallEffect .circular (aiming s t i) w.1 w.2 f ∧
      len (d - f.1) ≤ 3 * (s.agents.rows i).mass * (s.agents.rows i).stdRandForce := by
  obtain ⟨f, p, g, hf, ⟨F, hF, hp⟩, hw, rfl⟩ := hd
  obtain ⟨hu1, l₁, l₂, hl, hu2⟩ := hu
  have hp0 : p = 0 := by
    rw [hp]
    refine Finset.sum_eq_zero fun j hj => ?_
    have hj := (Finset.mem_erase.1 hj).1
    exact (hF j hj).1 (hu1 j hj)
  rw [if_pos ho] at hw
  obtain ⟨G, hG, rfl⟩ := hw
  refine ⟨_, hG w, ?_⟩
  have h0 : ∀ l : List (Vec × Vec), (∀ v ∈ l, v ∈ l₁ ++ l₂) → (l.map G).sum = 0 := fun l hsub =>
    List.sum_eq_zero fun x hx => by
      obtain ⟨v, hv, rfl⟩ := List.mem_map.1 hx
      obtain ⟨h1, h2⟩ := hG v
      by_cases hpq : v.1 = v.2
      · exact congrArg Prod.fst (h1 hpq)
      · obtain ⟨c, hc, z, hz, -, h3, -⟩ := h2 hpq
        have : c = ((aiming s t i).position, (aiming s t i).radius) := by simpa [discs] using hc
        subst this
        exact congrArg Prod.fst (h3 (hu2 v (hsub v hv) z hz))
  rw [hl, List.map_append, List.map_cons, List.sum_append, List.sum_cons,
    h0 l₁ (fun v hv => List.mem_append_left _ hv), h0 l₂ (fun v hv => List.mem_append_right _ hv), hp0]
  simp only [add_zero, zero_add, add_sub_cancel_right]
  exact hf

/-- Two points on the same side of a wall. -/
lemma same_side {p q ν x y : Vec} (hν : IsNormal p q ν) (hx : 0 < offWall p ν x) (hy : 0 < offWall p ν y) :
    Disjoint (segment ℝ x y) (segment ℝ p q) := by
  rw [Set.disjoint_left]
  rintro z ⟨a, b, ha, hb, hab, rfl⟩ ⟨c, d, hc, hd, hcd, he⟩
  have h1 := congrArg Prod.fst he
  have h2 := congrArg Prod.snd he
  have h3 := hν.2
  simp only [offWall, Spec.inner, Prod.fst_add, Prod.snd_add, Prod.smul_fst, Prod.smul_snd, Prod.fst_sub,
    Prod.snd_sub, smul_eq_mul] at *
  have key : a * ((x.1 - p.1) * ν.1 + (x.2 - p.2) * ν.2) + b * ((y.1 - p.1) * ν.1 + (y.2 - p.2) * ν.2) = 0 := by
    linear_combination (-(p.1 * ν.1 + p.2 * ν.2)) * hab - ν.1 * h1 - ν.2 * h2 +
      (p.1 * ν.1 + p.2 * ν.2) * hcd + d * h3
  rcases ha.lt_or_eq with ha | ha
  · have q1 := mul_pos ha hx
    have q2 := mul_nonneg hb hy.le
    linarith
  · have hb1 : b = 1 := by linarith
    rw [← ha, hb1] at key
    linarith

/-- The constants of the code and of the shipped bodies. -/
lemma shipped_stops {a : Agent} (ht : a.tauAdj = 0.5) (hmu : a.mu = 1.2e5) (hd : a.damping = 500)
    (hr : 0.19 ≤ a.radius) (hm : 50 ≤ a.mass) (hm' : a.mass ≤ 90) : StopsWithin a 1.75 2.7 0.15 := by
  have m0 : 0 < a.mass := by linarith
  obtain ⟨x, hx⟩ : ∃ x, 1 / a.mass = x := ⟨_, rfl⟩
  have x1 : x ≤ 0.02 := by rw [← hx, div_le_iff₀ m0]; linarith
  have x2 : 1 / 90 ≤ x := by rw [← hx, div_le_div_iff₀ (by norm_num) m0]; linarith
  have e1 : (500 : ℝ) / a.mass = 500 * x := by rw [← hx]; ring
  have e2 : (1.2e5 : ℝ) / a.mass = 1.2e5 * x := by rw [← hx]; ring
  refine ⟨by rw [ht]; norm_num, by rw [hd, ht]; linarith, by norm_num, by linarith, 0.05, 0.53,
    by norm_num, by norm_num, ?_⟩
  simp only [ht, hmu, hd, e1, e2]
  refine ⟨?_, ?_, ?_, ?_, ?_⟩ <;> norm_num <;> linarith

end CrowdDynamics
